import Verif.Proof.CuckooErrors
import Verif.Props.Cuckoo

/-! # Which error Cuckoo and Cuckaroo verification returns, and clients with unusual parameters (C78) -/

set_option autoImplicit false

namespace Verif.Props

open Cuckoo Spec
open Siphash (Keys)

/-- What a verifier of `L`-cycles in the graph with `2^edgeBits` edges, with end points `u` and `v`, has to answer. -/
structure Answers (edgeBits L : Nat) (u v : U64 → U64) (sols : List U64) (r : Go (Bool × Option Err)) : Prop where
  /-- it answers: with an error and `false`, or without error and `true` -/
  total : r = .ok (true, none) ∨ ∃ e, r = .ok (false, some e)
  wrongLength : r = .ok (false, some .wrongLength) ↔ sols.length ≠ L
  tooBig : r = .ok (false, some .tooBig) ↔ sols.length = L ∧ ∃ e ∈ sols, 2 ^ edgeBits ≤ e.toNat
  notMatching : r = .ok (false, some .notMatching) ↔ sols.length = L ∧ (∀ e ∈ sols, e.toNat < 2 ^ edgeBits) ∧
    (xorOf (sols.map u) ≠ 0 ∨ xorOf (sols.map v) ≠ 0)
  deadEnd : r = .ok (false, some .deadEnd) ↔ sols.length = L ∧ (∀ e ∈ sols, e.toNat < 2 ^ edgeBits) ∧
    (xorOf (sols.map u) = 0 ∧ xorOf (sols.map v) = 0) ∧ DeadEnd u v sols
  branch : r = .ok (false, some .branch) ↔ sols.length = L ∧ (∀ e ∈ sols, e.toNat < 2 ^ edgeBits) ∧
    (xorOf (sols.map u) = 0 ∧ xorOf (sols.map v) = 0) ∧ Branches u v sols
  /-- the first edge is on a cycle that is a component of its own and leaves some of the edges over -/
  shortCycle : r = .ok (false, some .shortCycle) ↔ sols.length = L ∧ (∀ e ∈ sols, e.toNat < 2 ^ edgeBits) ∧
    (xorOf (sols.map u) = 0 ∧ xorOf (sols.map v) = 0) ∧ ∃ T, T < L ∧ FirstOnCycle u v sols T
  accept : r = .ok (true, none) ↔ sols.length = L ∧ (∀ e ∈ sols, e.toNat < 2 ^ edgeBits) ∧
    (xorOf (sols.map u) = 0 ∧ xorOf (sols.map v) = 0) ∧ Returns u v sols L
  noTooSmall : ∀ b, r ≠ .ok (b, some .tooSmall)
  noUnsupported : ∀ b, r ≠ .ok (b, some .unsupported)

theorem answers_of_result {edgeBits : Nat} {u v : U64 → U64} {sols : List U64} (hL : 0 < sols.length) {r : Bool × Option Err}
    (h : Result (maskOf edgeBits) u v sols r) : Answers edgeBits sols.length u v sols (.ok r) := by
  have hall : (∀ e ∈ sols, e ≤ maskOf edgeBits) ↔ ∀ e ∈ sols, e.toNat < 2 ^ edgeBits := by simp only [le_mask_iff]
  have hbig : (∃ e ∈ sols, maskOf edgeBits < e) ↔ ∃ e ∈ sols, 2 ^ edgeBits ≤ e.toNat := by
    constructor
    · rintro ⟨e, he, hlt⟩
      refine ⟨e, he, ?_⟩
      by_contra hc
      have := (le_mask_iff edgeBits e).mpr (by omega)
      rw [BitVec.le_def] at this
      rw [BitVec.lt_def] at hlt
      omega
    · rintro ⟨e, he, hge⟩
      refine ⟨e, he, ?_⟩
      by_contra hc
      rw [BitVec.lt_def, Nat.not_lt, ← BitVec.le_def] at hc
      have := (le_mask_iff edgeBits e).mp hc
      omega
  have hiff : ∀ r', (Except.ok r : Go (Bool × Option Err)) = .ok r' ↔ Result (maskOf edgeBits) u v sols r' := fun r' =>
    ⟨fun e => by rw [← Except.ok.inj e]; exact h, fun h' => congrArg Except.ok (h.unique hL h')⟩
  constructor
  · cases h
    all_goals first | exact Or.inl rfl | exact Or.inr ⟨_, rfl⟩
  · rw [hiff]
    exact ⟨nofun, fun h => absurd rfl h⟩
  · rw [hiff, ← hbig]
    exact ⟨fun h => by cases h with | tooBig h => exact ⟨rfl, h⟩, fun h => .tooBig h.2⟩
  · rw [hiff, ← hall]
    constructor
    · intro h
      cases h with
      | notMatching h1 h2 =>
        refine ⟨rfl, h1, ?_⟩
        by_cases hu : xorOf (sols.map u) = 0
        · exact Or.inr fun hv => h2 ⟨hu, hv⟩
        · exact Or.inl hu
    · rintro ⟨_, h1, h2⟩
      refine .notMatching h1 ?_
      rintro ⟨hu, hv⟩
      rcases h2 with h2 | h2
      · exact h2 hu
      · exact h2 hv
  · rw [hiff, ← hall]
    exact ⟨fun h => by cases h with | deadEnd h1 h2 h3 => exact ⟨rfl, h1, h2, h3⟩, fun h => .deadEnd h.2.1 h.2.2.1 h.2.2.2⟩
  · rw [hiff, ← hall]
    exact ⟨fun h => by cases h with | branch h1 h2 h3 => exact ⟨rfl, h1, h2, h3⟩, fun h => .branch h.2.1 h.2.2.1 h.2.2.2⟩
  · rw [hiff, ← hall]
    constructor
    · intro h
      cases h with
      | shortCycle T h1 h2 h3 h4 =>
        have := (returns_le u v sols hL h3).1
        exact ⟨rfl, h1, h2, T, by omega, (returns_component u v sols hL T).mp h3⟩
    · rintro ⟨_, h1, h2, T, hT, h3⟩
      exact .shortCycle T h1 h2 ((returns_component u v sols hL T).mpr h3) (by omega)
  · rw [hiff, ← hall]
    exact ⟨fun h => by cases h with | accept h1 h2 h3 => exact ⟨rfl, h1, h2, h3⟩, fun h => .accept h.2.1 h.2.2.1 h.2.2.2⟩
  · intro b
    rw [Ne, hiff]
    exact nofun
  · intro b
    rw [Ne, hiff]
    exact nofun

theorem answers_wrongLength {edgeBits L : Nat} {u v : U64 → U64} {sols : List U64} (h : sols.length ≠ L) :
    Answers edgeBits L u v sols (.ok (false, some .wrongLength)) := by
  have hne : ∀ {p : Prop} {r : Bool × Option Err}, (false, some Err.wrongLength) ≠ r →
      ((Except.ok (false, some Err.wrongLength) : Go (Bool × Option Err)) = .ok r ↔ sols.length = L ∧ p) := fun hr =>
    ⟨fun e => absurd (Except.ok.inj e) hr, fun e => absurd e.1 h⟩
  exact ⟨Or.inr ⟨_, rfl⟩, ⟨fun _ => h, fun _ => rfl⟩, hne (by decide), hne (by decide), hne (by decide), hne (by decide), hne (by decide),
    hne (by decide), fun b e => by simpa using Except.ok.inj e, fun b e => by simpa using Except.ok.inj e⟩

section
variable (P : Prims) (edgeBits L fuel : Nat) (header : List Byte) (sols : List U64)

/-- **C78.** What a Cuckoo client answers: each error, and acceptance, exactly in the stated case. -/
theorem C78_cuckoo_errors (node : U64 → Keys → U64 → U64 → U64) (blk : Option SipBlockFunc) (hL : 0 < L) (hf : 2 * L ≤ fuel) :
    Answers edgeBits L (fun e => node (maskOf edgeBits) (specKeys P header) e 0)
      (fun e => node (maskOf edgeBits) (specKeys P header) e 1) sols
      (verify P (newCuckoo edgeBits L (nodeFn node) blk) fuel header sols) := by
  obtain ⟨c, hc⟩ : ∃ c, c = newCuckoo edgeBits L (nodeFn node) blk := ⟨_, rfl⟩
  have hm : c.edgeMask = maskOf edgeBits := by rw [hc]; exact mask_eq edgeBits
  have hps : c.proofSize = L := by rw [hc]; rfl
  rw [← hc]
  by_cases hlen : sols.length = L
  · have hv : verify P c fuel header sols = cuckoo c fuel (keysOf P header) sols := by
      rw [verify, if_neg (by omega), headerKeys_ok, hc]
      rfl
    have hn : HasNode c node := by rw [hc]; exact ⟨_, rfl, fun _ _ _ _ => rfl⟩
    obtain ⟨r, hr, hres⟩ := run_exact c sols (fun e => node c.edgeMask (keysOf P header) e 0)
      (fun e => node c.edgeMask (keysOf P header) e 1) (cuckooBody c (keysOf P header) sols) (by omega) (by omega)
      (fun j s h hl => cuckooBody_ok c _ sols hn j s h hl) (fuel := fuel) (by omega)
    rw [hv, cuckoo]
    refine Eq.mpr (congrArg _ hr) ?_
    rw [hm, ← specKeys_eq] at hres
    rw [← hlen]
    exact answers_of_result (by omega) hres
  · rw [verify_wrongLength P c fuel header sols (by omega)]
    exact answers_wrongLength hlen

/-- **C78** for Cuckaroo clients. -/
theorem C78_cuckaroo_errors (block : Keys → U64 → U64) (nd : Option SipNodeFunc) (hL : 0 < L) (hf : 2 * L ≤ fuel) :
    Answers edgeBits L (fun e => block (specKeys P header) e &&& maskOf edgeBits)
      (fun e => (block (specKeys P header) e >>> 32) &&& maskOf edgeBits) sols
      (verify P (newCuckaroo edgeBits L nd (blockFn block)) fuel header sols) := by
  obtain ⟨c, hc⟩ : ∃ c, c = newCuckaroo edgeBits L nd (blockFn block) := ⟨_, rfl⟩
  have hm : c.edgeMask = maskOf edgeBits := by rw [hc]; exact mask_eq edgeBits
  have hps : c.proofSize = L := by rw [hc]; rfl
  rw [← hc]
  by_cases hlen : sols.length = L
  · have hv : verify P c fuel header sols = cuckaroo c fuel (keysOf P header) sols := by
      rw [verify, if_neg (by omega), headerKeys_ok, hc]
      rfl
    have hn : HasBlock c block := by rw [hc]; exact ⟨_, rfl, fun _ _ => rfl⟩
    obtain ⟨r, hr, hres⟩ := run_exact c sols (fun e => block (keysOf P header) e &&& c.edgeMask)
      (fun e => (block (keysOf P header) e >>> 32) &&& c.edgeMask) (cuckarooBody c (keysOf P header) sols) (by omega) (by omega)
      (fun j s h hl => cuckarooBody_ok c _ sols hn j s h hl) (fuel := fuel) (by omega)
    rw [hv, cuckaroo]
    refine Eq.mpr (congrArg _ hr) ?_
    rw [hm, ← specKeys_eq] at hres
    rw [← hlen]
    exact answers_of_result (by omega) hres
  · rw [verify_wrongLength P c fuel header sols (by omega)]
    exact answers_wrongLength hlen

/-- **C78**: the path from the first edge has exactly one end: no other edge, several other edges, or the start; and it gets
back to the start after `T` edges exactly if the first edge is on a cycle of `T` edges that no other edge touches. -/
theorem C78_path_ends {E N : Type} (u v : E → N) (edges : List E) (h : 0 < edges.length) :
    ¬ (DeadEnd u v edges ∧ Branches u v edges) ∧
    (∀ T, ¬ (DeadEnd u v edges ∧ Returns u v edges T)) ∧ (∀ T, ¬ (Branches u v edges ∧ Returns u v edges T)) ∧
    (∀ T, Returns u v edges T ↔ FirstOnCycle u v edges T) ∧
    (∀ T T', Returns u v edges T → Returns u v edges T' → T = T') :=
  ⟨fun ⟨a, b⟩ => deadEnd_not_branches u v edges h a b, fun T ⟨a, b⟩ => deadEnd_not_returns u v edges h T a b,
    fun T ⟨a, b⟩ => branches_not_returns u v edges h T a b, fun T => returns_component u v edges h T,
    fun _ _ a b => returns_unique u v edges h a b⟩

end

/-- **C78**: with a different order of the same edges the answer is of the same kind: accepted, out of range, not matching, or one of
the three errors of the walk. -/
theorem C78_order (P : Prims) (edgeBits L fuel : Nat) (header : List Byte) (sols sols' : List U64)
    (node : U64 → Keys → U64 → U64 → U64) (blk : Option SipBlockFunc) (hL : 0 < L) (hf : 2 * L ≤ fuel) (hp : sols.Perm sols') (e : Err)
    (he : e = .wrongLength ∨ e = .tooBig ∨ e = .notMatching) :
    verify P (newCuckoo edgeBits L (nodeFn node) blk) fuel header sols = .ok (false, some e) ↔
      verify P (newCuckoo edgeBits L (nodeFn node) blk) fuel header sols' = .ok (false, some e) := by
  have h := C78_cuckoo_errors P edgeBits L fuel header sols node blk hL hf
  have h' := C78_cuckoo_errors P edgeBits L fuel header sols' node blk hL hf
  have hx : ∀ f : U64 → U64, xorOf (sols.map f) = xorOf (sols'.map f) := fun f =>
    (hp.map f).foldr_eq' (fun a _ b _ c => by rw [← BitVec.xor_assoc, BitVec.xor_comm b a, BitVec.xor_assoc]) _
  rcases he with rfl | rfl | rfl
  · rw [h.wrongLength, h'.wrongLength, hp.length_eq]
  · rw [h.tooBig, h'.tooBig, hp.length_eq]
    simp only [hp.mem_iff]
  · rw [h.notMatching, h'.notMatching, hp.length_eq, hx, hx]
    simp only [hp.mem_iff]

/-! ## unusual parameters -/

section
variable (P : Prims) (edgeBits fuel : Nat) (header : List Byte) (sols : List U64)

theorem cuckoo_nil (c : Client) (keys : Keys) (hn : c.sipnode = none) (e : U64) (l : List U64) (hp : c.proofSize = (e :: l).length) :
    cuckoo c fuel keys (e :: l) = if c.edgeMask < e then .ok (false, some .tooBig) else .error (.panic .nilDeref) := by
  have hL : c.proofSize.toNat = l.length + 1 := by simp at hp; omega
  rw [cuckoo, hL, Go.forRangeE, Go.loopE.eq_def, show l.length + 1 - 0 = l.length + 1 from rfl]
  simp only [cuckooBody, checkEdge, Go.idx, List.getElem?_cons_zero, Go.ok_bind, hn, callNode]
  by_cases h : c.edgeMask < e
  · rw [if_pos h, if_pos h]; rfl
  · rw [if_neg h, if_neg h]; rfl

theorem cuckaroo_nil (c : Client) (keys : Keys) (hn : c.sipblock = none) (e : U64) (l : List U64) (hp : c.proofSize = (e :: l).length) :
    cuckaroo c fuel keys (e :: l) = if c.edgeMask < e then .ok (false, some .tooBig) else .error (.panic .nilDeref) := by
  have hL : c.proofSize.toNat = l.length + 1 := by simp at hp; omega
  rw [cuckaroo, hL, Go.forRangeE, Go.loopE.eq_def, show l.length + 1 - 0 = l.length + 1 from rfl]
  simp only [cuckarooBody, checkEdge, Go.idx, List.getElem?_cons_zero, Go.ok_bind, hn, callBlock]
  by_cases h : c.edgeMask < e
  · rw [if_pos h, if_pos h]; rfl
  · rw [if_neg h, if_neg h]; rfl

theorem mask_lt_iff (e : U64) : maskOf edgeBits < e ↔ 2 ^ edgeBits ≤ e.toNat := by
  have h := le_mask_iff edgeBits e
  rw [BitVec.le_def] at h
  rw [BitVec.lt_def]
  omega

/-- **C78**: a client made without the hash function its graph needs panics on every list of the right, positive length whose first
edge is in range; on one whose first edge is out of range it returns the error it returns otherwise. -/
theorem C78_nil_hash (e : U64) (l : List U64) (nd : Option SipNodeFunc) (blk : Option SipBlockFunc) :
    verify P (newCuckoo edgeBits (e :: l).length none blk) fuel header (e :: l) =
      (if 2 ^ edgeBits ≤ e.toNat then .ok (false, some .tooBig) else .error (.panic .nilDeref)) ∧
    verify P (newCuckaroo edgeBits (e :: l).length nd none) fuel header (e :: l) =
      (if 2 ^ edgeBits ≤ e.toNat then .ok (false, some .tooBig) else .error (.panic .nilDeref)) := by
  simp only [← mask_lt_iff, ← mask_eq]
  constructor
  · rw [verify, if_neg (by simp [newCuckoo, newClient]), headerKeys_ok]
    exact cuckoo_nil fuel (newCuckoo edgeBits (e :: l).length none blk) (keysOf P header) rfl e l rfl
  · rw [verify, if_neg (by simp [newCuckaroo, newClient]), headerKeys_ok]
    exact cuckaroo_nil fuel (newCuckaroo edgeBits (e :: l).length nd none) (keysOf P header) rfl e l rfl

/-- **C78**: whatever the hash functions, a list whose length is not the proof size is refused with the length error; with a
negative proof size that is every list. -/
theorem C78_wrong_length (variant : Variant) (proofSize : Int) (nd : Option SipNodeFunc) (blk : Option SipBlockFunc)
    (h : (sols.length : Int) ≠ proofSize) :
    verify P (newClient variant edgeBits proofSize nd blk) fuel header sols = .ok (false, some .wrongLength) :=
  verify_wrongLength P _ fuel header sols h

theorem C78_negative_proofSize (variant : Variant) (proofSize : Int) (nd : Option SipNodeFunc) (blk : Option SipBlockFunc)
    (h : proofSize < 0) :
    verify P (newClient variant edgeBits proofSize nd blk) fuel header sols = .ok (false, some .wrongLength) :=
  verify_wrongLength P _ fuel header sols (by simp only [newClient]; omega)

/-- **C78**: with proof size 0 the empty list makes either kind of client divide by zero, whatever its hash functions. -/
theorem C78_zero_proofSize (nd : Option SipNodeFunc) (blk : Option SipBlockFunc) :
    verify P (newCuckoo edgeBits 0 nd blk) (fuel + 1) header [] = .error (.panic .divZero) ∧
    verify P (newCuckaroo edgeBits 0 nd blk) (fuel + 1) header [] = .error (.panic .divZero) := by
  constructor
  · rw [verify, if_neg (by simp [newCuckoo, newClient]), headerKeys_ok]
    simp [newCuckoo, newClient, cuckoo, Go.forRangeE, Go.loopE, walk, Go.forever, outerStep, innerStep, Go.panic]
  · rw [verify, if_neg (by simp [newCuckaroo, newClient]), headerKeys_ok]
    simp [newCuckaroo, newClient, cuckaroo, Go.forRangeE, Go.loopE, walk, Go.forever, outerStep, innerStep, Go.panic]

/-- **C78**: with 64 edge bits or more no edge is refused for its size. -/
theorem C78_wide_mask (node : U64 → Keys → U64 → U64 → U64) (blk : Option SipBlockFunc) (L : Nat) (hw : 64 ≤ edgeBits) (hL : 0 < L)
    (hf : 2 * L ≤ fuel) :
    verify P (newCuckoo edgeBits L (nodeFn node) blk) fuel header sols ≠ .ok (false, some .tooBig) := by
  intro h
  obtain ⟨_, e, _, he⟩ := (C78_cuckoo_errors P edgeBits L fuel header sols node blk hL hf).tooBig.mp h
  have := e.isLt
  have : 2 ^ 64 ≤ 2 ^ edgeBits := Nat.pow_le_pow_right (by omega) hw
  omega

/-- **C78**: `NewCuckoo` and `NewCuckaroo` return a client exactly if the number of edge bits is not negative (a negative shift
count panics), and it is the client of the other statements. -/
theorem C78_constructors (bits proofSize : Int) (nd : Option SipNodeFunc) (blk : Option SipBlockFunc) :
    (bits < 0 → newCuckooGo bits proofSize nd blk = .error (.panic .negShift) ∧
      newCuckarooGo bits proofSize nd blk = .error (.panic .negShift)) ∧
    ∀ n : Nat, newCuckooGo n proofSize nd blk = .ok (newCuckoo n proofSize nd blk) ∧
      newCuckarooGo n proofSize nd blk = .ok (newCuckaroo n proofSize nd blk) := by
  refine ⟨fun h => ⟨?_, ?_⟩, fun n => ⟨?_, ?_⟩⟩
  · rw [newCuckooGo, newClientGo, if_pos h]; rfl
  · rw [newCuckarooGo, newClientGo, if_pos h]; rfl
  · rw [newCuckooGo, newClientGo, if_neg (by omega)]; rfl
  · rw [newCuckarooGo, newClientGo, if_neg (by omega)]; rfl

end

/-! ## each case occurs -/

/-- a small graph: edge `e` joins `u`-node `e / 4` with `v`-node `e % 4` -/
def gridNode (_ : U64) (_ : Keys) (e s : U64) : U64 := if s = 0 then e / 4 else e % 4

example : verify Prims.zero (newCuckoo 8 4 (nodeFn gridNode) none) 8 [] [0, 1, 5, 4] = .ok (true, none) := by decide +kernel
example : verify Prims.zero (newCuckoo 8 4 (nodeFn gridNode) none) 8 [] [0, 1, 5] = .ok (false, some .wrongLength) := by decide +kernel
example : verify Prims.zero (newCuckoo 4 4 (nodeFn gridNode) none) 8 [] [0, 1, 5, 16] = .ok (false, some .tooBig) := by decide +kernel
example : verify Prims.zero (newCuckoo 8 4 (nodeFn gridNode) none) 8 [] [0, 1, 5, 5] = .ok (false, some .notMatching) := by decide +kernel
-- u nodes 1, 2, 3 and v nodes 1, 2, 3: all exclusive ors are zero and the first edge meets no other
example : verify Prims.zero (newCuckoo 8 3 (nodeFn gridNode) none) 8 [] [5, 10, 15] = .ok (false, some .deadEnd) := by decide +kernel
example : verify Prims.zero (newCuckoo 8 4 (nodeFn gridNode) none) 8 [] [0, 1, 2, 3] = .ok (false, some .branch) := by decide +kernel
-- two edges twice: the first component closes after two edges
example : verify Prims.zero (newCuckoo 8 4 (nodeFn gridNode) none) 8 [] [0, 5, 0, 5] = .ok (false, some .shortCycle) := by decide +kernel
-- the verdict does not depend on the order of the edges (C04), the error does
example : verify Prims.zero (newCuckoo 8 5 (nodeFn gridNode) none) 10 [] [0, 0, 5, 10, 15] = .ok (false, some .shortCycle) := by decide +kernel
example : verify Prims.zero (newCuckoo 8 5 (nodeFn gridNode) none) 10 [] [5, 0, 0, 10, 15] = .ok (false, some .deadEnd) := by decide +kernel
example : verify Prims.zero (newCuckaroo 8 3 none (blockFn fun _ e => (e / 4) ||| ((e % 4) <<< 32))) 8 [] [5, 10, 15]
    = .ok (false, some .deadEnd) := by decide +kernel
example : verify Prims.zero (newCuckoo 8 1 none none) 8 [] [0] = .error (.panic .nilDeref) := by decide +kernel

end Verif.Props
