import Verif.Proof.CuckooWalk

/-! # Endpoint loops and `Verify` -/

set_option autoImplicit false

namespace Verif.Cuckoo

open Go Orbit Spec
open Siphash (Keys)

/-- xor of a list of words -/
def xorAll (l : List U64) : U64 := l.foldr (· ^^^ ·) 0

theorem xorAll_append (a b : List U64) : xorAll (a ++ b) = xorAll a ^^^ xorAll b := by
  induction a with
  | nil => simp [xorAll]
  | cons x a ih =>
    have e1 : xorAll (x :: a ++ b) = x ^^^ xorAll (a ++ b) := rfl
    have e2 : xorAll (x :: a) = x ^^^ xorAll a := rfl
    rw [e1, e2, ih, BitVec.xor_assoc]

theorem xorAll_perm {a b : List U64} (h : a.Perm b) : xorAll a = xorAll b := by
  refine h.foldr_eq' ?_ _
  intro x _ y _ z
  rw [← BitVec.xor_assoc, ← BitVec.xor_assoc, BitVec.xor_comm x y]

theorem xorAll_pairs {E : Type} (g : E → U64) : ∀ (n : Nat) (l : List E), l.length = 2 * n →
    (∀ t a b, l[2 * t]? = some a → l[2 * t + 1]? = some b → g a = g b) → xorAll (l.map g) = 0
  | 0, l, h, _ => by
    have : l = [] := List.length_eq_zero_iff.1 (by omega)
    subst this; rfl
  | n + 1, l, h, hp => by
    match l, h with
    | a :: b :: l, h =>
      have h0 : g a = g b := hp 0 a b (by simp) (by simp)
      have ih := xorAll_pairs g n l (by simp at h; omega) (fun t x y hx hy =>
        hp (t + 1) x y (by simpa [Nat.mul_add] using hx) (by
          rw [show 2 * (t + 1) + 1 = (2 * t + 1) + 1 + 1 by omega]; simpa using hy))
      have e1 : xorAll ((a :: b :: l).map g) = g a ^^^ (g b ^^^ xorAll (l.map g)) := rfl
      rw [e1, ih, h0]; simp

theorem xor_of_formCycle {E : Type} {u v : E → U64} {edges : List E} (h : FormCycle u v edges) :
    xorAll (edges.map u) = 0 ∧ xorAll (edges.map v) = 0 := by
  obtain ⟨cyc, hp, hc⟩ := h
  have hev := hc.even
  rw [← xorAll_perm (hp.map u), ← xorAll_perm (hp.map v)]
  refine ⟨xorAll_pairs u (cyc.length / 2) cyc (by omega) hc.joinU, ?_⟩
  match hcyc : cyc, hc with
  | [], hc => rfl
  | a :: rest, hc =>
    rw [xorAll_perm (b := (rest ++ [a]).map v) ((List.perm_append_singleton a rest).symm.map v)]
    refine xorAll_pairs v ((a :: rest).length / 2) _ (by simp at hev ⊢; omega) ?_
    intro t x y hx hy
    have hlt : 2 * t + 1 < (rest ++ [a]).length := by
      by_contra hge
      rw [List.getElem?_eq_none (by omega)] at hy; simp at hy
    simp only [List.length_append, List.length_singleton] at hlt
    refine hc.joinV t x y ?_ ?_
    · rw [List.getElem?_append_left (by omega)] at hx
      simpa using hx
    · by_cases hl : 2 * t + 1 < rest.length
      · rw [List.getElem?_append_left hl] at hy
        rw [Nat.mod_eq_of_lt (by simp; omega)]
        simpa using hy
      · have : 2 * t + 1 = rest.length := by omega
        rw [this, List.getElem?_append_right (by omega)] at hy
        have h2 : (2 * t + 2) % (a :: rest).length = 0 := by
          rw [show 2 * t + 2 = (a :: rest).length by simp; omega, Nat.mod_self]
        rw [h2]
        simpa using hy

/-- Loop invariant of the endpoint loops. -/
def EndsInv (mask : U64) (u v : U64 → U64) (edges : List U64) (j : Nat) (s : Ends) : Prop :=
  s.uvs.length = 2 * edges.length ∧
  (∀ n, n < j → ∀ e, edges[n]? = some e → e ≤ mask ∧ s.uvs[2 * n]? = some (u e) ∧ s.uvs[2 * n + 1]? = some (v e)) ∧
  s.xor0 = xorAll ((edges.take j).map u) ∧ s.xor1 = xorAll ((edges.take j).map v)

theorem checkEdge_ok (c : Client) (edges : List U64) (n : Nat) (h : n < edges.length) :
    checkEdge c edges n = .ok (if edges[n] > c.edgeMask then some .tooBig else none) := by
  have hn : ¬ ((n : Int) < 0) := by omega
  simp only [checkEdge, idx_ok edges n h, ok_bind, hn, if_false]
  split <;> rfl

theorem xor_take_succ (g : U64 → U64) (edges : List U64) (j : Nat) (h : j < edges.length) :
    xorAll ((edges.take (j + 1)).map g) = xorAll ((edges.take j).map g) ^^^ g edges[j] := by
  rw [← List.take_append_getElem h, List.map_append, xorAll_append]
  simp [xorAll]

theorem inv_step {mask : U64} {u v : U64 → U64} {edges : List U64} {j : Nat} {s : Ends} (h : j < edges.length)
    (hI : EndsInv mask u v edges j s) (hm : edges[j] ≤ mask) :
    EndsInv mask u v edges (j + 1)
      ⟨(s.uvs.set (2 * j) (u edges[j])).set (2 * j + 1) (v edges[j]), s.xor0 ^^^ u edges[j], s.xor1 ^^^ v edges[j]⟩ := by
  obtain ⟨h1, h2, h3, h4⟩ := hI
  refine ⟨by simpa using h1, ?_, ?_, ?_⟩
  · intro n hn e he
    rcases Nat.lt_or_ge n j with hl | hl
    · have := h2 n hl e he
      refine ⟨this.1, ?_, ?_⟩
      · rw [List.getElem?_set_ne (by omega), List.getElem?_set_ne (by omega)]; exact this.2.1
      · rw [List.getElem?_set_ne (by omega), List.getElem?_set_ne (by omega)]; exact this.2.2
    · have : n = j := by omega
      subst this
      rw [List.getElem?_eq_getElem h] at he
      have he : edges[n] = e := by simpa using he
      subst he
      refine ⟨hm, ?_, ?_⟩
      · rw [List.getElem?_set_ne (by omega), List.getElem?_set_self (by omega)]
      · rw [List.getElem?_set_self (by simp; omega)]
  · rw [xor_take_succ u edges j h, h3]
  · rw [xor_take_succ v edges j h, h4]

/-- `node m k e s` is what the configured `sipnode` returns. -/
def HasNode (c : Client) (node : U64 → Keys → U64 → U64 → U64) : Prop :=
  ∃ f, c.sipnode = some f ∧ ∀ m k e s, f m k e s = .ok (node m k e s)

def HasBlock (c : Client) (block : Keys → U64 → U64) : Prop :=
  ∃ f, c.sipblock = some f ∧ ∀ k e, f k e = .ok (block k e)

theorem cuckooBody_ok (c : Client) (keys : Keys) (edges : List U64) {node} (hn : HasNode c node) (j : Nat) (s : Ends)
    (h : j < edges.length) (hl : s.uvs.length = 2 * edges.length) :
    cuckooBody c keys edges j s = .ok (if edges[j] > c.edgeMask then .ret .tooBig else
      .cont ⟨(s.uvs.set (2 * j) (node c.edgeMask keys edges[j] 0)).set (2 * j + 1) (node c.edgeMask keys edges[j] 1),
        s.xor0 ^^^ node c.edgeMask keys edges[j] 0, s.xor1 ^^^ node c.edgeMask keys edges[j] 1⟩) := by
  obtain ⟨f, hf, hfn⟩ := hn
  rw [cuckooBody, checkEdge_ok c edges j h]
  by_cases hm : edges[j] > c.edgeMask
  · simp only [hm, if_true, ok_bind]; rfl
  · simp only [hm, if_false, ok_bind, idx_ok edges j h, callNode, hf, hfn]
    rw [upd_ok _ _ _ (by omega)]
    simp only [ok_bind]
    rw [idx_ok _ _ (by simp; omega)]
    simp only [ok_bind]
    rw [upd_ok _ _ _ (by simp; omega)]
    simp only [ok_bind]
    rw [idx_ok _ _ (by simp; omega)]
    simp

theorem cuckarooBody_ok (c : Client) (keys : Keys) (edges : List U64) {block} (hn : HasBlock c block) (j : Nat) (s : Ends)
    (h : j < edges.length) (hl : s.uvs.length = 2 * edges.length) :
    cuckarooBody c keys edges j s = .ok (if edges[j] > c.edgeMask then .ret .tooBig else
      .cont ⟨(s.uvs.set (2 * j) (block keys edges[j] &&& c.edgeMask)).set (2 * j + 1) ((block keys edges[j] >>> 32) &&& c.edgeMask),
        s.xor0 ^^^ (block keys edges[j] &&& c.edgeMask), s.xor1 ^^^ ((block keys edges[j] >>> 32) &&& c.edgeMask)⟩) := by
  obtain ⟨f, hf, hfn⟩ := hn
  rw [cuckarooBody, checkEdge_ok c edges j h]
  by_cases hm : edges[j] > c.edgeMask
  · simp only [hm, if_true, ok_bind]; rfl
  · simp only [hm, if_false, ok_bind, idx_ok edges j h, callBlock, hf, hfn]
    rw [upd_ok _ _ _ (by omega)]
    simp only [ok_bind]
    rw [idx_ok _ _ (by simp; omega)]
    simp only [ok_bind]
    rw [upd_ok _ _ _ (by simp; omega)]
    simp only [ok_bind]
    rw [idx_ok _ _ (by simp; omega)]
    simp

/-- What is established about a run on a list of `L > 0` edges with endpoint functions `u`, `v`. -/
structure RunSpec (mask : U64) (u v : U64 → U64) (edges : List U64) (r : Go (Bool × Option Err)) : Prop where
  total : ∃ b e, r = .ok (b, e) ∧ (b = true ↔ e = none)
  accept : r = .ok (true, none) ↔ (∀ e ∈ edges, e ≤ mask) ∧ FormCycle u v edges
  noSmall : ∀ b, r ≠ .ok (b, some .tooSmall)
  big : (∃ b, r = .ok (b, some .tooBig)) ↔ ∃ e ∈ edges, mask < e

theorem run_spec (c : Client) (edges : List U64) (u v : U64 → U64) (body : Nat → Ends → Go (Step Ends Err))
    (hps : c.proofSize = edges.length) (hpos : 0 < edges.length)
    (hbody : ∀ j s (h : j < edges.length), s.uvs.length = 2 * edges.length → body j s =
      .ok (if edges[j] > c.edgeMask then .ret .tooBig else
      .cont ⟨(s.uvs.set (2 * j) (u edges[j])).set (2 * j + 1) (v edges[j]), s.xor0 ^^^ u edges[j], s.xor1 ^^^ v edges[j]⟩))
    {fuel : Nat} (hf : 2 * edges.length ≤ fuel) :
    RunSpec c.edgeMask u v edges (do
      match ← Go.forRangeE 0 c.proofSize.toNat { uvs := List.replicate (2 * c.proofSize.toNat) 0, xor0 := 0, xor1 := 0 } body with
      | .ret err => pure (false, some err)
      | .cont s => walk c fuel s) := by
  have hL : c.proofSize.toNat = edges.length := by omega
  rw [hL]
  have hrun := forRangeE_inv (f := body) (EndsInv c.edgeMask u v edges) (fun b => b = Err.tooBig ∧ ∃ e ∈ edges, c.edgeMask < e)
    0 edges.length { uvs := List.replicate (2 * edges.length) 0, xor0 := 0, xor1 := 0 } (by omega)
    ⟨by simp, by intros; omega, by simp [xorAll], by simp [xorAll]⟩ (by
      intro j s _ hj hI
      rw [hbody j s hj hI.1]
      by_cases hm : edges[j] > c.edgeMask
      · right
        exact ⟨.tooBig, by simp [hm], rfl, edges[j], List.getElem_mem _, hm⟩
      · left
        refine ⟨_, by rw [if_neg hm], inv_step hj hI (by simpa using hm)⟩)
  rcases hrun with ⟨s, hs, hI⟩ | ⟨b, hb, rfl, e, he, hme⟩
  · obtain ⟨h1, h2, h3, h4⟩ := hI
    have hall : ∀ e ∈ edges, e ≤ c.edgeMask := by
      intro e he
      obtain ⟨n, hn, rfl⟩ := List.getElem_of_mem he
      exact (h2 n hn _ (List.getElem?_eq_getElem hn)).1
    have hvals : at_ s.uvs = vals u v edges := by
      funext k
      unfold at_ vals
      rcases Nat.lt_or_ge (k / 2) edges.length with hk | hk
      · have := h2 (k / 2) hk _ (List.getElem?_eq_getElem hk)
        rw [List.getElem?_eq_getElem hk]
        rcases Nat.mod_two_eq_zero_or_one k with hm | hm
        · rw [show 2 * (k / 2) = k by omega] at this
          simp [hm, this.2.1]
        · rw [show 2 * (k / 2) + 1 = k by omega] at this
          simp [hm, this.2.2]
      · rw [List.getElem?_eq_none (by omega), List.getElem?_eq_none hk]; rfl
    obtain ⟨b, e, hw, h5, h6, h7, h8, h9⟩ := walk_spec c s (by omega) (by omega) (fuel := fuel) (by omega)
    rw [hs]
    simp only [ok_bind]
    rw [hw]
    rw [hL, hvals, closed_iff] at h8
    rw [List.take_length] at h3 h4
    refine ⟨⟨b, e, rfl, h5⟩, ?_, ?_, ?_⟩
    · constructor
      · intro h
        simp only [Except.ok.injEq, Prod.mk.injEq] at h
        exact ⟨hall, (h8.1 h.1).2⟩
      · rintro ⟨_, hc⟩
        have hx := xor_of_formCycle hc
        have hb : b = true := h8.2 ⟨by rw [h3, h4, hx.1, hx.2]; simp, hc⟩
        rw [hb, h5.1 hb]
    · intro b' h
      simp only [Except.ok.injEq, Prod.mk.injEq] at h
      exact h6 h.2
    · constructor
      · rintro ⟨b', h⟩
        simp only [Except.ok.injEq, Prod.mk.injEq] at h
        exact absurd h.2 h7
      · rintro ⟨e', he', hlt⟩
        have := hall e' he'
        exact absurd hlt (by simpa using this)
  · rw [hb]
    simp only [ok_bind]
    refine ⟨⟨false, some .tooBig, rfl, by simp⟩, ?_, ?_, ?_⟩
    · constructor
      · intro h; simp at h
      · rintro ⟨h, _⟩
        exact absurd hme (by have := h e he; simpa using this)
    · intro b' h; simp at h
    · exact ⟨fun _ => ⟨e, he, hme⟩, fun _ => ⟨false, rfl⟩⟩

/-- the little-endian word at byte `8 i` of a byte string -/
def word64 (h : List Byte) (i : Nat) : U64 := BitVec.ofNat 64 (leNat ((h.drop (8 * i)).take 8))

theorem headerKeys_ok (P : Prims) (header : List Byte) :
    headerKeys P header = .ok ⟨word64 (P.blake2b256 header) 0, word64 (P.blake2b256 header) 1,
      word64 (P.blake2b256 header) 2, word64 (P.blake2b256 header) 3⟩ := by
  have hl := P.blake2b256_length header
  generalize hh : P.blake2b256 header = hash at hl
  have key : ∀ i, 8 * i + 8 ≤ 32 →
      (slc hash (8 * i) (8 * i + 8) >>= fun s => getU64 .little s) = .ok (word64 hash i) := by
    intro i hi
    rw [slc_ok _ _ _ (by omega) (by omega)]
    simp only [ok_bind]
    rw [getU64, if_pos (by simp; omega), natOf]
    congr 3
    rw [List.drop_take, List.take_take]
    congr 1
    omega
  have k0 := key 0 (by omega)
  have k1 := key 1 (by omega)
  have k2 := key 2 (by omega)
  have k3 := key 3 (by omega)
  simp only [Nat.mul_zero, Nat.mul_one, Nat.zero_add, Nat.reduceMul, Nat.reduceAdd] at k0 k1 k2 k3
  simp only [headerKeys, ← bind_assoc, hh]
  rw [k0]; simp only [ok_bind]
  rw [k1]; simp only [ok_bind]
  rw [k2]; simp only [ok_bind]
  rw [k3]; rfl

def keysOf (P : Prims) (header : List Byte) : Keys :=
  ⟨word64 (P.blake2b256 header) 0, word64 (P.blake2b256 header) 1, word64 (P.blake2b256 header) 2, word64 (P.blake2b256 header) 3⟩

theorem verify_wrongLength (P : Prims) (c : Client) (fuel : Nat) (header : List Byte) (sols : List U64)
    (h : (sols.length : Int) ≠ c.proofSize) : verify P c fuel header sols = .ok (false, some .wrongLength) := by
  simp [verify, h]

theorem verify_cuckoo (P : Prims) (c : Client) {node : U64 → Keys → U64 → U64 → U64} (hv : c.variant = .cuckoo) (hn : HasNode c node) (header : List Byte)
    (sols : List U64) (hlen : c.proofSize = sols.length) (hpos : 0 < sols.length) {fuel : Nat} (hf : 2 * sols.length ≤ fuel) :
    RunSpec c.edgeMask (fun e => node c.edgeMask (keysOf P header) e 0) (fun e => node c.edgeMask (keysOf P header) e 1) sols
      (verify P c fuel header sols) := by
  have : verify P c fuel header sols = cuckoo c fuel (keysOf P header) sols := by
    rw [verify, if_neg (by omega), headerKeys_ok]
    simp only [ok_bind, hv]; rfl
  rw [this]
  exact run_spec c sols _ _ _ hlen hpos (fun j s h hl => cuckooBody_ok c _ sols hn j s h hl) hf

theorem verify_cuckaroo (P : Prims) (c : Client) {block : Keys → U64 → U64} (hv : c.variant = .cuckaroo) (hn : HasBlock c block) (header : List Byte)
    (sols : List U64) (hlen : c.proofSize = sols.length) (hpos : 0 < sols.length) {fuel : Nat} (hf : 2 * sols.length ≤ fuel) :
    RunSpec c.edgeMask (fun e => block (keysOf P header) e &&& c.edgeMask) (fun e => (block (keysOf P header) e >>> 32) &&& c.edgeMask) sols
      (verify P c fuel header sols) := by
  have : verify P c fuel header sols = cuckaroo c fuel (keysOf P header) sols := by
    rw [verify, if_neg (by omega), headerKeys_ok]
    simp only [ok_bind, hv]; rfl
  rw [this]
  exact run_spec c sols _ _ _ hlen hpos (fun j s h hl => cuckarooBody_ok c _ sols hn j s h hl) hf

theorem walk_mono (c : Client) (s : Ends) {fuel fuel' : Nat} {r : Bool × Option Err} (h : walk c fuel s = .ok r)
    (hle : fuel ≤ fuel') : walk c fuel' s = .ok r := by
  unfold walk at h ⊢
  by_cases hx : s.xor0 ||| s.xor1 ≠ 0
  · rw [if_pos hx] at h ⊢; exact h
  · rw [if_neg hx] at h ⊢
    cases hrun : forever fuel (0, 0) (outerStep s.uvs c.proofSize.toNat fuel) with
    | error e => rw [hrun] at h; simp at h
    | ok res =>
      rw [hrun] at h
      have := forever_ok_mono (f' := outerStep s.uvs c.proofSize.toNat fuel') (by
        rintro ⟨i, n⟩ x hx
        simp only [outerStep] at hx ⊢
        cases hin : forever fuel (i, i) (innerStep s.uvs c.proofSize.toNat i) with
        | error e => rw [hin] at hx; simp at hx
        | ok j =>
          rw [hin] at hx
          rw [forever_ok_mono (fun _ _ h => h) hin hle]
          exact hx) hrun hle
      rw [this]
      exact h

theorem verify_mono (P : Prims) (c : Client) {fuel fuel' : Nat} (header : List Byte) (sols : List U64) {r : Bool × Option Err}
    (h : verify P c fuel header sols = .ok r) (hle : fuel ≤ fuel') : verify P c fuel' header sols = .ok r := by
  unfold verify at h ⊢
  by_cases hx : (sols.length : Int) ≠ c.proofSize
  · rw [if_pos hx] at h ⊢; exact h
  · rw [if_neg hx] at h ⊢
    rw [headerKeys_ok] at h ⊢
    simp only [ok_bind] at h ⊢
    have key : ∀ body, (do
        match ← Go.forRangeE 0 c.proofSize.toNat { uvs := List.replicate (2 * c.proofSize.toNat) 0, xor0 := 0, xor1 := 0 } body with
        | .ret err => pure (false, some err)
        | .cont s => walk c fuel s : Go (Bool × Option Err)) = .ok r → (do
        match ← Go.forRangeE 0 c.proofSize.toNat { uvs := List.replicate (2 * c.proofSize.toNat) 0, xor0 := 0, xor1 := 0 } body with
        | .ret err => pure (false, some err)
        | .cont s => walk c fuel' s : Go (Bool × Option Err)) = .ok r := by
      intro body hb
      cases hl : Go.forRangeE 0 c.proofSize.toNat { uvs := List.replicate (2 * c.proofSize.toNat) 0, xor0 := 0, xor1 := 0 } body with
      | error e => rw [hl] at hb; simp at hb
      | ok st =>
        rw [hl] at hb
        cases st with
        | ret b => exact hb
        | cont s => exact walk_mono c s hb hle
    split at h
    · exact key _ h
    · exact key _ h
    · exact h

end Verif.Cuckoo
