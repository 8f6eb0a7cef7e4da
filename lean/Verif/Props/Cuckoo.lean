import Verif.Proof.CuckooVerify
import Verif.Proof.CycleFacts
import Verif.Proof.Siphash
import Verif.Spec.Bytes

/-! # Properties of package cuckoo (C01–C06)

`fuel` bounds the iterations of each of the two unbounded `for` loops; every statement holds for all amounts of fuel
from `2 * proofSize` on, so it is a statement about the Go program (which has no fuel). -/

set_option autoImplicit false

namespace Verif.Props

open Cuckoo Spec
open Siphash (Keys)

theorem leNat_eq_leValue (bs : List Byte) : Go.leNat bs = leValue bs := by
  induction bs with
  | nil => rfl
  | cons b bs ih => simp only [Go.leNat, ih]; rfl

/-- The siphash keys prescribed for a header: the four little-endian words of its BLAKE2b-256 digest. -/
def specKeys (P : Prims) (header : List Byte) : Keys :=
  let h := P.blake2b256 header
  ⟨leWord64 h 0, leWord64 h 1, leWord64 h 2, leWord64 h 3⟩

theorem specKeys_eq (P : Prims) (header : List Byte) : specKeys P header = keysOf P header := by
  simp only [specKeys, keysOf, word64, leWord64, leNat_eq_leValue]

/-- the edge mask `2^edgeBits - 1` as a word -/
def maskOf (edgeBits : Nat) : U64 := BitVec.ofNat 64 (2 ^ edgeBits - 1)

theorem mask_eq (edgeBits : Nat) : ((1 : U64) <<< edgeBits) - 1 = maskOf edgeBits := by
  apply BitVec.eq_of_toNat_eq
  simp only [maskOf, BitVec.toNat_sub, BitVec.toNat_shiftLeft, BitVec.toNat_ofNat]
  have hp : 0 < 2 ^ edgeBits := Nat.two_pow_pos _
  have h1 : (1 : U64).toNat = 1 := rfl
  simp only [h1, Nat.shiftLeft_eq, Nat.one_mul]
  rcases Nat.lt_or_ge edgeBits 64 with h | h
  · have : 2 ^ edgeBits < 2 ^ 64 := Nat.pow_lt_pow_right (by omega) h
    omega
  · obtain ⟨k, rfl⟩ : ∃ k, edgeBits = 64 + k := ⟨edgeBits - 64, by omega⟩
    have hk : 0 < 2 ^ k := Nat.two_pow_pos _
    have e : 2 ^ (64 + k) = 2 ^ 64 * 2 ^ k := Nat.pow_add ..
    rw [e]
    omega

theorem le_mask_iff (edgeBits : Nat) (e : U64) : e ≤ maskOf edgeBits ↔ e.toNat < 2 ^ edgeBits := by
  rw [BitVec.le_def, maskOf, BitVec.toNat_ofNat]
  have hp : 0 < 2 ^ edgeBits := Nat.two_pow_pos _
  have he := e.isLt
  rcases Nat.lt_or_ge edgeBits 64 with h | h
  · have : 2 ^ edgeBits < 2 ^ 64 := Nat.pow_lt_pow_right (by omega) h
    omega
  · obtain ⟨k, rfl⟩ : ∃ k, edgeBits = 64 + k := ⟨edgeBits - 64, by omega⟩
    have hk : 0 < 2 ^ k := Nat.two_pow_pos _
    have e : 2 ^ (64 + k) = 2 ^ 64 * 2 ^ k := Nat.pow_add ..
    rw [e]
    omega

/-- a total Go node function -/
def nodeFn (node : U64 → Keys → U64 → U64 → U64) : Option SipNodeFunc := some fun m k e s => .ok (node m k e s)
/-- a total Go block function -/
def blockFn (block : Keys → U64 → U64) : Option SipBlockFunc := some fun k e => .ok (block k e)

section
variable (P : Prims) (edgeBits L fuel : Nat) (header : List Byte) (sols : List U64)

/-- **C01.** A Cuckoo client accepts exactly the lists of `L` in-range edges that form a single simple cycle in the
graph with endpoints `node mask keys e 0` and `node mask keys e 1`; otherwise it returns `false` with an error. -/
theorem C01_cuckoo_verify_iff_cycle (node : U64 → Keys → U64 → U64 → U64) (blk : Option SipBlockFunc)
    (hL : 0 < L) (hf : 2 * L ≤ fuel) :
    let r := verify P (newCuckoo edgeBits L (nodeFn node) blk) fuel header sols
    (r = .ok (true, none) ↔
      sols.length = L ∧ (∀ e ∈ sols, e.toNat < 2 ^ edgeBits) ∧
        FormCycle (fun e => node (maskOf edgeBits) (specKeys P header) e 0)
          (fun e => node (maskOf edgeBits) (specKeys P header) e 1) sols) ∧
    (r ≠ .ok (true, none) → ∃ err, r = .ok (false, some err)) := by
  intro r
  have hm : (newCuckoo edgeBits L (nodeFn node) blk).edgeMask = maskOf edgeBits := mask_eq edgeBits
  by_cases hlen : sols.length = L
  · have h := verify_cuckoo P (newCuckoo edgeBits L (nodeFn node) blk) (node := node) rfl ⟨_, rfl, fun _ _ _ _ => rfl⟩ header sols
      (by simp [newCuckoo, newClient, hlen]) (by omega) (fuel := fuel) (by omega)
    rw [hm, ← specKeys_eq] at h
    refine ⟨?_, ?_⟩
    · have := h.accept
      simp only [le_mask_iff] at this
      simp only [hlen, true_and]
      exact this
    · intro hne
      obtain ⟨b, e, hr, hbe⟩ := h.total
      cases b with
      | true => rw [hbe.1 rfl] at hr; exact absurd hr hne
      | false =>
        cases e with
        | none => simp at hbe
        | some err => exact ⟨err, hr⟩
  · have hr : r = .ok (false, some .wrongLength) := verify_wrongLength P _ fuel header sols (by
      simp only [newCuckoo, newClient]; omega)
    rw [hr]
    refine ⟨by simp [hlen], fun _ => ⟨_, rfl⟩⟩

/-- **C02.** The same for Cuckaroo clients; the endpoints of edge `e` are the low and the high 32-bit halves of the
block value, masked with the edge mask. -/
theorem C02_cuckaroo_verify_iff_cycle (block : Keys → U64 → U64) (nd : Option SipNodeFunc)
    (hL : 0 < L) (hf : 2 * L ≤ fuel) :
    let r := verify P (newCuckaroo edgeBits L nd (blockFn block)) fuel header sols
    (r = .ok (true, none) ↔
      sols.length = L ∧ (∀ e ∈ sols, e.toNat < 2 ^ edgeBits) ∧
        FormCycle (fun e => block (specKeys P header) e &&& maskOf edgeBits)
          (fun e => (block (specKeys P header) e >>> 32) &&& maskOf edgeBits) sols) ∧
    (r ≠ .ok (true, none) → ∃ err, r = .ok (false, some err)) := by
  intro r
  have hm : (newCuckaroo edgeBits L nd (blockFn block)).edgeMask = maskOf edgeBits := mask_eq edgeBits
  by_cases hlen : sols.length = L
  · have h := verify_cuckaroo P (newCuckaroo edgeBits L nd (blockFn block)) (block := block) rfl ⟨_, rfl, fun _ _ => rfl⟩ header sols
      (by simp [newCuckaroo, newClient, hlen]) (by omega) (fuel := fuel) (by omega)
    rw [hm, ← specKeys_eq] at h
    refine ⟨?_, ?_⟩
    · have := h.accept
      simp only [le_mask_iff] at this
      simp only [hlen, true_and]
      exact this
    · intro hne
      obtain ⟨b, e, hr, hbe⟩ := h.total
      cases b with
      | true => rw [hbe.1 rfl] at hr; exact absurd hr hne
      | false =>
        cases e with
        | none => simp at hbe
        | some err => exact ⟨err, hr⟩
  · have hr : r = .ok (false, some .wrongLength) := verify_wrongLength P _ fuel header sols (by
      simp only [newCuckaroo, newClient]; omega)
    rw [hr]
    refine ⟨by simp [hlen], fun _ => ⟨_, rfl⟩⟩

/-- **C01 for the shipped Aeternity client**: 42-cycles of the 29-bit SipHash-2-4 graph (legacy rotation by 17). -/
theorem C01_aeternity_verify_iff_cycle (hf : 84 ≤ fuel) :
    verify P newAeternity fuel header sols = .ok (true, none) ↔
      sols.length = 42 ∧ (∀ e ∈ sols, e.toNat < 2 ^ 29) ∧
        FormCycle
          (fun e => (Sip.sip24 (Siphash.keySpec (specKeys P header)) (2 * e)).rotateLeft 17 &&& BitVec.ofNat 64 (2 ^ 29 - 1))
          (fun e => (Sip.sip24 (Siphash.keySpec (specKeys P header)) (2 * e + 1)).rotateLeft 17 &&& BitVec.ofNat 64 (2 ^ 29 - 1))
          sols := by
  have := (C01_cuckoo_verify_iff_cycle P 29 42 fuel header sols
    (fun m k e s => Siphash.sipNode24Legacy m k e s) none (by omega) hf).1
  have h0 : ∀ x : U64, x + 0 = x := fun x => by simp
  have hb : newAeternity = newCuckoo 29 (42 : Nat) (nodeFn fun m k e s => Siphash.sipNode24Legacy m k e s) none := rfl
  simp only [Siphash.sipNode24Legacy_spec, h0, maskOf] at this
  rw [hb]
  simp only [Siphash.sipNode24Legacy_spec]
  exact this

/-- **C02 for the shipped Cortex client**: 42-cycles of the 30-bit cuckaroo graph. -/
theorem C02_cortex_verify_iff_cycle (hf : 84 ≤ fuel) :
    verify P newCortex fuel header sols = .ok (true, none) ↔
      sols.length = 42 ∧ (∀ e ∈ sols, e.toNat < 2 ^ 30) ∧
        FormCycle
          (fun e => Sip.block48 (Siphash.keySpec (specKeys P header)) e &&& BitVec.ofNat 64 (2 ^ 30 - 1))
          (fun e => (Sip.block48 (Siphash.keySpec (specKeys P header)) e >>> 32) &&& BitVec.ofNat 64 (2 ^ 30 - 1))
          sols := by
  have hb : newCortex = newCuckaroo 30 (42 : Nat) none (blockFn fun k e => Sip.block48 (Siphash.keySpec k) e) := by
    simp only [newCortex, blockFn, newCuckaroo, newClient, Nat.cast_ofNat, Client.mk.injEq, true_and, Option.some.injEq]
    funext k e
    exact Siphash.sipBlock48_spec k e
  rw [hb]
  exact (C02_cuckaroo_verify_iff_cycle P 30 42 fuel header sols
    (fun k e => Sip.block48 (Siphash.keySpec k) e) none (by omega) hf).1

/-- **C03.** With `proofSize ≥ 1` a Cuckoo client never panics and never runs forever: there is one result that every
run with at least `2 * proofSize` iterations allowed per loop produces. -/
theorem C03_cuckoo_terminates (node : U64 → Keys → U64 → U64 → U64) (blk : Option SipBlockFunc) (hL : 0 < L) :
    ∃ b err, (b = true ↔ err = none) ∧
      ∀ fuel, 2 * L ≤ fuel → verify P (newCuckoo edgeBits L (nodeFn node) blk) fuel header sols = .ok (b, err) := by
  have h := C01_cuckoo_verify_iff_cycle P edgeBits L (2 * L) header sols node blk hL (le_refl _)
  by_cases ht : verify P (newCuckoo edgeBits L (nodeFn node) blk) (2 * L) header sols = .ok (true, none)
  · exact ⟨true, none, by simp, fun fuel hf => verify_mono P _ header sols ht hf⟩
  · obtain ⟨err, he⟩ := h.2 ht
    exact ⟨false, some err, by simp, fun fuel hf => verify_mono P _ header sols he hf⟩

/-- **C03** for Cuckaroo clients. -/
theorem C03_cuckaroo_terminates (block : Keys → U64 → U64) (nd : Option SipNodeFunc) (hL : 0 < L) :
    ∃ b err, (b = true ↔ err = none) ∧
      ∀ fuel, 2 * L ≤ fuel → verify P (newCuckaroo edgeBits L nd (blockFn block)) fuel header sols = .ok (b, err) := by
  have h := C02_cuckaroo_verify_iff_cycle P edgeBits L (2 * L) header sols block nd hL (le_refl _)
  by_cases ht : verify P (newCuckaroo edgeBits L nd (blockFn block)) (2 * L) header sols = .ok (true, none)
  · exact ⟨true, none, by simp, fun fuel hf => verify_mono P _ header sols ht hf⟩
  · obtain ⟨err, he⟩ := h.2 ht
    exact ⟨false, some err, by simp, fun fuel hf => verify_mono P _ header sols he hf⟩

/-- The hypothesis `proofSize ≥ 1` of C03 is needed: with `proofSize = 0` the empty proof makes `Verify` panic
(`k = (k + 2) % 0`). -/
theorem C03_proofSize_zero_panics (node : U64 → Keys → U64 → U64 → U64) (blk : Option SipBlockFunc) :
    verify P (newCuckoo edgeBits 0 (nodeFn node) blk) (fuel + 1) header [] = .error (.panic .divZero) := by
  rw [verify, if_neg (by simp [newCuckoo, newClient]), headerKeys_ok]
  simp [newCuckoo, newClient, cuckoo, Go.forRangeE, Go.loopE, walk, Go.forever, outerStep, innerStep, Go.panic]

/-- **C04.** The verdict does not depend on the order of the edges, and `ErrPowTooSmall` is never returned. -/
theorem C04_cuckoo_order_malleable (node : U64 → Keys → U64 → U64 → U64) (blk : Option SipBlockFunc) (sols' : List U64)
    (hL : 0 < L) (hf : 2 * L ≤ fuel) (hp : sols.Perm sols') :
    (verify P (newCuckoo edgeBits L (nodeFn node) blk) fuel header sols = .ok (true, none) ↔
      verify P (newCuckoo edgeBits L (nodeFn node) blk) fuel header sols' = .ok (true, none)) ∧
    ∀ b, verify P (newCuckoo edgeBits L (nodeFn node) blk) fuel header sols ≠ .ok (b, some .tooSmall) := by
  refine ⟨?_, ?_⟩
  · rw [(C01_cuckoo_verify_iff_cycle P edgeBits L fuel header sols node blk hL hf).1,
      (C01_cuckoo_verify_iff_cycle P edgeBits L fuel header sols' node blk hL hf).1, hp.length_eq]
    constructor
    · rintro ⟨h1, h2, h3⟩
      exact ⟨h1, fun e he => h2 e (hp.mem_iff.2 he), h3.perm hp⟩
    · rintro ⟨h1, h2, h3⟩
      exact ⟨h1, fun e he => h2 e (hp.mem_iff.1 he), h3.perm hp.symm⟩
  · intro b
    by_cases hlen : sols.length = L
    · exact (verify_cuckoo P (newCuckoo edgeBits L (nodeFn node) blk) (node := node) rfl ⟨_, rfl, fun _ _ _ _ => rfl⟩ header sols
        (by simp [newCuckoo, newClient, hlen]) (by omega) (fuel := fuel) (by omega)).noSmall b
    · rw [verify_wrongLength P _ fuel header sols (by simp only [newCuckoo, newClient]; omega)]
      simp

/-- **C04** for Cuckaroo clients. -/
theorem C04_cuckaroo_order_malleable (block : Keys → U64 → U64) (nd : Option SipNodeFunc) (sols' : List U64)
    (hL : 0 < L) (hf : 2 * L ≤ fuel) (hp : sols.Perm sols') :
    (verify P (newCuckaroo edgeBits L nd (blockFn block)) fuel header sols = .ok (true, none) ↔
      verify P (newCuckaroo edgeBits L nd (blockFn block)) fuel header sols' = .ok (true, none)) ∧
    ∀ b, verify P (newCuckaroo edgeBits L nd (blockFn block)) fuel header sols ≠ .ok (b, some .tooSmall) := by
  refine ⟨?_, ?_⟩
  · rw [(C02_cuckaroo_verify_iff_cycle P edgeBits L fuel header sols block nd hL hf).1,
      (C02_cuckaroo_verify_iff_cycle P edgeBits L fuel header sols' block nd hL hf).1, hp.length_eq]
    constructor
    · rintro ⟨h1, h2, h3⟩
      exact ⟨h1, fun e he => h2 e (hp.mem_iff.2 he), h3.perm hp⟩
    · rintro ⟨h1, h2, h3⟩
      exact ⟨h1, fun e he => h2 e (hp.mem_iff.1 he), h3.perm hp.symm⟩
  · intro b
    by_cases hlen : sols.length = L
    · exact (verify_cuckaroo P (newCuckaroo edgeBits L nd (blockFn block)) (block := block) rfl ⟨_, rfl, fun _ _ => rfl⟩ header sols
        (by simp [newCuckaroo, newClient, hlen]) (by omega) (fuel := fuel) (by omega)).noSmall b
    · rw [verify_wrongLength P _ fuel header sols (by simp only [newCuckaroo, newClient]; omega)]
      simp

/-- **C05.** An accepted proof has even length, and no repeated edge unless its length is 2. -/
theorem C05_accepted_distinct (node : U64 → Keys → U64 → U64 → U64) (blk : Option SipBlockFunc) (hL : 0 < L) (hf : 2 * L ≤ fuel)
    (h : verify P (newCuckoo edgeBits L (nodeFn node) blk) fuel header sols = .ok (true, none)) :
    L % 2 = 0 ∧ (2 < L → sols.Nodup) := by
  obtain ⟨h1, _, h3⟩ := (C01_cuckoo_verify_iff_cycle P edgeBits L fuel header sols node blk hL hf).1.1 h
  exact ⟨by rw [← h1]; exact h3.even, fun h2 => h3.nodup (by omega)⟩

/-- **C05** for Cuckaroo clients. -/
theorem C05_cuckaroo_accepted_distinct (block : Keys → U64 → U64) (nd : Option SipNodeFunc) (hL : 0 < L) (hf : 2 * L ≤ fuel)
    (h : verify P (newCuckaroo edgeBits L nd (blockFn block)) fuel header sols = .ok (true, none)) :
    L % 2 = 0 ∧ (2 < L → sols.Nodup) := by
  obtain ⟨h1, _, h3⟩ := (C02_cuckaroo_verify_iff_cycle P edgeBits L fuel header sols block nd hL hf).1.1 h
  exact ⟨by rw [← h1]; exact h3.even, fun h2 => h3.nodup (by omega)⟩

/-- **C05**: with `proofSize = 2` the same in-range edge given twice is always accepted. -/
theorem C05_double_edge_accepted (node : U64 → Keys → U64 → U64 → U64) (blk : Option SipBlockFunc) (e : U64)
    (he : e.toNat < 2 ^ edgeBits) (hf : 4 ≤ fuel) :
    verify P (newCuckoo edgeBits 2 (nodeFn node) blk) fuel header [e, e] = .ok (true, none) :=
  (C01_cuckoo_verify_iff_cycle P edgeBits 2 fuel header [e, e] node blk (by omega) hf).1.2
    ⟨rfl, by simpa using he, formCycle_pair e⟩

/-- **C05** for Cuckaroo clients: the repeated pair is accepted as well. -/
theorem C05_cuckaroo_double_edge_accepted (block : Keys → U64 → U64) (nd : Option SipNodeFunc) (e : U64)
    (he : e.toNat < 2 ^ edgeBits) (hf : 4 ≤ fuel) :
    verify P (newCuckaroo edgeBits 2 nd (blockFn block)) fuel header [e, e] = .ok (true, none) :=
  (C02_cuckaroo_verify_iff_cycle P edgeBits 2 fuel header [e, e] block nd (by omega) hf).1.2
    ⟨rfl, by simpa using he, formCycle_pair e⟩

end

/-! ### Non-vacuity: a 4-cycle that is accepted (in two orders), and a path that is rejected -/

/-- toy endpoints: edges 0–1–2–3–0 form a square -/
def toyNode (_ : U64) (_ : Keys) (e s : U64) : U64 := if s = 0 then e / 2 else ((e + 1) / 2) % 2

example : verify Prims.zero (newCuckoo 2 4 (nodeFn toyNode) none) 8 [] [0, 2, 1, 3] = .ok (true, none) := by decide +kernel
example : verify Prims.zero (newCuckoo 2 4 (nodeFn toyNode) none) 8 [] [3, 0, 1, 2] = .ok (true, none) := by decide +kernel
example : verify Prims.zero (newCuckoo 2 4 (nodeFn toyNode) none) 8 [] [0, 1, 0, 1] = .ok (false, some .branch) := by decide +kernel
example : verify Prims.zero (newCuckoo 2 4 (nodeFn toyNode) none) 8 [] [0, 2, 1, 4] = .ok (false, some .tooBig) := by decide +kernel
example : verify Prims.zero (newCuckaroo 8 4 none (blockFn fun _ e => (e / 2) ||| ((((e + 1) / 2) % 2) <<< 32))) 8 [] [0, 2, 1, 3]
    = .ok (true, none) := by decide +kernel

/-- **C06.** The round is the published SipRound and a bijection of the state; `Hash24`/`Hash48` are SipHash-2-4 and
SipHash-4-8 with the 0xff finalisation; node values are within the edge mask. -/
theorem C06_sipRound (h : Siphash.SipHasher) : Siphash.toSpec (Siphash.sipRound h) = Sip.round (Siphash.toSpec h) :=
  Siphash.sipRound_spec h

theorem C06_sipRound_bijective : Function.Bijective Siphash.sipRound := by
  have hinj : ∀ a b, Siphash.toSpec a = Siphash.toSpec b → a = b := by
    rintro ⟨⟩ ⟨⟩ h
    simp only [Siphash.toSpec, Sip.State.mk.injEq] at h
    simp [h]
  constructor
  · intro a b hab
    have := congrArg (fun x => Siphash.unround (Siphash.toSpec x)) hab
    simp only [Siphash.sipRound_spec, Siphash.unround_round] at this
    exact hinj _ _ this
  · intro b
    let r := Siphash.unround (Siphash.toSpec b)
    refine ⟨⟨r.v0, r.v1, r.v2, r.v3⟩, hinj _ _ ?_⟩
    rw [Siphash.sipRound_spec]
    exact Siphash.round_unround _

theorem C06_hash24 (h : Siphash.SipHasher) (m : U64) : Siphash.toSpec (Siphash.hash24 h m) = Sip.compress 2 4 (Siphash.toSpec h) m :=
  Siphash.hash24_spec h m

theorem C06_hash48 (h : Siphash.SipHasher) (m : U64) : Siphash.toSpec (Siphash.hash48 h m) = Sip.compress 4 8 (Siphash.toSpec h) m :=
  Siphash.hash48_spec h m

/-- `SipNode24` and `SipNode24Legacy` compute the masked SipHash-2-4 value (rotated by 17 in the legacy form) and never
exceed the mask. -/
theorem C06_sipNode (m : U64) (k : Keys) (e s : U64) :
    Siphash.sipNode24 m k e s = Sip.sip24 (Siphash.keySpec k) (2 * e + s) &&& m ∧
    Siphash.sipNode24Legacy m k e s = (Sip.sip24 (Siphash.keySpec k) (2 * e + s)).rotateLeft 17 &&& m ∧
    Siphash.sipNode24 m k e s ≤ m ∧ Siphash.sipNode24Legacy m k e s ≤ m := by
  refine ⟨Siphash.sipNode24_spec m k e s, Siphash.sipNode24Legacy_spec m k e s, ?_, ?_⟩
  · rw [Siphash.sipNode24_spec]; exact Bits.and_le_right _ _
  · rw [Siphash.sipNode24Legacy_spec]; exact Bits.and_le_right _ _

/-- `SipBlock48` never panics and returns the chained SipHash-4-8 block value. -/
theorem C06_sipBlock48 (k : Keys) (e : U64) : Siphash.sipBlock48 k e = .ok (Sip.block48 (Siphash.keySpec k) e) :=
  Siphash.sipBlock48_spec k e


end Verif.Props
