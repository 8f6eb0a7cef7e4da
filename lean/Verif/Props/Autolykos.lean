import Verif.Proof.Autolykos

/-! # Autolykos2: properties C53-C55 -/

set_option autoImplicit false

namespace Verif.Props

open Go Autolykos

theorem ergo_base : newErgo.nBase = (1 : U32) <<< 26 := rfl

/-- **C53** For the Ergo parameters `calcN` returns, at every 64-bit height, the table size of the specification, whose exact value
fits into 32 bits and is not zero. -/
theorem C53_size (height : U64) : ∃ n : U32, calcN newErgo.nBase height = .ok n ∧
    n.toNat = Spec.Autolykos.tableSize (2 ^ 26) height.toNat ∧ 2 ^ 26 ≤ n.toNat := by
  obtain ⟨k, hk, e⟩ := tableSize_steps height.toNat
  have h1 := growN_lt k hk
  refine ⟨_, calcN_eq height, ?_, ?_⟩
  · rw [BitVec.toNat_ofNat, e, Nat.mod_eq_of_lt h1]
  · rw [BitVec.toNat_ofNat, e, Nat.mod_eq_of_lt h1]
    exact growN_ge k hk

/-- **C53** It is constant below height 614400. -/
theorem C53_constant (height : U64) (h : height.toNat < 614400) : calcN newErgo.nBase height = .ok 67108864 := by
  rw [ergo_base, calcN_eq, Spec.Autolykos.tableSize, if_pos h]
  rfl

/-- **C53** It grows by the 5 % step from each period of 51200 blocks to the next. -/
theorem C53_step (height : U64) (h1 : 614400 ≤ height.toNat + 51200) (h2 : height.toNat + 51200 ≤ 4198400) (n m : U32)
    (hn : calcN newErgo.nBase height = .ok n) (hm : calcN newErgo.nBase (height + 51200) = .ok m) : m.toNat = n.toNat / 100 * 105 := by
  obtain ⟨n', e1, v1, _⟩ := C53_size height
  obtain ⟨m', e2, v2, _⟩ := C53_size (height + 51200)
  rw [hn] at e1
  rw [hm] at e2
  obtain rfl := Except.ok.inj e1
  obtain rfl := Except.ok.inj e2
  have hadd : (height + 51200).toNat = height.toNat + 51200 := by
    rw [BitVec.toNat_add, show (51200 : U64).toNat = 51200 from rfl]
    exact Nat.mod_eq_of_lt (by omega)
  rw [v1, v2, hadd]
  unfold Spec.Autolykos.tableSize
  by_cases h : height.toNat < 614400
  · rw [if_pos h, if_neg (by omega), Nat.min_eq_left h2, show (height.toNat + 51200 - 614400) / 51200 + 1 = 1 by omega, Spec.Autolykos.growN,
      Spec.Autolykos.growN, Spec.Autolykos.grow]
  · rw [if_neg h, if_neg (by omega), Nat.min_eq_left h2, Nat.min_eq_left (by omega),
      show (height.toNat + 51200 - 614400) / 51200 + 1 = ((height.toNat - 614400) / 51200 + 1) + 1 by omega,
      Spec.Autolykos.growN, Spec.Autolykos.grow]

/-- **C53** Inside a period it does not change. -/
theorem C53_period (a b : U64) (ha : 614400 ≤ a.toNat) (hb : 614400 ≤ b.toNat) (hb' : a.toNat ≤ 4198400) (hb'' : b.toNat ≤ 4198400)
    (h : (a.toNat - 614400) / 51200 = (b.toNat - 614400) / 51200) : calcN newErgo.nBase a = calcN newErgo.nBase b := by
  rw [ergo_base, calcN_eq, calcN_eq]
  unfold Spec.Autolykos.tableSize
  rw [if_neg (by omega), if_neg (by omega), Nat.min_eq_left hb', Nat.min_eq_left hb'', h]

/-- **C53** It is non-decreasing in the height. -/
theorem C53_monotone (a b : U64) (h : a.toNat ≤ b.toNat) (n m : U32) (hn : calcN newErgo.nBase a = .ok n)
    (hm : calcN newErgo.nBase b = .ok m) : n.toNat ≤ m.toNat := by
  obtain ⟨n', e1, v1, _⟩ := C53_size a
  obtain ⟨m', e2, v2, _⟩ := C53_size b
  rw [hn] at e1
  rw [hm] at e2
  obtain rfl := Except.ok.inj e1
  obtain rfl := Except.ok.inj e2
  rw [v1, v2]
  unfold Spec.Autolykos.tableSize
  by_cases h1 : a.toNat < 614400
  · rw [if_pos h1]
    by_cases h2 : b.toNat < 614400
    · rw [if_pos h2]
    · rw [if_neg h2]; exact growN_ge _ (by omega)
  · rw [if_neg h1, if_neg (by omega)]
    exact growN_mono _ _ (by omega) (by omega)

/-- **C53** Beyond height 4198400 it stays at the value reached there. -/
theorem C53_final (height : U64) (h : 4198400 ≤ height.toNat) : calcN newErgo.nBase height = calcN newErgo.nBase 4198400 := by
  rw [ergo_base, calcN_eq, calcN_eq]
  unfold Spec.Autolykos.tableSize
  rw [if_neg (by omega), if_neg (by decide), Nat.min_eq_right h]
  rfl

/-- **C54** For the Ergo parameters `Compute` returns the digest of the specification for every 32-byte message, height and nonce. -/
theorem C54_compute (P : Prims) (msg : List Byte) (hm : msg.length = 32) (height nonce : U64) :
    newErgo.compute P msg height nonce = .ok (some (Spec.Autolykos.digest P.blake2b256 32
      (Spec.Autolykos.tableSize (2 ^ 26) height.toNat) height.toNat msg (Spec.beEncode 8 nonce.toNat))) := by
  obtain ⟨n, e, v, hge⟩ := C53_size height
  unfold Client.compute
  rw [if_neg (by omega), compute_eq P newErgo.k newErgo.nBase msg nonce height n e (by rintro rfl; revert hge; decide) (by decide), ok_bind, v]
  rfl

/-- **C54** Every index is below the table size. -/
theorem C54_index_lt (P : Prims) (msg nonce : List Byte) (height j : Nat) :
    Spec.Autolykos.index P.blake2b256 (Spec.Autolykos.tableSize (2 ^ 26) height) height msg nonce j <
      Spec.Autolykos.tableSize (2 ^ 26) height := by
  obtain ⟨k, hk, e⟩ := tableSize_steps height
  exact Nat.mod_lt _ (by rw [e]; exact Nat.lt_of_lt_of_le (by norm_num) (growN_ge k hk))

/-- **C54** What is hashed last is the shortest big-endian string of the sum: it has no leading zero byte and denotes the sum. -/
theorem C54_minimal (v : Nat) (bs : List Byte) : bs = Spec.Autolykos.minimalBytes v ↔ Spec.beValue bs = v ∧ bs.head? ≠ some 0 := by
  constructor
  · rintro rfl
    exact ⟨beValue_minimal v, minimal_head v⟩
  · rintro ⟨hv, hh⟩
    have hlen : ∀ (a b : List Byte), Spec.beValue a = Spec.beValue b → a.head? ≠ some 0 → a.length ≤ b.length := by
      intro a b hab ha
      rcases a with _ | ⟨c, a⟩
      · simp
      · rw [Spec.beValue_eq, Spec.beValue_eq, beNat_cons] at hab
        have hc : c ≠ 0 := fun h => ha (by rw [h]; rfl)
        have hc' : 1 ≤ c.toNat := by
          rcases Nat.eq_zero_or_pos c.toNat with h | h
          · exact absurd (BitVec.eq_of_toNat_eq h) hc
          · exact h
        have hb := beNat_lt b
        by_contra hlt
        have h1 : 256 ^ b.length ≤ 256 ^ a.length := Nat.pow_le_pow_right (by omega) (by simp at hlt; omega)
        have h2 : 1 * 256 ^ a.length ≤ c.toNat * 256 ^ a.length := Nat.mul_le_mul_right _ hc'
        omega
    have hv' : Spec.beValue bs = Spec.beValue (Spec.Autolykos.minimalBytes v) := by rw [hv, beValue_minimal]
    have hl := Nat.le_antisymm (hlen _ _ hv' hh) (hlen _ _ hv'.symm (minimal_head v))
    apply beNat_inj _ _ hl
    rw [← Spec.beValue_eq, ← Spec.beValue_eq, hv']

/-- **C54** The hashed string is the fixed-width 32-byte encoding of the sum exactly if the sum is at least 2^248; a smaller sum is
hashed as a shorter string. The sum itself is always below 2^256. -/
theorem C54_width (P : Prims) (N height : Nat) (msg nonce : List Byte) :
    let s := Spec.Autolykos.sum P.blake2b256 32 N height msg nonce
    s < 2 ^ 256 ∧ (Spec.Autolykos.minimalBytes s = Spec.beEncode 32 s ↔ 2 ^ 248 ≤ s) := by
  intro s
  have hs : s < 2 ^ 256 := by
    have hel : ∀ j, Spec.beValue (Spec.Autolykos.element P.blake2b256 height (Spec.Autolykos.index P.blake2b256 N height msg nonce j)) ≤ 2 ^ 248 := by
      intro j
      rw [Spec.beValue_eq]
      have h1 := beNat_lt (Spec.Autolykos.element P.blake2b256 height (Spec.Autolykos.index P.blake2b256 N height msg nonce j))
      rw [show (Spec.Autolykos.element P.blake2b256 height (Spec.Autolykos.index P.blake2b256 N height msg nonce j)).length = 31 by
        simp [Spec.Autolykos.element, P.blake2b256_length]] at h1
      have : (256 : Nat) ^ 31 = 2 ^ 248 := by norm_num
      omega
    have hsum : ∀ (f : Nat → Nat), (∀ j, f j ≤ 2 ^ 248) → ∀ k, ((List.range k).map f).sum ≤ k * 2 ^ 248 := by
      intro f hf k
      induction k with
      | zero => simp
      | succ k ih => 
        rw [List.range_succ, List.map_append, List.sum_append]
        have := hf k
        simp only [List.map_cons, List.map_nil, List.sum_cons, List.sum_nil]
        omega
    have := hsum _ hel 32
    have hp : (2 : Nat) ^ 256 = 256 * 2 ^ 248 := by norm_num
    show Spec.Autolykos.sum _ _ _ _ _ _ < _
    unfold Spec.Autolykos.sum
    have h0 : 0 < 2 ^ 248 := by norm_num
    omega
  refine ⟨hs, ?_, ?_⟩
  · intro e
    have hl := congrArg List.length e
    rw [minimalBytes_length, Spec.beEncode_length] at hl
    by_cases h0 : s = 0
    · rw [if_pos h0] at hl; omega
    · rw [if_neg h0] at hl
      have h248 : 248 ≤ s.log2 := by omega
      exact (Nat.le_log2 h0).mp h248
  · intro hge
    have h0 : s ≠ 0 := by
      have : 0 < 2 ^ 248 := by norm_num
      omega
    have h1 : 248 ≤ s.log2 := (Nat.le_log2 h0).mpr hge
    have h2 : s.log2 < 256 := (Nat.log2_lt h0).mpr hs
    have hl : (Spec.Autolykos.minimalBytes s).length = 32 := by
      rw [minimalBytes_length, if_neg h0]; omega
    have := minimalBytes_eq s
    rw [hl] at this
    exact this

/-- **C54** `New` accepts parameters that make every call panic: with more than 61 indexes the doubled digest is too short. -/
theorem C54_too_many_indexes (P : Prims) (c : Client) (hk : 61 < c.k.toNat) (msg : List Byte) (hm : msg.length = 32) (height nonce : U64) :
    ∃ p, c.compute P msg height nonce = .error (.panic p) := by
  have hlong : ∀ (seed : List Byte) (k n : U32), 61 < k.toNat → ∃ p, genIndexes P seed k n = .error (.panic p) := by
    intro seed k n hk
    have hl : (P.blake2b256 seed ++ P.blake2b256 seed).length = 64 := by rw [List.length_append, P.blake2b256_length]
    by_cases hn : n = 0
    · refine ⟨.divZero, ?_⟩
      unfold genIndexes forRange
      obtain ⟨d, hd⟩ : ∃ d, k.toNat - 0 = d + 1 := ⟨k.toNat - 1, by omega⟩
      rw [hd, loop, indexStep, slc_ok _ _ _ (by omega) (by omega), ok_bind, getU32, if_pos (by simp [P.blake2b256_length]), ok_bind, umod, if_pos hn]
      rfl
    · refine ⟨.slice, ?_⟩
      obtain ⟨m, e, hm⟩ := forRange_inv (f := indexStep (P.blake2b256 seed ++ P.blake2b256 seed) n)
        (fun _ m => m.length = k.toNat) 0 61 (List.replicate k.toNat 0) (by omega) (by simp) (by
          intro i m _ hi hm
          unfold indexStep
          rw [slc_ok _ _ _ (by omega) (by omega), ok_bind, getU32, if_pos (by simp [P.blake2b256_length]; omega), ok_bind, umod, if_neg hn, ok_bind,
            upd_ok _ _ _ (by omega)]
          exact ⟨_, rfl, by simpa using hm⟩)
      unfold genIndexes forRange
      unfold forRange at e
      obtain ⟨d, hd⟩ : ∃ d, k.toNat - 0 = 61 + (d + 1) := ⟨k.toNat - 62, by omega⟩
      simp only []
      rw [hd, loop_add, e, ok_bind, loop, indexStep, slc, if_neg (by omega)]
      rfl
  unfold Client.compute
  rw [if_neg (by omega)]
  have hc : ∃ n, calcN c.nBase height = .ok n := by
    unfold calcN
    by_cases h1 : height > nIncreasementHeightMax
    · exact ⟨_, by rw [if_pos h1]; rfl⟩
    · rw [if_neg h1]
      by_cases h2 : height ≥ increaseStart
      · rw [if_pos h2]
        obtain ⟨m, e, _⟩ := forRange_inv (f := nStep) (fun _ _ => True) 0 ((height - increaseStart) / increasePeriodForN + 1).toNat c.nBase
          (by omega) trivial (fun i m _ _ _ => ⟨_, rfl, trivial⟩)
        exact ⟨m, e⟩
      · exact ⟨_, by rw [if_neg h2]; rfl⟩
  obtain ⟨n, hn⟩ := hc
  unfold Autolykos.compute
  rw [generateM_eq, ok_bind, Convutil.uint32ToBytes_eq, ok_bind, Convutil.uint64ToBytes_eq, ok_bind, hn, ok_bind]
  simp only []
  have hl := P.blake2b256_length (concatBytes msg (bytesOf .big 8 nonce))
  rw [slc_ok _ _ _ (by omega) (by omega), ok_bind, bigMod]
  by_cases h0 : (n.setWidth 64 : U64).toNat = 0
  · rw [if_pos h0]
    exact ⟨_, rfl⟩
  · rw [if_neg h0, pure_eq_ok, ok_bind, Convutil.uint32ToBytes_eq, ok_bind]
    have hl2 := fun x => P.blake2b256_length x
    rw [slc_ok _ _ _ (by omega) (by rw [hl2]), ok_bind]
    obtain ⟨p, hp⟩ := hlong _ c.k n hk
    rw [hp]
    exact ⟨p, rfl⟩

/-- **C55** The height enters only modulo 2^32 once the table size is final: two such heights that agree modulo 2^32 give the same result,
for every message and nonce. -/
theorem C55_alias (P : Prims) (msg : List Byte) (a b nonce : U64) (ha : 4198400 ≤ a.toNat) (hb : 4198400 ≤ b.toNat)
    (h : a.toNat % 2 ^ 32 = b.toNat % 2 ^ 32) : newErgo.compute P msg a nonce = newErgo.compute P msg b nonce := by
  by_cases hm : msg.length = 32
  · have hw : (a.setWidth 32 : U32) = b.setWidth 32 := by
      apply BitVec.eq_of_toNat_eq
      rw [BitVec.toNat_setWidth, BitVec.toNat_setWidth, h]
    unfold Client.compute Autolykos.compute
    rw [C53_final a ha, C53_final b hb, hw]
  · unfold Client.compute
    rw [if_pos hm, if_pos hm]

/-! ## the hypotheses are met -/

/-- the step at height 614400, and the last one -/
example : calcN newErgo.nBase 614400 = .ok 70464240 := by
  rw [ergo_base, calcN_eq]
  exact congrArg Except.ok (by decide +kernel)

example : calcN newErgo.nBase 788400 = .ok 81571035 := by
  rw [ergo_base, calcN_eq]
  exact congrArg Except.ok (by decide +kernel)

/-- two different heights that alias -/
example (P : Prims) (msg : List Byte) (nonce : U64) : newErgo.compute P msg 5000000 nonce = newErgo.compute P msg (5000000 + 0x100000000) nonce :=
  C55_alias P msg 5000000 (5000000 + 0x100000000) nonce (by decide) (by decide) (by decide)

/-- a sum that is hashed as a short string -/
example : Spec.Autolykos.minimalBytes 258 = [1, 2] := ((C54_minimal 258 [1, 2]).mpr (by decide)).symm

end Verif.Props
