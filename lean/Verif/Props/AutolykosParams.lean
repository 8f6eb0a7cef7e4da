import Verif.Props.Autolykos

/-! # Autolykos2 with parameters of one's own: property C75 -/

set_option autoImplicit false

namespace Verif.Props

open Go Autolykos Spec.Autolykos

theorem base_of (k n : U32) : (new k n).nBase.toNat = 2 ^ n.toNat % 2 ^ 32 := by
  show ((1 : U32) <<< n.toNat).toNat = _
  rw [BitVec.toNat_shiftLeft, show (1 : U32).toNat = 1 from rfl, Nat.shiftLeft_eq, Nat.one_mul]

theorem growN32_lt (k b : Nat) (hb : b < 2 ^ 32) : growN32 k b < 2 ^ 32 := by
  cases k with
  | zero => exact hb
  | succ k => exact Nat.mod_lt _ (by norm_num)

theorem nStep32 (i : Nat) (n : U32) : nStep i n = .ok (BitVec.ofNat 32 (grow32 n.toNat)) := by
  unfold nStep
  refine congrArg Except.ok (BitVec.eq_of_toNat_eq ?_)
  rw [grow32, BitVec.toNat_mul, BitVec.toNat_udiv, BitVec.toNat_ofNat, Nat.mod_mod]
  rfl

/-- **C75** `calcN` for the client of `New(k, n)`, for every `n` and every height: the size of the specification. -/
theorem C75_size (k n : U32) (height : U64) :
    ∃ N : U32, calcN (new k n).nBase height = .ok N ∧ N.toNat = sizeFor n.toNat height.toNat := by
  have hM : nIncreasementHeightMax.toNat = 4198400 := rfl
  have hS : increaseStart.toNat = 614400 := rfl
  have hP : increasePeriodForN.toNat = 51200 := rfl
  have hb := base_of k n
  obtain ⟨b, hb'⟩ : ∃ b, b = (new k n).nBase := ⟨_, rfl⟩
  rw [← hb'] at hb ⊢
  unfold calcN sizeFor
  by_cases h1 : height > nIncreasementHeightMax
  · have h1' : 4198400 < height.toNat := by rw [← hM]; exact h1
    rw [if_pos h1, if_pos h1']
    exact ⟨_, rfl, rfl⟩
  · have h1' : height.toNat ≤ 4198400 := by rw [← hM]; exact Nat.not_lt.mp h1
    rw [if_neg h1, if_neg (show ¬ 4198400 < height.toNat by omega)]
    by_cases h2 : height ≥ increaseStart
    · have h2' : 614400 ≤ height.toNat := by rw [← hS]; exact h2
      have hit : ((height - increaseStart) / increasePeriodForN + 1).toNat = (height.toNat - 614400) / 51200 + 1 := by
        rw [BitVec.toNat_add, BitVec.toNat_udiv, BitVec.toNat_sub_of_le h2, hS, hP, show (1 : U64).toNat = 1 from rfl]
        omega
      rw [if_pos h2, if_neg (show ¬ height.toNat < 614400 by omega), hit]
      obtain ⟨m, e, h⟩ := forRange_inv (f := nStep) (fun i m => m.toNat = growN32 i (2 ^ n.toNat % 2 ^ 32)) 0
        ((height.toNat - 614400) / 51200 + 1) b (by omega) hb (by
        intro i m _ hi hm
        refine ⟨_, nStep32 i m, ?_⟩
        rw [hm, BitVec.toNat_ofNat, growN32, grow32, Nat.mod_mod])
      exact ⟨m, e, h⟩
    · have h2' : height.toNat < 614400 := by rw [← hS]; exact Nat.not_le.mp h2
      rw [if_neg h2, if_pos h2']
      exact ⟨_, rfl, hb⟩

/-- the sizes reached from `2^n` for `n < 32`, within the 71 steps -/
theorem sizes_table : ((List.range 32).all fun n => (List.range 71).all fun k =>
    decide (growN32 (k + 1) (2 ^ n % 2 ^ 32) = 0) == decide (n ≤ 6)) = true := by decide +kernel

theorem base_zero (n : Nat) (h : 32 ≤ n) : 2 ^ n % 2 ^ 32 = 0 := Nat.mod_eq_zero_of_dvd (Nat.pow_dvd_pow 2 h)

theorem growN32_zero (k : Nat) : growN32 k 0 = 0 := by
  induction k with
  | zero => rfl
  | succ k ih => rw [growN32, ih]; rfl

/-- **C75** Exactly when the table is empty: never above height 4198400; up to that height if `n ≥ 32`, and from height 614400 also if
`n ≤ 6` (the first step divides by one hundred). The wrap-around of large sizes never produces an empty table. -/
theorem C75_empty_iff (n height : Nat) :
    sizeFor n height = 0 ↔ height ≤ 4198400 ∧ (32 ≤ n ∨ 614400 ≤ height ∧ n ≤ 6) := by
  unfold sizeFor
  by_cases h1 : 4198400 < height
  · rw [if_pos h1]
    omega
  · rw [if_neg h1]
    by_cases hn : 32 ≤ n
    · rw [base_zero n hn, growN32_zero]
      simp
      omega
    · have hlt : 2 ^ n < 2 ^ 32 := Nat.pow_lt_pow_right (by omega) (by omega)
      have hpos : 0 < 2 ^ n := Nat.two_pow_pos n
      by_cases h2 : height < 614400
      · rw [if_pos h2, Nat.mod_eq_of_lt hlt]
        omega
      · rw [if_neg h2]
        have := List.all_eq_true.mp sizes_table n (List.mem_range.mpr (by omega))
        have := List.all_eq_true.mp this ((height - 614400) / 51200) (List.mem_range.mpr (by omega))
        have h3 : (growN32 ((height - 614400) / 51200 + 1) (2 ^ n % 2 ^ 32) = 0) = (n ≤ 6) := by
          simpa using this
        rw [h3]
        omega

/-- **C75** What `Compute` of the client of `New(k, n)` does, for all parameters, heights and nonces: a message that does not have 32 bytes
is an error; otherwise an empty table is a division by zero, more than 61 indexes are a slice out of range, and in all other cases the
result is the digest of the specification with `k` indexes and that table size. -/
theorem C75_compute (P : Prims) (k n : U32) (msg : List Byte) (height nonce : U64) :
    (new k n).compute P msg height nonce =
      if msg.length ≠ 32 then .ok none
      else if sizeFor n.toNat height.toNat = 0 then .error (.panic .divZero)
      else if 61 < k.toNat then .error (.panic .slice)
      else .ok (some (digest P.blake2b256 k.toNat (sizeFor n.toNat height.toNat) height.toNat msg (Spec.beEncode 8 nonce.toNat))) := by
  unfold Client.compute
  by_cases hm : msg.length ≠ 32
  · rw [if_pos hm, if_pos hm]
    rfl
  · rw [if_neg hm, if_neg hm]
    obtain ⟨N, e, v⟩ := C75_size k n height
    have hk : (new k n).k = k := rfl
    rw [hk, ← v]
    have hz : N = 0 ↔ N.toNat = 0 := ⟨fun h => by rw [h]; rfl, fun h => BitVec.eq_of_toNat_eq h⟩
    by_cases h0 : N.toNat = 0
    · rw [if_pos h0]
      unfold Autolykos.compute
      rw [generateM_eq, ok_bind, Convutil.uint32ToBytes_eq, ok_bind, Convutil.uint64ToBytes_eq, ok_bind, e, ok_bind]
      simp only []
      have hl := P.blake2b256_length (concatBytes msg (bytesOf .big 8 nonce))
      have hN := hz.mpr h0
      rw [slc_ok _ _ _ (by omega) (by omega), ok_bind, bigMod, if_pos (by rw [hN]; rfl)]
      rfl
    · rw [if_neg h0]
      have hn0 : N ≠ 0 := fun h => h0 (hz.mp h)
      by_cases h61 : 61 < k.toNat
      · rw [if_pos h61]
        have hlong : ∀ seed : List Byte, genIndexes P seed k N = .error (.panic .slice) := by
          intro seed
          have hl : (P.blake2b256 seed ++ P.blake2b256 seed).length = 64 := by rw [List.length_append, P.blake2b256_length]
          obtain ⟨m, e, hm⟩ := forRange_inv (f := indexStep (P.blake2b256 seed ++ P.blake2b256 seed) N)
            (fun _ m => m.length = k.toNat) 0 61 (List.replicate k.toNat 0) (by omega) (by simp) (by
              intro i m _ hi hm
              unfold indexStep
              rw [slc_ok _ _ _ (by omega) (by omega), ok_bind, getU32, if_pos (by simp [P.blake2b256_length]; omega), ok_bind, umod, if_neg hn0,
                ok_bind, upd_ok _ _ _ (by omega)]
              exact ⟨_, rfl, by simpa using hm⟩)
          unfold genIndexes forRange
          unfold forRange at e
          obtain ⟨d, hd⟩ : ∃ d, k.toNat - 0 = 61 + (d + 1) := ⟨k.toNat - 62, by omega⟩
          simp only []
          rw [hd, loop_add, e, ok_bind, loop, indexStep, slc, if_neg (by omega)]
          rfl
        unfold Autolykos.compute
        rw [generateM_eq, ok_bind, Convutil.uint32ToBytes_eq, ok_bind, Convutil.uint64ToBytes_eq, ok_bind, e, ok_bind]
        simp only []
        have hl := P.blake2b256_length (concatBytes msg (bytesOf .big 8 nonce))
        have hbn : (N.setWidth 64 : U64).toNat ≠ 0 := by
          rw [BitVec.toNat_setWidth, Nat.mod_eq_of_lt (Nat.lt_trans N.isLt (by norm_num))]
          exact h0
        have hl2 := fun x => P.blake2b256_length x
        rw [slc_ok _ _ _ (by omega) (by omega), ok_bind, bigMod, if_neg hbn, pure_eq_ok, ok_bind, Convutil.uint32ToBytes_eq, ok_bind,
          slc_ok _ _ _ (by omega) (by rw [hl2]), ok_bind, hlong]
        rfl
      · rw [if_neg h61, compute_eq P k _ msg nonce height N e hn0 (by omega)]
        rfl

/-- **C75** When it panics, in terms of the parameters: the client is unusable up to height 4198400 for `n ≥ 32`, unusable between heights
614400 and 4198400 for `n ≤ 6`, and unusable at every height for `k ≥ 62`; in all other cases it returns a digest of 32 bytes. -/
theorem C75_returns_iff (P : Prims) (k n : U32) (msg : List Byte) (hm : msg.length = 32) (height nonce : U64) :
    (∃ d, (new k n).compute P msg height nonce = .ok (some d) ∧ d.length = 32) ↔
      k.toNat ≤ 61 ∧ (4198400 < height.toNat ∨ (n.toNat < 32 ∧ (height.toNat < 614400 ∨ 6 < n.toNat))) := by
  rw [C75_compute, if_neg (by omega)]
  have hz := C75_empty_iff n.toNat height.toNat
  by_cases h0 : sizeFor n.toNat height.toNat = 0
  · rw [if_pos h0]
    have := hz.mp h0
    constructor
    · rintro ⟨d, h, _⟩
      cases h
    · omega
  · rw [if_neg h0]
    have h0' := fun h => h0 (hz.mpr h)
    by_cases hk : 61 < k.toNat
    · rw [if_pos hk]
      constructor
      · rintro ⟨d, h, _⟩
        cases h
      · omega
    · rw [if_neg hk]
      refine ⟨fun _ => ⟨by omega, ?_⟩, fun _ => ⟨_, rfl, P.blake2b256_length _⟩⟩
      by_contra hc
      exact h0' (by omega)

/-- the exact sizes stay below `2^32` for `n ≤ 27`, and do not shrink from `n = 9` on -/
theorem exact_table : ((List.range 28).all fun n => (List.range 72).all fun k =>
    decide (growN k (2 ^ n) < 2 ^ 32) && (decide (n < 9) || decide (k = 71) || decide (growN k (2 ^ n) ≤ growN (k + 1) (2 ^ n)))) = true := by
  decide +kernel

theorem exact_lt (n k : Nat) (hn : n ≤ 27) (hk : k ≤ 71) : growN k (2 ^ n) < 2 ^ 32 := by
  have := List.all_eq_true.mp (List.all_eq_true.mp exact_table n (List.mem_range.mpr (by omega))) k (List.mem_range.mpr (by omega))
  simp only [Bool.and_eq_true, decide_eq_true_eq] at this
  exact this.1

theorem exact_mono (n : Nat) (h9 : 9 ≤ n) (hn : n ≤ 27) (a b : Nat) (hab : a ≤ b) (hb : b ≤ 71) : growN a (2 ^ n) ≤ growN b (2 ^ n) := by
  induction b with
  | zero => rw [Nat.le_zero.mp hab]
  | succ b ih =>
    by_cases e : a = b + 1
    · rw [e]
    · refine Nat.le_trans (ih (by omega) (by omega)) ?_
      have := List.all_eq_true.mp (List.all_eq_true.mp exact_table n (List.mem_range.mpr (by omega))) b (List.mem_range.mpr (by omega))
      simp only [Bool.and_eq_true, Bool.or_eq_true, decide_eq_true_eq] at this
      omega

theorem growN32_exact (n k : Nat) (hn : n ≤ 27) (hk : k ≤ 71) : growN32 k (2 ^ n % 2 ^ 32) = growN k (2 ^ n) := by
  induction k with
  | zero => exact Nat.mod_eq_of_lt (Nat.pow_lt_pow_right (by omega) (by omega))
  | succ k ih =>
    have h := exact_lt n (k + 1) hn hk
    rw [growN, grow] at h
    rw [growN32, grow32, ih (by omega), Nat.mod_eq_of_lt h, growN, grow]

/-- **C75** For `n ≤ 27` nothing wraps around: up to height 4198400 the size is the exact one, `2^n` grown by 5 % per period. -/
theorem C75_exact (n height : Nat) (hn : n ≤ 27) (hh : height ≤ 4198400) : sizeFor n height = tableSize (2 ^ n) height := by
  unfold sizeFor tableSize
  rw [if_neg (by omega), Nat.min_eq_left hh]
  by_cases h : height < 614400
  · rw [if_pos h, if_pos h]
    exact Nat.mod_eq_of_lt (Nat.pow_lt_pow_right (by omega) (by omega))
  · rw [if_neg h, if_neg h, growN32_exact n _ hn (by omega)]

/-- **C75** and for `9 ≤ n ≤ 27` it never shrinks up to that height. -/
theorem C75_monotone (n a b : Nat) (h9 : 9 ≤ n) (hn : n ≤ 27) (hab : a ≤ b) (hb : b ≤ 4198400) : sizeFor n a ≤ sizeFor n b := by
  rw [C75_exact n a hn (by omega), C75_exact n b hn hb]
  unfold tableSize
  rw [Nat.min_eq_left hb, Nat.min_eq_left (by omega : a ≤ 4198400)]
  by_cases h1 : a < 614400
  · rw [if_pos h1]
    by_cases h2 : b < 614400
    · rw [if_pos h2]
    · rw [if_neg h2]
      exact exact_mono n h9 hn 0 _ (by omega) (by omega)
  · rw [if_neg h1, if_neg (by omega)]
    exact exact_mono n h9 hn _ _ (by omega) (by omega)

/-- **C75** Above height 4198400 the parameter `n` has no influence: all clients with the same `k` agree. -/
theorem C75_final (P : Prims) (k n n' : U32) (msg : List Byte) (height nonce : U64) (hh : 4198400 < height.toNat) :
    (new k n).compute P msg height nonce = (new k n').compute P msg height nonce := by
  rw [C75_compute, C75_compute]
  unfold sizeFor
  rw [if_pos hh, if_pos hh]

/-- the sizes after all 71 steps, for all parameters -/
theorem last_table : ((List.range 32).all fun n => decide (growN32 71 (2 ^ n % 2 ^ 32) = 2143944600) == decide (n = 26)) = true := by
  decide +kernel

/-- **C75** The constant used from there on continues the growth only for the Ergo parameter: for every other `n` the size jumps at height
4198401. -/
theorem C75_jump_iff (n : Nat) : sizeFor n 4198400 = sizeFor n 4198401 ↔ n = 26 := by
  unfold sizeFor
  rw [if_neg (by omega), if_neg (by omega), if_pos (by omega), show (4198400 - 614400) / 51200 + 1 = 71 from rfl]
  by_cases hn : 32 ≤ n
  · rw [base_zero n hn, growN32_zero]
    omega
  · have := List.all_eq_true.mp last_table n (List.mem_range.mpr (by omega))
    simpa using this

/-- **C75** With no index at all the digest does not depend on the message, the nonce or the height. -/
theorem C75_no_index (P : Prims) (n : U32) (msg : List Byte) (hm : msg.length = 32) (height nonce : U64)
    (h : sizeFor n.toNat height.toNat ≠ 0) : (new 0 n).compute P msg height nonce = .ok (some (P.blake2b256 [])) := by
  rw [C75_compute, if_neg (by omega), if_neg h, if_neg (by decide)]
  refine congrArg (fun t => Except.ok (some (P.blake2b256 t))) ?_
  have : sum P.blake2b256 (BitVec.toNat (0 : U32)) (sizeFor n.toNat height.toNat) height.toNat msg (Spec.beEncode 8 nonce.toNat) = 0 := rfl
  rw [this, minimalBytes, if_pos rfl]

/-! ## the hypotheses are met -/

/-- parameters that shrink the table at the first step -/
example : sizeFor 8 614399 = 256 ∧ sizeFor 8 614400 = 210 := by decide

/-- a wrap-around -/
example : sizeFor 31 1300000 = 4251869580 ∧ sizeFor 31 1331200 < sizeFor 31 1300000 := by decide +kernel

/-- `New(32, 6)` works at first and then panics -/
example (P : Prims) (msg : List Byte) (hm : msg.length = 32) (nonce : U64) :
    (∃ d, (new 32 6).compute P msg 614399 nonce = .ok (some d) ∧ d.length = 32) ∧
      (new 32 6).compute P msg 614400 nonce = .error (.panic .divZero) := by
  refine ⟨(C75_returns_iff P 32 6 msg hm 614399 nonce).mpr (by decide), ?_⟩
  rw [C75_compute, if_neg (by omega), if_pos (by decide)]

end Verif.Props
