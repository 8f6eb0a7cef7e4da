import Verif.Proof.EquihashTotal
import Verif.Go.Fail

/-! # Solutions whose length does not fit 32 bits -/

set_option autoImplicit false

namespace Verif.Equihash

open Go Spec Spec.Equihash

/-- one group more than the output has room for -/
theorem expand_overrun (input : List Byte) (b pad m : Nat) (hb : 8 ≤ b) (hb32 : b ≤ 32) (hm : (m + 1) * ((b + 7) / 8 + pad) < 2 ^ 32)
    (hover : b * (m + 1) ≤ 8 * input.length) :
    forRange 0 input.length ⟨0, 0, 0, List.replicate (m * ((b + 7) / 8 + pad)) 0⟩
        (expandStep input b pad ((b + 7) / 8 + pad) (((1 : U32) <<< b) - 1)) = .error (.panic .index) := by
  obtain ⟨W, hW⟩ : ∃ W, W = (b + 7) / 8 + pad := ⟨_, rfl⟩
  rw [← hW] at hm ⊢
  have hpad : pad < W := by omega
  obtain ⟨t, ht⟩ : ∃ t, t = (b * (m + 1) + 7) / 8 - 1 := ⟨_, rfl⟩
  have hbm : 8 ≤ b * (m + 1) := Nat.le_trans hb (Nat.le_mul_of_pos_right _ (by omega))
  have hmul : b * (m + 1) = b * m + b := by ring
  have hmW : (m + 1) * W = m * W + W := by ring
  refine forRange_err_at (fun i s => s.accBits = 8 * i % b ∧ s.j = (8 * i / b) * W ∧ s.output.length = m * W) input.length t (by omega) _ _
    ⟨by simp, by simp, by simp⟩ ?_ ?_
  · rintro i ⟨ab, av, j, out⟩ hi ⟨h1, h3, h4⟩
    simp only at h1 h3 h4
    have hmod : 8 * i % b < b := Nat.mod_lt _ (by omega)
    have hdm := Nat.div_add_mod (8 * i) b
    simp only [expandStep]
    rw [idx_ok _ _ (show i < input.length by omega), ok_bind, h1]
    have hu : u32 (8 * i % b + 8) = 8 * i % b + 8 := Nat.mod_eq_of_lt (by omega)
    rw [hu]
    by_cases hc : b ≤ 8 * i % b + 8
    · have hdiv : 8 * (i + 1) / b = 8 * i / b + 1 := by
        apply Nat.div_eq_of_lt_le
        · rw [show (8 * i / b + 1) * b = b * (8 * i / b) + b by ring]; omega
        · rw [show (8 * i / b + 1 + 1) * b = b * (8 * i / b) + 2 * b by ring]; omega
      have hmd : 8 * (i + 1) % b = 8 * i % b + 8 - b := by
        have h := Nat.div_add_mod (8 * (i + 1)) b
        rw [hdiv, Nat.mul_add] at h
        omega
      have hlt : 8 * (i + 1) / b < m + 1 := Nat.div_lt_of_lt_mul (by omega)
      have hle : (8 * i / b + 1) * W ≤ m * W := Nat.mul_le_mul_right _ (by omega)
      rw [Nat.add_mul, Nat.one_mul] at hle
      rw [if_pos hc, h3]
      obtain ⟨o, e1, e2, _⟩ := expandByte_total b pad W (8 * i % b + 8 - b) (by omega) (av <<< 8 ||| BitVec.setWidth 32 (input[i]'(by omega)))
        (8 * i / b * W) out (by omega) (by omega)
      rw [e1]
      refine ⟨_, rfl, by simp only; omega, ?_, by simp only; omega⟩
      simp only
      rw [hdiv, Nat.add_mul, Nat.one_mul]
      apply Nat.mod_eq_of_lt
      omega
    · have hdiv : 8 * (i + 1) / b = 8 * i / b := by
        apply Nat.div_eq_of_lt_le
        · rw [show 8 * i / b * b = b * (8 * i / b) by ring]; omega
        · rw [show (8 * i / b + 1) * b = b * (8 * i / b) + b by ring]; omega
      have hmd : 8 * (i + 1) % b = 8 * i % b + 8 := by
        have h := Nat.div_add_mod (8 * (i + 1)) b
        rw [hdiv] at h
        omega
      rw [if_neg hc]
      refine ⟨_, rfl, ?_, ?_, h4⟩
      · simp only; omega
      · simp only; rw [hdiv, h3]
  · rintro ⟨ab, av, j, out⟩ ⟨h1, h3, h4⟩
    simp only at h1 h3 h4
    have hdiv : 8 * t / b = m := by
      apply Nat.div_eq_of_lt_le
      · rw [Nat.mul_comm]; omega
      · rw [Nat.mul_comm (m + 1) b]; omega
    have htl : t < input.length := by omega
    have hdm := Nat.div_add_mod (8 * t) b
    rw [hdiv] at hdm h3
    simp only [expandStep]
    rw [idx_ok _ _ htl, ok_bind, h1]
    have hu : u32 (8 * t % b + 8) = 8 * t % b + 8 := Nat.mod_eq_of_lt (by have := Nat.mod_lt (8 * t) (show 0 < b by omega); omega)
    rw [hu, if_pos (by omega), h3]
    have he : forRange pad W out (expandByte (((1 : U32) <<< b) - 1) W (8 * t % b + 8 - b) (av <<< 8 ||| BitVec.setWidth 32 (input[t]'htl)) (m * W)) =
        .error (.panic .index) := by
      unfold forRange
      obtain ⟨d, hd⟩ : ∃ d, W - pad = d + 1 := ⟨W - pad - 1, by omega⟩
      rw [hd, loop]
      unfold expandByte
      simp only
      rw [show u32 (m * W + pad) = m * W + pad from Nat.mod_eq_of_lt (by omega), upd, if_neg (by omega)]
      rfl
    rw [he]
    rfl

variable {q : Params}

/-- Well-formed parameters: 4 GiB and more. -/
theorem decode_long (h : q.WF) (soln : List Byte) (hlong : 2 ^ 32 ≤ soln.length) :
    indicesFromMinimal q.n q.k soln =
      if soln.length % 2 ^ 32 = q.solLen then .error (.panic .index) else .ok (.error .minimalLen) := by
  have hc1 := h.c_lo
  have hc2 := h.c_hi
  have hsm := h.small
  have hk := wf_k h
  have hkp : 2 ^ q.k < 2 ^ 32 := Nat.pow_lt_pow_right (by omega) hk
  have hsl := solLen_mul h
  have e1 : u32 (2 ^ q.k) = 2 ^ q.k := Nat.mod_eq_of_lt hkp
  have e2 : u32 (q.c + 1) = q.c + 1 := Nat.mod_eq_of_lt (by omega)
  have e3 : u32 (2 ^ q.k * (q.c + 1)) = 2 ^ q.k * (q.c + 1) := Nat.mod_eq_of_lt (by omega)
  have e4 : u32 (q.c + 1 + 7) = q.c + 1 + 7 := Nat.mod_eq_of_lt (by omega)
  have e5 : u32 soln.length = soln.length % 2 ^ 32 := rfl
  simp only [indicesFromMinimal]
  rw [cbl_eq h, ok_bind]
  simp only [e1, e2, e3, e4]
  rw [e5]
  by_cases hl : soln.length % 2 ^ 32 = q.solLen
  · rw [if_neg (by rw [hl]; simp [Params.solLen]), if_pos hl, if_neg (by omega)]
    obtain ⟨pad, hpad⟩ : ∃ p, p = 4 - (q.c + 1 + 7) / 8 := ⟨_, rfl⟩
    have hW : (q.c + 1 + 7) / 8 + pad = 4 := by omega
    rw [← hpad]
    have hq1 : u32 (u32 (8 * 4) * q.solLen) / (q.c + 1) = 2 ^ q.k * 4 := by
      rw [show u32 (u32 (8 * 4) * q.solLen) = 8 * 4 * q.solLen from Nat.mod_eq_of_lt (show 32 * q.solLen < 2 ^ 32 by omega),
        show 8 * 4 * q.solLen = (2 ^ q.k * 4) * (q.c + 1) by
        rw [Nat.mul_assoc, show 8 * (4 * q.solLen) = 4 * (8 * q.solLen) by omega, hsl]; ring, Nat.mul_div_cancel _ (by omega)]
    have hne : ¬ (2 ^ q.k * 4 = q.solLen) := by
      intro he
      have : 2 ^ q.k * (q.c + 1) ≤ 2 ^ q.k * 26 := Nat.mul_le_mul_left _ (by omega)
      have := Nat.two_pow_pos q.k
      omega
    have hx : expandArray soln (q.c + 1) pad = .error (.panic .index) := by
      unfold expandArray
      rw [if_neg (by omega), if_neg (by omega)]
      simp only [e4, hW]
      rw [e5, hl, show u32 4 = 4 from rfl, hq1, if_neg hne]
      have hov := expand_overrun soln (q.c + 1) pad (2 ^ q.k) (by omega) (by omega) ?_ ?_
      · rw [hW] at hov
        rw [hov]
        rfl
      · rw [hW]
        have : 2 ^ q.k * 9 ≤ 2 ^ q.k * (q.c + 1) := Nat.mul_le_mul_left _ (by omega)
        omega
      · rw [Nat.mul_add, Nat.mul_one, Nat.mul_comm, ← hsl]
        omega
    rw [hx]
    rfl
  · rw [if_pos (by intro he; exact hl (by rw [he]; rfl)), if_neg hl]
    rfl

/-- The outcome of `verify` for solutions of 4 GiB and more. -/
theorem verify_long (P : Prims) (header : List Byte) (h : q.WF) (soln : List Byte) (hlong : 2 ^ 32 ≤ soln.length) (fuel : Nat) :
    verify P fuel q.n q.k q.personal header soln q.twist =
      if soln.length % 2 ^ 32 = q.solLen then .error (.panic .index) else .ok (false, some .minimalLen) := by
  have hn := h.n_hi
  have hk := wf_k h
  rw [verify_tail P fuel (by omega) (by omega), verifyTail, decode_long h soln hlong]
  by_cases hl : soln.length % 2 ^ 32 = q.solLen
  · rw [if_pos hl, if_pos hl]
    rfl
  · rw [if_neg hl, if_neg hl]
    rfl

end Verif.Equihash
