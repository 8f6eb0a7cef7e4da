import Verif.Proof.EaglesongDigest

/-! # Eaglesong: which inputs are absorbed alike -/

set_option autoImplicit false

namespace Verif.Eaglesong

open Go Spec Spec.Eaglesong

theorem beValue_zeros (z : Nat) (b : List Byte) : beValue (List.replicate z 0 ++ b) = beValue b := by
  induction z with
  | zero => rfl
  | succ z ih =>
    rw [← ih]
    simp only [beValue, leValue, List.replicate_succ, List.cons_append, List.reverse_cons, List.foldr_append, List.foldr_cons, List.foldr_nil]
    rfl

theorem beValue_inj (a b : List Byte) (hl : a.length = b.length) (h : beValue a = beValue b) : a = b := by
  rw [beValue_eq, beValue_eq] at h
  rw [← beEncode_beNat a, ← beEncode_beNat b, h, hl]

theorem beValue_lt (a : List Byte) (h : a.length ≤ 4) : beValue a < 2 ^ 32 := by
  rw [beValue_eq]
  have h1 := beNat_lt a
  calc beNat a < _ := h1
    _ ≤ 256 ^ 4 := Nat.pow_le_pow_right (by omega) h
    _ = 2 ^ 32 := by norm_num

theorem messageWord_toNat (delim : Byte) (x : List Byte) (w : Nat) :
    (messageWord delim x w).toNat = beValue (((x ++ [delim]).drop (4 * w)).take 4) := by
  rw [messageWord, BitVec.toNat_ofNat, Nat.mod_eq_of_lt (beValue_lt _ (by simp))]

/-- same blocks up to leading zero bytes of an incomplete last word -/
def Alike (x y : List Byte) : Prop :=
  ∃ (a b : List Byte) (z z' : Nat), x = a ++ (List.replicate z 0 ++ b) ∧ y = a ++ (List.replicate z' 0 ++ b) ∧
    a.length % 4 = 0 ∧ z + b.length ≤ 3 ∧ z' + b.length ≤ 3

theorem drop_chunk (a b : List Byte) (ha : a.length % 4 = 0) (hb : b.length ≤ 4) (w : Nat) :
    ((a ++ b).drop (4 * w)).take 4 = if 4 * w < a.length then (a.drop (4 * w)).take 4 else if 4 * w = a.length then b else [] := by
  by_cases h1 : 4 * w < a.length
  · rw [if_pos h1, List.drop_append_of_le_length (by omega), List.take_append_of_le_length (by simp; omega)]
  · rw [if_neg h1]
    by_cases h2 : 4 * w = a.length
    · rw [if_pos h2, h2, List.drop_left, List.take_of_length_le hb]
    · rw [if_neg h2, List.drop_of_length_le (by simp; omega)]; rfl

theorem words_of_alike (delim : Byte) (x y : List Byte) (h : Alike x y) (w : Nat) : messageWord delim x w = messageWord delim y w := by
  obtain ⟨a, b, z, z', rfl, rfl, ha, hz, hz'⟩ := h
  unfold messageWord
  rw [List.append_assoc a, List.append_assoc a, drop_chunk a _ ha (by simp; omega), drop_chunk a _ ha (by simp; omega)]
  by_cases h1 : 4 * w < a.length
  · rw [if_pos h1, if_pos h1]
  · rw [if_neg h1, if_neg h1]
    by_cases h2 : 4 * w = a.length
    · rw [if_pos h2, if_pos h2, List.append_assoc, List.append_assoc, beValue_zeros, beValue_zeros]
    · rw [if_neg h2, if_neg h2]

theorem blocks_of_alike (x y : List Byte) (h : Alike x y) : blocks x = blocks y := by
  obtain ⟨a, b, z, z', rfl, rfl, ha, hz, hz'⟩ := h
  simp only [blocks, List.length_append, List.length_replicate]
  omega

theorem absorbed_congr (rounds : Nat) (delim : Byte) (x y : List Byte) (h : ∀ w, messageWord delim x w = messageWord delim y w) (n : Nat) :
    absorbed rounds delim x n = absorbed rounds delim y n := by
  induction n with
  | zero => rfl
  | succ n ih => simp only [absorbed, absorb, ih, h]

theorem digest_of_alike (rounds : Nat) (delim : Byte) (x y : List Byte) (h : Alike x y) : digest rounds delim x = digest rounds delim y := by
  unfold digest
  rw [blocks_of_alike x y h, absorbed_congr rounds delim x y (words_of_alike delim x y h)]

theorem short_alike (delim : Byte) (x y : List Byte) (hx : x.length ≤ 3) (hy : y.length ≤ 3)
    (h : messageWord delim x 0 = messageWord delim y 0) : Alike x y := by
  have e := congrArg BitVec.toNat h
  rw [messageWord_toNat, messageWord_toNat] at e
  simp only [Nat.mul_zero, List.drop_zero] at e
  rw [List.take_of_length_le (by simp; omega), List.take_of_length_le (by simp; omega), beValue_snoc, beValue_snoc] at e
  have e' : beValue x = beValue y := by omega
  rcases Nat.le_total x.length y.length with hl | hl
  · refine ⟨[], x, 0, y.length - x.length, by simp, ?_, rfl, by omega, by omega⟩
    exact beValue_inj _ _ (by simp; omega) (by rw [List.nil_append, beValue_zeros, e'])
  · refine ⟨[], y, x.length - y.length, 0, ?_, by simp, rfl, by omega, by omega⟩
    exact beValue_inj _ _ (by simp; omega) (by rw [List.nil_append, beValue_zeros, e'])

theorem word_last (delim : Byte) (hd : delim ≠ 0) (y : List Byte) : messageWord delim y (y.length / 4) ≠ 0 := by
  intro h
  have e := congrArg BitVec.toNat h
  have hy : y = y.take (4 * (y.length / 4)) ++ y.drop (4 * (y.length / 4)) := (List.take_append_drop _ _).symm
  have hl : (y.take (4 * (y.length / 4))).length = 4 * (y.length / 4) := by simp; omega
  rw [messageWord_toNat] at e
  have c := drop_chunk (y.take (4 * (y.length / 4))) (y.drop (4 * (y.length / 4)) ++ [delim]) (by omega) (by simp; omega) (y.length / 4)
  rw [if_neg (by omega), if_pos hl.symm, ← List.append_assoc, List.take_append_drop] at c
  rw [c, beValue_snoc] at e
  have h0 : delim.toNat = 0 := by simp at e; omega
  exact hd (BitVec.eq_of_toNat_eq h0)

theorem word_beyond (delim : Byte) (x : List Byte) (w : Nat) (h : x.length < 4 * w) : messageWord delim x w = 0 := by
  unfold messageWord
  rw [List.drop_of_length_le (by simp; omega)]
  rfl

theorem messageWord_drop (delim : Byte) (x : List Byte) (w : Nat) (h : 4 ≤ x.length) : messageWord delim (x.drop 4) w = messageWord delim x (w + 1) := by
  unfold messageWord
  rw [← List.drop_append_of_le_length h, List.drop_drop, show 4 + 4 * w = 4 * (w + 1) by omega]

theorem alike_of_words (delim : Byte) (hd : delim ≠ 0) : ∀ (n : Nat) (x y : List Byte), x.length ≤ n →
    (∀ w, messageWord delim x w = messageWord delim y w) → Alike x y := by
  intro n
  induction n using Nat.strongRecOn with
  | _ n ih =>
    intro x y hx h
    by_cases h1 : x.length ≤ 3
    · by_cases h2 : y.length ≤ 3
      · exact short_alike delim x y h1 h2 (h 0)
      · exact absurd ((h (y.length / 4)).symm.trans (word_beyond delim x _ (by omega))) (word_last delim hd y)
    · by_cases h2 : y.length ≤ 3
      · exact absurd ((h (x.length / 4)).trans (word_beyond delim y _ (by omega))) (word_last delim hd x)
      · have e := congrArg BitVec.toNat (h 0)
        rw [messageWord_toNat, messageWord_toNat] at e
        simp only [Nat.mul_zero, List.drop_zero] at e
        rw [List.take_append_of_le_length (by omega), List.take_append_of_le_length (by omega)] at e
        have e4 : x.take 4 = y.take 4 := beValue_inj _ _ (by simp; omega) e
        obtain ⟨a, b, z, z', ex, ey, ha, hz, hz'⟩ := ih (n - 4) (by omega) (x.drop 4) (y.drop 4) (by simp; omega) (by
          intro w
          rw [messageWord_drop _ _ _ (by omega), messageWord_drop _ _ _ (by omega), h])
        refine ⟨x.take 4 ++ a, b, z, z', ?_, ?_, by simp; omega, hz, hz'⟩
        · rw [List.append_assoc, ← ex, List.take_append_drop]
        · rw [List.append_assoc, ← ey, e4, List.take_append_drop]

end Verif.Eaglesong
