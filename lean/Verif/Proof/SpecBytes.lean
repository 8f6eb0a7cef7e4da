import Verif.Go.Prelude
import Verif.Go.Bytes
import Verif.Spec.Bytes

/-! # Relating the byte-string vocabulary of the specification to the Go layer -/

set_option autoImplicit false

namespace Verif.Spec

open Go

theorem leValue_eq (bs : List Byte) : leValue bs = leNat bs := by
  induction bs with
  | nil => rfl
  | cons b bs ih => simp only [leNat, ← ih]; rfl

theorem beValue_eq (bs : List Byte) : beValue bs = beNat bs := by
  rw [beValue, leValue_eq, leNat_reverse]

@[simp] theorem leEncode_length (m v : Nat) : (leEncode m v).length = m := by
  induction m generalizing v with
  | zero => rfl
  | succ m ih => simp [leEncode, ih]

@[simp] theorem beEncode_length (m v : Nat) : (beEncode m v).length = m := by simp [beEncode]

theorem leEncode_getElem (m : Nat) : ∀ (v i : Nat) (h : i < (leEncode m v).length), (leEncode m v)[i] = BitVec.ofNat 8 (v / 256 ^ i) := by
  induction m with
  | zero => intro v i h; simp [leEncode] at h
  | succ m ih =>
    intro v i h
    cases i with
    | zero => simp [leEncode]
    | succ i =>
      simp only [leEncode, List.getElem_cons_succ]
      rw [ih, Nat.div_div_eq_div_mul, Nat.pow_succ, Nat.mul_comm]

theorem beEncode_getElem (m v i : Nat) (h : i < (beEncode m v).length) :
    (beEncode m v)[i] = BitVec.ofNat 8 (v / 256 ^ (m - 1 - i)) := by
  simp only [beEncode] at h ⊢
  rw [List.getElem_reverse, leEncode_getElem]
  simp

theorem leNat_leEncode (m v : Nat) : leNat (leEncode m v) = v % 256 ^ m := by
  induction m generalizing v with
  | zero => simp [leEncode, leNat, Nat.mod_one]
  | succ m ih =>
    rw [leEncode, leNat, ih, BitVec.toNat_ofNat, show (256 : Nat) ^ (m + 1) = 256 * 256 ^ m by ring, Nat.mod_mul]

theorem beNat_beEncode (m v : Nat) : beNat (beEncode m v) = v % 256 ^ m := by
  rw [beEncode, beNat_reverse, leNat_leEncode]

theorem leEncode_leNat (a : List Byte) : leEncode a.length (leNat a) = a := by
  apply leNat_inj _ _ (by simp)
  rw [leNat_leEncode, Nat.mod_eq_of_lt (leNat_lt a)]

theorem beEncode_beNat (a : List Byte) : beEncode a.length (beNat a) = a := by
  apply beNat_inj _ _ (by simp)
  rw [beNat_beEncode, Nat.mod_eq_of_lt (beNat_lt a)]

theorem leEncode_eq_leBytes {w : Nat} (m : Nat) (v : BitVec w) : leEncode m v.toNat = leBytes m v := by
  apply leNat_inj _ _ (by simp)
  rw [leNat_leEncode, leNat_leBytes]

theorem leEncode_ofNat {w : Nat} (m v : Nat) (h : 8 * m ≤ w) : leBytes m (BitVec.ofNat w v) = leEncode m v := by
  apply leNat_inj _ _ (by simp)
  rw [leNat_leEncode, leNat_leBytes, BitVec.toNat_ofNat]
  apply Nat.mod_mod_of_dvd
  rw [show (256 : Nat) = 2 ^ 8 by norm_num, ← Nat.pow_mul]
  exact Nat.pow_dvd_pow 2 h

theorem pow256 (m : Nat) : (256 : Nat) ^ m = 2 ^ (8 * m) := by
  rw [show (256 : Nat) = 2 ^ 8 by norm_num, ← Nat.pow_mul]

/-- value of a prefix -/
theorem beNat_take (a : List Byte) (i : Nat) (_ : i ≤ a.length) : beNat (a.take i) = beNat a / 2 ^ (8 * (a.length - i)) := by
  have h := beNat_append (a.take i) (a.drop i)
  rw [List.take_append_drop, List.length_drop] at h
  have hl := beNat_lt (a.drop i)
  rw [List.length_drop] at hl
  rw [← pow256, h, Nat.mul_comm, Nat.mul_add_div (Nat.pow_pos (by omega)), Nat.div_eq_of_lt hl, Nat.add_zero]

/-- xor of encodings -/
theorem beEncode_xor (m a b : Nat) : List.zipWith (· ^^^ ·) (beEncode m a) (beEncode m b) = beEncode m (a ^^^ b) := by
  apply List.ext_getElem
  · simp
  · intro i h1 h2
    rw [List.getElem_zipWith, beEncode_getElem, beEncode_getElem, beEncode_getElem]
    apply BitVec.eq_of_getLsbD_eq
    intro t ht
    simp only [BitVec.getLsbD_xor, BitVec.getLsbD_ofNat, ht, decide_true, Bool.true_and]
    rw [pow256, Nat.testBit_div_two_pow, Nat.testBit_div_two_pow, Nat.testBit_div_two_pow, Nat.testBit_xor]

theorem beEncode_zero (m : Nat) : beEncode m 0 = List.replicate m 0 := by
  apply List.ext_getElem
  · simp
  · intro i h1 h2
    rw [beEncode_getElem]; simp

theorem beEncode_inj (m a b : Nat) (ha : a < 256 ^ m) (hb : b < 256 ^ m) (h : beEncode m a = beEncode m b) : a = b := by
  have := congrArg beNat h
  rwa [beNat_beEncode, beNat_beEncode, Nat.mod_eq_of_lt ha, Nat.mod_eq_of_lt hb] at this

end Verif.Spec
