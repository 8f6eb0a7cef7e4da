import Mathlib.Data.Nat.Bitwise
import Mathlib.Data.Nat.ModEq
import Verif.Proof.LastItem

/-! # Low bits through FNV (for C103) -/

set_option autoImplicit false

namespace Verif.LastItem

/-- two words agree in their `k` lowest bits -/
def Low (k : Nat) (x y : W) : Prop := x.toNat % 2 ^ k = y.toNat % 2 ^ k

theorem xor_low (k : Nat) (a x y : Nat) : (a ^^^ x) % 2 ^ k = (a ^^^ y) % 2 ^ k ↔ x % 2 ^ k = y % 2 ^ k := by
  rw [Nat.xor_mod_two_pow, Nat.xor_mod_two_pow]
  exact Nat.xor_right_injective.eq_iff

theorem mul_low (k : Nat) (hk : k ≤ 32) (a a' : W) : Low k (a * 0x01000193) (a' * 0x01000193) ↔ Low k a a' := by
  unfold Low
  have hd : 2 ^ k ∣ 2 ^ 32 := Nat.pow_dvd_pow 2 hk
  rw [BitVec.toNat_mul, BitVec.toNat_mul, Nat.mod_mod_of_dvd _ hd, Nat.mod_mod_of_dvd _ hd]
  have hc : Nat.gcd (2 ^ k) (0x01000193 : W).toNat = 1 := Nat.Coprime.pow_left k (by decide)
  refine ⟨fun h => Nat.ModEq.cancel_right_of_coprime hc h, fun h => Nat.ModEq.mul_right _ h⟩

theorem fnv_low_left (k : Nat) (hk : k ≤ 32) (a a' b : W) : Low k (Spec.Ethash.fnv a b) (Spec.Ethash.fnv a' b) ↔ Low k a a' := by
  rw [← mul_low k hk a a']
  unfold Low Spec.Ethash.fnv
  rw [BitVec.toNat_xor, BitVec.toNat_xor, Nat.xor_comm _ b.toNat, Nat.xor_comm _ b.toNat]
  exact xor_low k _ _ _

theorem fnv_low_right (k : Nat) (a b b' : W) : Low k (Spec.Ethash.fnv a b) (Spec.Ethash.fnv a b') ↔ Low k b b' := by
  unfold Low Spec.Ethash.fnv
  rw [BitVec.toNat_xor, BitVec.toNat_xor]
  exact xor_low k _ _ _

theorem fnv_lsb (a b : W) : (Spec.Ethash.fnv a b).getLsbD 0 = (a.getLsbD 0 ^^ b.getLsbD 0) := by
  have hm : (a * 0x01000193).getLsbD 0 = a.getLsbD 0 := by
    unfold BitVec.getLsbD
    rw [BitVec.toNat_mul, Nat.testBit_zero, Nat.testBit_zero, Nat.mod_mod_of_dvd _ (by decide : 2 ∣ 2 ^ 32), Nat.mul_mod,
      show (0x01000193 : W).toNat % 2 = 1 from by decide, Nat.mul_one, Nat.mod_mod]
  unfold Spec.Ethash.fnv
  rw [BitVec.getLsbD_xor, hm]

/-- a change of one of the words that are reduced to one of the digest -/
theorem four_low (m : List W) (q : Nat) (y : W) (hq : q < m.length) (i k : Nat) (hk : k ≤ 32) :
    let r := fun v : List W => Spec.Ethash.fnv (Spec.Ethash.fnv (Spec.Ethash.fnv (v.getD (4 * i) 0) (v.getD (4 * i + 1) 0)) (v.getD (4 * i + 2) 0)) (v.getD (4 * i + 3) 0)
    Low k (r (m.set q y)) (r m) ↔ i ≠ q / 4 ∨ Low k y (m.getD q 0) := by
  dsimp only
  by_cases hi : i = q / 4
  · have hor : ∀ P : Prop, (i ≠ q / 4 ∨ P) ↔ P := fun P => ⟨fun h => h.resolve_left fun h => h hi, Or.inr⟩
    rw [hor, getD_set m q _ y hq, getD_set m q _ y hq, getD_set m q _ y hq, getD_set m q _ y hq]
    rcases (by omega : q = 4 * i ∨ q = 4 * i + 1 ∨ q = 4 * i + 2 ∨ q = 4 * i + 3) with h | h | h | h
    · rw [if_pos h.symm, if_neg (by omega), if_neg (by omega), if_neg (by omega), fnv_low_left k hk, fnv_low_left k hk, fnv_low_left k hk, h]
    · rw [if_neg (by omega), if_pos h.symm, if_neg (by omega), if_neg (by omega), fnv_low_left k hk, fnv_low_left k hk, fnv_low_right, h]
    · rw [if_neg (by omega), if_neg (by omega), if_pos h.symm, if_neg (by omega), fnv_low_left k hk, fnv_low_right, h]
    · rw [if_neg (by omega), if_neg (by omega), if_neg (by omega), if_pos h.symm, fnv_low_right, h]
  · rw [getD_set m q _ y hq, getD_set m q _ y hq, getD_set m q _ y hq, getD_set m q _ y hq, if_neg (by omega), if_neg (by omega), if_neg (by omega),
      if_neg (by omega)]
    exact ⟨fun _ => Or.inl hi, fun _ => rfl⟩

end Verif.LastItem
