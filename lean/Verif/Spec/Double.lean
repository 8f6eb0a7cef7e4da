import Mathlib.Algebra.Order.Field.Rat
import Mathlib.Algebra.Order.Field.Power
import Mathlib.Tactic.Ring
import Mathlib.Tactic.LinearCombination
import Mathlib.Tactic.Linarith

/-! # IEEE 754 binary64: which rational a result is rounded to (specification only, no model) -/

set_option autoImplicit false

namespace Verif.Spec.Double

/-- The numbers with 53 significant bits and exponent at least `-1074`: the finite doubles, and above them what they would be without a
largest exponent. -/
def IsDouble (y : ℚ) : Prop := ∃ m e : ℤ, |m| < 2 ^ 53 ∧ -1074 ≤ e ∧ y = m * 2 ^ e

/-- `y` is `x` rounded to nearest, ties to even: no double is nearer, and if another is equally near then `y` is an even multiple of the
distance of the two. -/
structure Rounded (x y : ℚ) : Prop where
  double : IsDouble y
  nearest : ∀ z, IsDouble z → |x - y| ≤ |x - z|
  even : ∀ z, IsDouble z → z ≠ y → |x - z| = |x - y| → ∃ j : ℤ, y = 2 * j * (z - y)

/-- there is at most one -/
theorem Rounded.unique {x y z : ℚ} (hy : Rounded x y) (hz : Rounded x z) : y = z := by
  by_contra hne
  have he : |x - z| = |x - y| := le_antisymm (hz.nearest y hy.double) (hy.nearest z hz.double)
  obtain ⟨j, hj⟩ := hy.even z hz.double (fun h => hne h.symm) he
  obtain ⟨i, hi⟩ := hz.even y hy.double hne he.symm
  have hd : z - y ≠ 0 := fun h => hne (by linarith)
  have h1 : (z - y) * ((-2 * i - 2 * j : ℤ) - 1 : ℚ) = 0 := by
    have : z - y = 2 * i * (y - z) - 2 * j * (z - y) := by rw [← hi, ← hj]
    push_cast
    linear_combination -this
  rcases mul_eq_zero.1 h1 with h | h
  · exact hd h
  · have h2 : (-2 * i - 2 * j : ℤ) = 1 := by
      have : ((-2 * i - 2 * j : ℤ) : ℚ) = 1 := by linarith
      exact_mod_cast this
    omega

/-- a double is rounded to itself -/
theorem Rounded.self {x : ℚ} (h : IsDouble x) : Rounded x x := by
  refine ⟨h, ?_, ?_⟩
  · intro z _
    rw [sub_self, abs_zero]
    exact abs_nonneg _
  · intro z _ hz he
    rw [sub_self, abs_zero, abs_eq_zero] at he
    exact absurd (by linarith) hz

end Verif.Spec.Double
