import Verif.Spec.Dag
import Mathlib.Data.Nat.Prime.Defs

/-! # Sizes for parameters other than the published ones

The published sizes are those of `Verif.Spec.Dag`. A program that starts one row below the bound of the growth formula and goes down two
rows at a time in 64-bit arithmetic finds the sizes below instead. -/

set_option autoImplicit false

namespace Verif.Spec.DagParams

/-- the sizes such a program looks at, in this order -/
def tried (row : Nat) (bound : Nat) (k : Nat) : Nat := (((bound : Int) - row - 2 * row * k) % 2 ^ 64).toNat

/-- the first of them with a prime number of (whole) rows -/
def IsFirst (row bound size : Nat) : Prop :=
  ∃ k, size = tried row bound k ∧ (size / row).Prime ∧ ∀ j < k, ¬ (tried row bound j / row).Prime

/-- there is at most one -/
theorem IsFirst.unique {r b s t : Nat} (h1 : IsFirst r b s) (h2 : IsFirst r b t) : s = t := by
  obtain ⟨k, hk, hp, hm⟩ := h1
  obtain ⟨k', hk', hp', hm'⟩ := h2
  rcases Nat.lt_trichotomy k k' with h | rfl | h
  · exact absurd (hk ▸ hp) (hm' k h)
  · rw [hk, hk']
  · exact absurd (hk' ▸ hp') (hm k' h)

/-- the size of an epoch: an entry of the table for the epochs below the limit of the table, otherwise the first one of the formula -/
def IsSizeOf (table : Option (Nat × List Nat)) (row bound epoch size : Nat) : Prop :=
  match table with
  | some (limit, sizes) => if epoch < limit then sizes[epoch]? = some size else IsFirst row bound size
  | none => IsFirst row bound size

theorem IsSizeOf.unique {t : Option (Nat × List Nat)} {r b e s s' : Nat} (h1 : IsSizeOf t r b e s) (h2 : IsSizeOf t r b e s') : s = s' := by
  cases t with
  | none => exact IsFirst.unique h1 h2
  | some p =>
    obtain ⟨m, l⟩ := p
    by_cases h : e < m
    · simp only [IsSizeOf, if_pos h] at h1 h2
      rw [h1] at h2
      exact Option.some.inj h2
    · simp only [IsSizeOf, if_neg h] at h1 h2
      exact IsFirst.unique h1 h2

/-- sizes for which a cache can be generated: at least one row, and no word beyond the last row -/
def Whole (size : Nat) : Prop := 64 ≤ size ∧ size % 64 < 4

/-- the number of times the seed is hashed, kept in a signed 64-bit number -/
def iterations (height length : Nat) : Nat := if height / length < 2 ^ 63 then height / length else 0

end Verif.Spec.DagParams
