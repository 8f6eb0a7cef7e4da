import Mathlib.Data.Nat.Prime.Defs

/-! # Sizes, epochs and seeds of the DAG-based algorithms, as published -/

set_option autoImplicit false

namespace Verif.Spec.Dag

/-- `p` is the largest prime below `n` -/
def LargestPrimeBelow (n p : Nat) : Prop := p.Prime ∧ p < n ∧ ∀ q, q.Prime → q < n → q ≤ p

/-- `size` is the published size for the bound `bound`, in rows of `unit` bytes: the largest prime number of rows that leaves
the size below the bound -/
def IsSize (unit bound size : Nat) : Prop := ∃ p, size = unit * p ∧ p.Prime ∧ unit * p < bound ∧ ∀ q, q.Prime → unit * q < bound → q ≤ p

/-- there is at most one such size -/
theorem IsSize.unique {u b s t : Nat} (h1 : IsSize u b s) (h2 : IsSize u b t) : s = t := by
  obtain ⟨p, rfl, hp, hpb, hpm⟩ := h1
  obtain ⟨q, rfl, hq, hqb, hqm⟩ := h2
  rw [Nat.le_antisymm (hqm p hp hpb) (hpm q hq hqb)]

/-- the seed of the `n`-th seed epoch: `H` applied `n` times to 32 zero bytes -/
def seed (H : List (BitVec 8) → List (BitVec 8)) : Nat → List (BitVec 8)
  | 0 => List.replicate 32 0
  | n + 1 => H (seed H n)

end Verif.Spec.Dag
