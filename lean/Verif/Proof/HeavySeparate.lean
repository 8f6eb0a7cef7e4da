import Verif.Proof.HeavyEval

/-! # The first matrix from the state 1, 0, 0, 0 with operations rounded one by one -/

set_option autoImplicit false

namespace Verif.Heavy.Eval

open Spec.Heavy

theorem separate_eval : rowsOf 64 1 (cols mulSub 64) = true := by decide +kernel

theorem separate_rank : calculateRank separate (candidate ⟨1, 0, 0, 0⟩ 0) = .ok 64 := by
  rw [show (⟨1, 0, 0, 0⟩ : XState) = Xoshiro.unpack 1 by decide]
  exact separate_of 1 separate_eval

end Verif.Heavy.Eval
