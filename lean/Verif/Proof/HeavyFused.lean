import Verif.Proof.HeavyEval

/-! # The first matrix from the state 1, 0, 0, 0 with the fused operation -/

set_option autoImplicit false

namespace Verif.Heavy.Eval

open Spec.Heavy

theorem fused_eval : rowsOf 64 1 (cols fusedMulSub 64) = true := by decide +kernel

theorem fused_rank : calculateRank fused (candidate ⟨1, 0, 0, 0⟩ 0) = .ok 64 := by
  rw [show (⟨1, 0, 0, 0⟩ : XState) = Xoshiro.unpack 1 by decide]
  exact fused_of 1 fused_eval

end Verif.Heavy.Eval
