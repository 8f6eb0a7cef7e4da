import Verif.Proof.HeavyInverse

/-! # The first matrix from the state 1, 0, 0, 0 is regular: it has an inverse modulo 5 -/

set_option autoImplicit false

namespace Verif.Heavy.Eval

open Spec.Heavy

/-- the columns of the inverse modulo 5 -/
def inverse : List (List Nat) :=
  [[0, 2, 2, 3, 3, 2, 2, 3, 0, 1, 1, 4, 4, 2, 4, 2, 1, 3, 0, 0, 3, 1, 0, 0, 3, 0, 3, 2, 0, 0, 4, 0, 4, 2, 3, 3, 1, 3, 4, 2, 3, 2, 3, 0, 4, 4, 0, 1, 4, 4, 4, 4, 4, 2, 0, 4, 4, 1, 2, 0, 3, 3, 3, 2],
   [3, 1, 1, 1, 0, 1, 1, 0, 2, 0, 0, 4, 0, 0, 4, 4, 0, 0, 0, 4, 4, 4, 2, 3, 4, 0, 0, 0, 3, 3, 3, 2, 4, 0, 3, 1, 3, 1, 4, 1, 1, 0, 4, 1, 1, 4, 2, 2, 4, 1, 0, 3, 2, 2, 1, 2, 2, 4, 1, 2, 3, 4, 0, 1],
   [3, 0, 3, 0, 3, 4, 2, 2, 3, 1, 1, 2, 4, 4, 2, 3, 0, 2, 0, 1, 0, 4, 2, 0, 3, 4, 3, 2, 3, 2, 2, 0, 1, 4, 4, 4, 1, 4, 0, 1, 1, 0, 3, 3, 4, 3, 4, 1, 2, 0, 4, 3, 0, 4, 3, 1, 0, 1, 4, 2, 3, 0, 0, 2],
   [4, 2, 2, 0, 1, 2, 3, 4, 2, 1, 4, 0, 2, 0, 3, 0, 0, 3, 2, 1, 2, 2, 3, 3, 1, 1, 3, 0, 0, 1, 0, 0, 1, 2, 2, 2, 1, 3, 0, 0, 2, 3, 2, 2, 1, 2, 2, 0, 0, 2, 4, 0, 0, 4, 2, 2, 1, 2, 2, 3, 0, 4, 3, 2],
   [0, 3, 4, 0, 3, 2, 4, 3, 4, 4, 4, 0, 3, 0, 4, 0, 2, 2, 4, 0, 2, 3, 2, 1, 2, 0, 1, 1, 3, 0, 1, 1, 0, 3, 1, 1, 1, 4, 0, 1, 4, 0, 4, 2, 4, 4, 1, 1, 4, 2, 3, 2, 1, 1, 4, 1, 3, 0, 3, 1, 1, 0, 3, 2],
   [2, 1, 2, 1, 0, 3, 3, 4, 1, 2, 3, 3, 3, 3, 4, 2, 2, 2, 0, 4, 2, 3, 2, 3, 0, 4, 4, 3, 1, 1, 4, 0, 4, 0, 4, 1, 4, 3, 0, 3, 2, 1, 4, 1, 4, 1, 1, 1, 4, 2, 1, 0, 0, 3, 3, 4, 1, 0, 0, 3, 0, 4, 1, 4],
   [4, 2, 4, 2, 2, 2, 3, 2, 3, 2, 0, 3, 0, 1, 3, 0, 2, 1, 4, 0, 1, 4, 1, 1, 3, 4, 0, 0, 2, 4, 4, 0, 0, 3, 0, 1, 1, 4, 0, 1, 1, 2, 0, 4, 3, 3, 3, 4, 3, 4, 4, 0, 0, 0, 0, 0, 2, 4, 4, 2, 4, 0, 0, 0],
   [4, 1, 0, 2, 1, 1, 4, 3, 2, 0, 1, 4, 1, 0, 4, 2, 3, 4, 2, 4, 2, 0, 3, 1, 3, 2, 3, 2, 1, 3, 0, 4, 4, 1, 0, 0, 2, 3, 0, 3, 0, 4, 0, 2, 2, 3, 4, 4, 3, 3, 2, 4, 4, 2, 1, 1, 2, 4, 0, 1, 1, 0, 3, 3],
   [3, 2, 2, 2, 4, 4, 1, 0, 1, 4, 0, 1, 3, 3, 4, 3, 0, 4, 4, 3, 0, 3, 4, 4, 4, 0, 2, 4, 4, 0, 2, 2, 4, 3, 1, 2, 1, 4, 3, 0, 3, 2, 1, 1, 1, 3, 0, 2, 3, 1, 1, 0, 1, 4, 0, 0, 1, 4, 3, 4, 4, 4, 0, 2],
   [3, 4, 0, 0, 2, 0, 1, 0, 2, 4, 2, 2, 0, 2, 3, 2, 3, 3, 1, 3, 1, 4, 1, 1, 0, 0, 2, 1, 4, 4, 1, 0, 4, 2, 4, 4, 3, 2, 0, 1, 4, 0, 3, 1, 2, 1, 3, 3, 3, 1, 2, 0, 1, 0, 0, 2, 2, 4, 2, 4, 1, 1, 3, 2],
   [2, 0, 4, 1, 4, 4, 0, 3, 3, 2, 3, 4, 1, 3, 1, 1, 1, 3, 2, 1, 3, 0, 3, 1, 0, 1, 0, 2, 3, 4, 1, 4, 2, 2, 0, 3, 2, 0, 2, 3, 1, 0, 0, 2, 1, 1, 3, 2, 2, 2, 0, 2, 3, 2, 2, 2, 1, 3, 3, 3, 0, 1, 4, 3],
   [2, 2, 4, 3, 1, 0, 0, 3, 1, 0, 3, 1, 4, 4, 0, 1, 4, 2, 3, 3, 0, 1, 2, 0, 1, 2, 4, 0, 3, 1, 2, 1, 4, 1, 2, 4, 0, 1, 0, 4, 1, 2, 3, 0, 2, 3, 4, 2, 0, 2, 3, 2, 0, 0, 3, 2, 3, 2, 4, 2, 1, 3, 3, 2],
   [2, 2, 4, 1, 1, 4, 3, 0, 0, 2, 3, 0, 3, 0, 3, 1, 0, 1, 0, 0, 4, 2, 1, 1, 2, 4, 2, 1, 4, 2, 2, 3, 1, 2, 0, 0, 1, 4, 0, 1, 4, 3, 4, 4, 0, 4, 0, 3, 3, 0, 2, 2, 1, 4, 2, 1, 0, 0, 2, 1, 3, 1, 1, 1],
   [1, 3, 2, 4, 4, 4, 4, 4, 0, 3, 1, 2, 4, 3, 1, 2, 1, 4, 2, 2, 2, 4, 0, 0, 4, 3, 2, 4, 4, 2, 3, 3, 4, 2, 2, 1, 4, 1, 4, 2, 1, 2, 4, 0, 2, 0, 4, 2, 1, 2, 2, 2, 2, 0, 4, 0, 4, 4, 0, 0, 1, 0, 1, 3],
   [3, 2, 1, 1, 0, 0, 2, 0, 2, 4, 2, 3, 1, 2, 2, 0, 2, 0, 2, 3, 0, 0, 1, 1, 3, 1, 0, 2, 4, 0, 0, 2, 1, 0, 1, 3, 1, 3, 4, 2, 3, 0, 2, 4, 0, 0, 0, 0, 2, 4, 2, 3, 4, 3, 4, 4, 4, 4, 1, 1, 2, 0, 2, 0],
   [3, 1, 1, 1, 2, 4, 1, 4, 3, 0, 2, 3, 2, 4, 2, 4, 1, 3, 4, 0, 1, 4, 2, 2, 2, 2, 3, 2, 2, 3, 3, 3, 2, 3, 4, 1, 3, 4, 1, 3, 0, 4, 4, 0, 1, 4, 1, 1, 1, 0, 2, 1, 1, 3, 3, 2, 2, 1, 3, 4, 3, 1, 4, 2],
   [3, 0, 2, 1, 1, 3, 1, 4, 4, 4, 1, 2, 0, 1, 0, 1, 4, 4, 1, 1, 0, 2, 3, 0, 0, 4, 2, 0, 3, 3, 2, 0, 1, 1, 0, 2, 4, 2, 3, 0, 4, 3, 2, 2, 1, 3, 2, 4, 0, 2, 3, 4, 2, 4, 4, 4, 3, 2, 1, 0, 3, 2, 3, 4],
   [0, 2, 2, 1, 3, 3, 2, 1, 1, 3, 0, 4, 4, 0, 4, 3, 0, 4, 3, 0, 3, 4, 0, 2, 2, 2, 4, 0, 0, 3, 0, 0, 3, 0, 4, 2, 1, 3, 1, 0, 3, 1, 2, 1, 4, 2, 1, 3, 3, 4, 3, 0, 3, 3, 4, 1, 1, 2, 2, 1, 1, 0, 2, 0],
   [0, 2, 3, 4, 4, 4, 1, 2, 0, 1, 4, 1, 4, 3, 4, 0, 4, 3, 2, 4, 1, 4, 2, 0, 3, 1, 2, 3, 2, 2, 2, 3, 2, 4, 1, 2, 2, 1, 3, 2, 0, 3, 0, 3, 4, 1, 0, 2, 1, 3, 4, 1, 3, 3, 4, 4, 4, 3, 4, 4, 2, 4, 4, 1],
   [0, 2, 0, 3, 0, 1, 0, 0, 0, 2, 1, 1, 3, 2, 2, 4, 2, 0, 1, 1, 3, 1, 0, 2, 2, 4, 2, 0, 4, 2, 1, 0, 3, 4, 1, 3, 1, 2, 2, 1, 0, 4, 2, 4, 0, 3, 0, 0, 4, 0, 3, 4, 3, 2, 0, 0, 4, 4, 1, 2, 2, 1, 3, 0],
   [3, 0, 0, 0, 3, 1, 4, 1, 0, 3, 1, 2, 3, 4, 4, 2, 4, 0, 3, 0, 1, 2, 2, 3, 4, 0, 0, 1, 2, 1, 2, 0, 1, 2, 4, 3, 4, 3, 2, 1, 0, 1, 4, 4, 0, 4, 1, 4, 2, 2, 3, 1, 1, 1, 0, 0, 3, 1, 2, 0, 4, 3, 3, 3],
   [2, 1, 3, 3, 2, 1, 4, 2, 4, 3, 3, 4, 1, 4, 1, 4, 1, 3, 1, 3, 3, 1, 0, 0, 1, 4, 3, 1, 1, 4, 3, 2, 3, 3, 0, 0, 4, 1, 4, 3, 2, 2, 1, 4, 2, 2, 4, 3, 0, 3, 4, 3, 3, 4, 1, 1, 0, 2, 4, 3, 2, 0, 2, 4],
   [1, 3, 4, 3, 1, 0, 1, 3, 4, 2, 0, 2, 0, 2, 3, 3, 3, 0, 2, 1, 1, 3, 4, 3, 2, 1, 2, 4, 3, 2, 2, 1, 2, 3, 0, 3, 3, 0, 2, 2, 2, 4, 3, 0, 2, 1, 1, 0, 1, 1, 2, 0, 1, 2, 3, 4, 4, 4, 1, 1, 4, 3, 4, 3],
   [1, 0, 2, 4, 4, 3, 3, 0, 4, 3, 3, 3, 4, 0, 0, 0, 0, 4, 4, 2, 4, 4, 2, 0, 4, 0, 0, 0, 2, 3, 2, 1, 3, 2, 4, 1, 4, 0, 3, 1, 0, 3, 3, 0, 2, 0, 1, 3, 3, 3, 3, 3, 4, 1, 3, 3, 1, 2, 3, 4, 3, 2, 1, 3],
   [4, 2, 1, 4, 1, 3, 2, 0, 0, 1, 2, 0, 4, 3, 3, 3, 2, 2, 1, 1, 4, 1, 4, 4, 2, 3, 2, 2, 0, 1, 4, 4, 4, 0, 4, 3, 3, 1, 1, 1, 2, 1, 0, 4, 2, 3, 3, 3, 2, 0, 1, 0, 4, 4, 2, 1, 2, 2, 4, 4, 0, 1, 3, 4],
   [4, 0, 0, 4, 0, 0, 0, 0, 0, 2, 2, 3, 2, 3, 0, 3, 2, 1, 4, 3, 1, 2, 4, 3, 4, 1, 3, 1, 4, 3, 4, 2, 4, 0, 2, 2, 2, 1, 3, 0, 4, 1, 4, 4, 0, 2, 4, 0, 0, 0, 3, 3, 4, 0, 3, 3, 3, 2, 0, 4, 0, 3, 3, 0],
   [1, 2, 2, 1, 3, 0, 2, 3, 0, 4, 1, 1, 2, 0, 4, 2, 3, 0, 0, 1, 1, 2, 2, 4, 4, 4, 1, 4, 1, 3, 2, 3, 4, 1, 2, 0, 3, 2, 4, 1, 1, 1, 3, 4, 4, 0, 4, 3, 1, 4, 1, 2, 2, 0, 4, 4, 3, 3, 1, 1, 4, 2, 2, 4],
   [1, 1, 0, 0, 4, 0, 2, 4, 0, 1, 4, 0, 4, 1, 2, 4, 1, 0, 1, 0, 2, 4, 1, 1, 0, 1, 3, 4, 3, 2, 4, 3, 1, 4, 4, 2, 3, 1, 2, 1, 4, 0, 2, 4, 2, 2, 1, 3, 1, 1, 0, 1, 2, 1, 2, 3, 1, 1, 2, 3, 0, 0, 4, 3],
   [3, 0, 4, 3, 3, 3, 1, 3, 1, 0, 2, 4, 1, 3, 3, 0, 0, 4, 3, 4, 3, 3, 0, 1, 3, 1, 3, 3, 0, 1, 3, 2, 2, 3, 0, 0, 0, 1, 0, 4, 2, 1, 2, 3, 1, 2, 3, 3, 2, 0, 2, 1, 0, 0, 4, 1, 2, 4, 2, 3, 4, 3, 3, 3],
   [4, 1, 1, 4, 1, 3, 3, 1, 3, 1, 2, 0, 2, 4, 2, 3, 4, 0, 4, 1, 1, 0, 4, 0, 3, 4, 0, 3, 2, 2, 3, 4, 1, 3, 2, 3, 2, 4, 2, 3, 3, 0, 4, 4, 1, 2, 0, 0, 2, 2, 4, 3, 4, 1, 4, 0, 3, 0, 3, 3, 0, 3, 1, 3],
   [2, 0, 4, 3, 3, 1, 3, 1, 0, 1, 3, 1, 4, 3, 2, 3, 2, 1, 1, 4, 3, 4, 4, 1, 4, 2, 4, 2, 2, 2, 2, 1, 4, 1, 2, 2, 4, 1, 4, 3, 2, 4, 0, 4, 0, 0, 2, 3, 4, 4, 4, 0, 0, 2, 1, 2, 0, 2, 1, 3, 3, 4, 3, 3],
   [3, 3, 1, 1, 1, 0, 2, 3, 0, 4, 4, 1, 0, 4, 3, 2, 0, 1, 1, 1, 0, 2, 0, 4, 0, 4, 4, 3, 1, 1, 0, 1, 2, 0, 3, 2, 3, 1, 0, 4, 0, 4, 4, 4, 2, 4, 3, 1, 4, 2, 0, 2, 2, 3, 4, 3, 1, 4, 0, 2, 0, 4, 2, 4],
   [0, 3, 2, 1, 0, 2, 1, 0, 2, 2, 2, 4, 4, 3, 1, 4, 3, 1, 4, 4, 2, 0, 1, 4, 3, 0, 2, 0, 0, 2, 4, 0, 4, 0, 1, 2, 3, 1, 4, 1, 3, 4, 4, 2, 3, 1, 3, 0, 2, 3, 0, 4, 3, 0, 4, 2, 0, 0, 2, 3, 1, 4, 3, 0],
   [0, 1, 1, 2, 0, 1, 0, 4, 0, 2, 2, 2, 1, 1, 3, 1, 1, 0, 1, 1, 1, 1, 4, 3, 2, 2, 3, 1, 4, 2, 0, 0, 3, 4, 1, 2, 4, 1, 2, 1, 2, 2, 0, 2, 3, 0, 1, 4, 2, 4, 4, 1, 2, 4, 4, 4, 3, 2, 3, 2, 4, 2, 3, 4],
   [3, 0, 3, 4, 1, 4, 3, 3, 2, 3, 4, 2, 1, 2, 0, 0, 3, 1, 3, 2, 2, 4, 2, 2, 1, 0, 3, 1, 2, 1, 0, 4, 3, 4, 4, 3, 0, 4, 3, 1, 0, 4, 4, 0, 3, 3, 1, 1, 3, 2, 3, 1, 1, 1, 0, 2, 1, 0, 0, 2, 1, 4, 4, 1],
   [3, 4, 1, 3, 4, 4, 2, 4, 4, 0, 3, 3, 0, 2, 1, 1, 1, 1, 4, 0, 2, 3, 3, 4, 2, 2, 2, 3, 2, 1, 2, 0, 4, 4, 0, 4, 3, 2, 3, 0, 2, 0, 3, 2, 4, 1, 1, 2, 4, 0, 0, 3, 4, 3, 3, 0, 3, 4, 0, 3, 1, 1, 0, 1],
   [0, 2, 4, 2, 3, 2, 0, 2, 1, 0, 2, 4, 4, 3, 3, 3, 4, 4, 3, 1, 3, 2, 3, 2, 3, 3, 1, 4, 3, 1, 1, 3, 4, 4, 1, 3, 2, 2, 1, 4, 3, 2, 1, 0, 4, 3, 2, 4, 2, 0, 0, 4, 4, 0, 1, 3, 2, 2, 0, 2, 2, 3, 2, 0],
   [4, 0, 2, 3, 2, 4, 1, 3, 3, 4, 3, 1, 4, 4, 3, 2, 3, 4, 0, 4, 1, 0, 3, 2, 0, 4, 1, 1, 4, 4, 2, 0, 2, 0, 2, 0, 4, 0, 4, 2, 0, 2, 0, 2, 3, 1, 4, 0, 3, 3, 3, 4, 4, 2, 3, 1, 0, 3, 0, 2, 1, 3, 3, 3],
   [4, 4, 2, 4, 4, 1, 3, 4, 4, 2, 4, 2, 0, 0, 0, 3, 4, 2, 2, 4, 1, 4, 3, 3, 3, 3, 4, 0, 0, 0, 0, 0, 1, 2, 3, 4, 3, 1, 2, 4, 3, 2, 4, 4, 1, 3, 0, 0, 4, 0, 2, 1, 3, 2, 3, 4, 1, 3, 4, 4, 1, 3, 0, 2],
   [2, 1, 3, 2, 1, 0, 0, 2, 4, 3, 1, 1, 2, 4, 3, 1, 4, 0, 0, 1, 4, 3, 3, 4, 4, 0, 4, 4, 3, 4, 3, 0, 2, 2, 1, 3, 0, 4, 0, 1, 2, 3, 2, 0, 4, 3, 3, 1, 2, 4, 3, 3, 0, 3, 3, 2, 1, 0, 3, 2, 0, 1, 3, 0],
   [4, 3, 1, 0, 0, 2, 2, 1, 4, 1, 2, 2, 4, 3, 2, 4, 0, 0, 2, 0, 1, 1, 2, 3, 3, 4, 0, 4, 2, 0, 0, 3, 3, 2, 2, 4, 1, 4, 0, 1, 3, 2, 2, 2, 0, 0, 3, 1, 2, 4, 0, 0, 3, 4, 3, 3, 4, 4, 3, 3, 1, 4, 2, 0],
   [0, 0, 4, 0, 2, 0, 4, 2, 0, 2, 0, 1, 3, 3, 3, 2, 4, 1, 0, 0, 0, 2, 4, 0, 4, 2, 1, 3, 1, 2, 1, 2, 1, 0, 4, 0, 3, 4, 2, 4, 3, 2, 0, 1, 0, 0, 1, 2, 2, 2, 0, 3, 0, 1, 1, 3, 4, 0, 3, 4, 4, 1, 0, 4],
   [3, 3, 2, 1, 1, 0, 3, 1, 4, 3, 1, 0, 3, 3, 0, 0, 4, 0, 0, 2, 0, 1, 4, 1, 2, 3, 3, 0, 4, 1, 2, 4, 0, 1, 1, 1, 2, 4, 0, 2, 1, 0, 0, 2, 3, 1, 2, 4, 3, 4, 0, 4, 0, 0, 3, 1, 2, 0, 1, 2, 2, 3, 0, 3],
   [0, 4, 2, 0, 0, 1, 2, 0, 4, 4, 4, 3, 4, 0, 3, 0, 1, 1, 1, 3, 4, 4, 1, 1, 3, 2, 3, 0, 2, 4, 2, 3, 3, 3, 3, 3, 4, 3, 3, 1, 0, 0, 1, 1, 0, 4, 0, 3, 2, 2, 3, 3, 2, 2, 4, 4, 2, 1, 1, 1, 1, 2, 2, 2],
   [4, 2, 3, 3, 2, 1, 0, 4, 3, 4, 0, 0, 1, 0, 2, 1, 0, 3, 4, 3, 3, 4, 2, 1, 1, 4, 1, 4, 3, 3, 4, 3, 1, 4, 4, 1, 1, 3, 1, 3, 3, 4, 1, 4, 2, 4, 2, 4, 4, 4, 0, 1, 4, 0, 1, 4, 0, 1, 0, 3, 2, 2, 2, 4],
   [0, 3, 4, 3, 3, 0, 1, 3, 2, 3, 1, 1, 3, 3, 0, 3, 0, 3, 4, 2, 1, 0, 0, 2, 0, 4, 1, 1, 1, 0, 0, 2, 4, 0, 0, 3, 1, 1, 3, 2, 2, 1, 0, 3, 0, 4, 2, 1, 2, 4, 1, 3, 0, 3, 4, 1, 1, 2, 3, 0, 3, 3, 2, 1],
   [4, 1, 2, 3, 2, 3, 1, 0, 4, 3, 4, 3, 0, 0, 1, 2, 1, 3, 4, 3, 2, 3, 3, 3, 3, 1, 1, 1, 4, 2, 0, 2, 1, 0, 1, 4, 2, 0, 1, 1, 0, 1, 2, 3, 2, 4, 1, 2, 4, 2, 4, 1, 1, 0, 0, 4, 0, 3, 1, 1, 1, 3, 0, 3],
   [2, 2, 3, 0, 1, 1, 3, 0, 2, 1, 3, 2, 2, 0, 1, 2, 2, 0, 3, 1, 1, 0, 0, 2, 2, 0, 1, 3, 2, 1, 1, 3, 4, 4, 4, 1, 2, 0, 1, 4, 2, 3, 4, 3, 3, 4, 1, 4, 0, 0, 0, 0, 3, 0, 3, 0, 1, 2, 2, 2, 0, 4, 0, 3],
   [4, 4, 1, 1, 4, 2, 4, 0, 0, 2, 2, 1, 2, 3, 1, 4, 0, 3, 1, 0, 0, 0, 0, 1, 0, 0, 0, 4, 0, 1, 3, 0, 1, 0, 2, 4, 2, 1, 2, 3, 2, 1, 4, 3, 4, 4, 1, 2, 4, 3, 1, 2, 0, 3, 1, 3, 3, 2, 2, 3, 0, 4, 4, 0],
   [4, 2, 1, 0, 0, 0, 0, 0, 3, 4, 4, 0, 3, 2, 0, 0, 1, 4, 3, 1, 4, 3, 2, 1, 3, 0, 3, 3, 0, 0, 1, 3, 1, 3, 1, 2, 3, 2, 3, 1, 2, 4, 2, 0, 0, 1, 2, 0, 3, 4, 3, 1, 0, 0, 3, 2, 4, 2, 1, 3, 3, 4, 2, 1],
   [3, 0, 2, 3, 4, 0, 1, 2, 0, 2, 3, 3, 0, 2, 4, 0, 3, 2, 4, 3, 2, 2, 2, 2, 1, 0, 3, 1, 0, 2, 4, 0, 0, 2, 0, 1, 1, 4, 4, 2, 1, 1, 3, 1, 1, 2, 3, 4, 0, 4, 0, 4, 2, 3, 3, 2, 3, 3, 4, 1, 1, 0, 3, 3],
   [4, 1, 0, 3, 1, 2, 0, 4, 1, 0, 1, 3, 3, 4, 0, 3, 1, 3, 1, 0, 3, 1, 0, 2, 0, 0, 4, 0, 1, 3, 4, 2, 2, 4, 2, 0, 0, 1, 1, 3, 1, 0, 2, 0, 2, 1, 0, 4, 2, 2, 0, 4, 4, 4, 3, 3, 1, 1, 0, 2, 0, 4, 2, 1],
   [2, 3, 1, 4, 2, 2, 0, 0, 2, 1, 0, 4, 2, 1, 2, 1, 3, 4, 1, 3, 3, 2, 3, 4, 0, 2, 4, 4, 2, 3, 4, 2, 4, 2, 4, 4, 1, 2, 1, 3, 2, 2, 3, 0, 1, 2, 1, 4, 3, 4, 1, 1, 4, 1, 2, 1, 1, 4, 0, 1, 0, 3, 4, 2],
   [2, 3, 0, 0, 1, 0, 4, 4, 2, 3, 2, 2, 2, 4, 3, 3, 3, 1, 1, 3, 2, 2, 2, 3, 4, 4, 3, 4, 2, 4, 0, 4, 3, 3, 1, 4, 0, 3, 4, 3, 4, 2, 1, 3, 2, 0, 1, 2, 1, 0, 4, 0, 1, 2, 4, 0, 3, 2, 3, 2, 0, 2, 3, 3],
   [3, 1, 2, 3, 0, 2, 3, 3, 2, 3, 2, 4, 4, 2, 4, 0, 4, 1, 0, 4, 1, 2, 3, 3, 4, 2, 3, 3, 0, 2, 3, 3, 1, 0, 3, 4, 4, 0, 2, 3, 2, 0, 1, 2, 1, 2, 0, 1, 3, 3, 0, 3, 0, 3, 4, 0, 1, 1, 2, 4, 0, 1, 0, 0],
   [1, 4, 0, 0, 1, 2, 0, 2, 0, 1, 1, 0, 0, 3, 0, 3, 1, 3, 1, 4, 2, 4, 3, 2, 4, 0, 0, 0, 3, 4, 2, 3, 4, 1, 2, 1, 0, 0, 2, 2, 0, 1, 3, 0, 0, 1, 4, 0, 1, 2, 3, 4, 3, 1, 3, 0, 0, 1, 3, 2, 1, 2, 0, 3],
   [2, 2, 0, 0, 0, 4, 0, 1, 3, 3, 2, 2, 3, 2, 0, 4, 4, 4, 2, 2, 3, 1, 2, 2, 2, 0, 3, 3, 4, 3, 3, 2, 3, 4, 4, 0, 3, 0, 3, 4, 2, 1, 0, 0, 3, 1, 0, 2, 3, 1, 0, 4, 0, 4, 0, 0, 1, 0, 1, 3, 1, 4, 0, 4],
   [1, 4, 2, 4, 3, 4, 1, 4, 3, 3, 1, 0, 4, 0, 4, 0, 4, 1, 3, 1, 2, 2, 1, 1, 2, 4, 0, 3, 1, 0, 0, 1, 3, 3, 1, 2, 3, 2, 3, 1, 3, 4, 3, 2, 3, 4, 1, 4, 3, 2, 1, 1, 0, 2, 4, 2, 4, 2, 3, 1, 2, 1, 2, 3],
   [4, 4, 1, 0, 3, 0, 4, 1, 1, 3, 0, 2, 1, 0, 3, 1, 2, 0, 1, 1, 2, 1, 4, 2, 1, 2, 4, 3, 0, 4, 1, 0, 0, 1, 0, 0, 0, 1, 3, 1, 1, 2, 0, 2, 2, 3, 2, 1, 2, 4, 1, 1, 1, 3, 2, 4, 3, 1, 2, 3, 0, 0, 4, 3],
   [3, 0, 0, 0, 2, 4, 1, 1, 4, 3, 2, 4, 4, 4, 1, 0, 3, 1, 4, 4, 4, 2, 2, 3, 4, 3, 3, 0, 4, 0, 2, 2, 1, 3, 4, 4, 1, 4, 3, 3, 0, 3, 3, 1, 3, 2, 3, 3, 0, 2, 1, 4, 1, 3, 3, 2, 2, 3, 3, 2, 3, 2, 2, 1],
   [4, 3, 4, 1, 4, 2, 1, 3, 0, 4, 2, 4, 4, 3, 2, 2, 1, 0, 3, 0, 4, 2, 4, 4, 1, 2, 3, 4, 2, 4, 1, 3, 1, 2, 3, 2, 2, 0, 2, 0, 4, 2, 1, 4, 0, 4, 1, 0, 0, 1, 3, 1, 0, 4, 4, 3, 3, 1, 0, 3, 3, 1, 2, 4],
   [1, 3, 3, 4, 2, 2, 3, 2, 1, 0, 2, 1, 3, 4, 2, 1, 0, 4, 4, 0, 4, 0, 1, 3, 2, 3, 3, 2, 2, 2, 1, 3, 0, 0, 0, 1, 3, 3, 4, 0, 4, 0, 1, 0, 0, 0, 1, 4, 3, 2, 4, 3, 4, 0, 3, 1, 0, 0, 4, 0, 3, 2, 2, 1],
   [0, 0, 0, 4, 1, 0, 4, 4, 2, 1, 4, 0, 2, 3, 3, 4, 3, 3, 0, 4, 0, 4, 2, 4, 3, 2, 0, 0, 0, 4, 4, 1, 2, 3, 4, 3, 3, 4, 0, 1, 3, 4, 3, 0, 0, 3, 2, 4, 2, 1, 0, 0, 2, 4, 1, 2, 4, 0, 4, 0, 3, 3, 2, 4],
   [0, 2, 4, 1, 0, 4, 4, 4, 2, 1, 4, 0, 2, 4, 4, 1, 0, 3, 0, 2, 1, 2, 0, 0, 1, 3, 3, 3, 4, 1, 4, 3, 1, 0, 0, 0, 1, 3, 3, 4, 2, 1, 0, 0, 0, 3, 2, 2, 4, 3, 0, 4, 3, 4, 4, 0, 0, 1, 4, 3, 2, 3, 4, 1]]

theorem inverse_length : inverse.length = 64 ∧ (inverse.all fun c => c.length == 64) = true := by decide +kernel

theorem exact_eval : rowsOf 64 1 (isInverse 5 inverse) = true := by decide +kernel

theorem exact_full (s : XState) (hs : s = ⟨1, 0, 0, 0⟩) : (Matrix.of fun i j : Fin 64 => (entry s 0 i j : ℚ)).rank = 64 :=
  rank_of_det s (exact_det 5 (by decide) inverse inverse_length.1 inverse_length.2 1 s (by rw [hs]; decide) exact_eval)

end Verif.Heavy.Eval
