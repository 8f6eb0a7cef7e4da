import Verif.Spec.Equihash
import Verif.Spec.Beam

/-! # Specification: the first fault of a Wagner tree

A verifier that combines the rows of a level from left to right, level after level, and stops at the first pair it cannot combine. -/

set_option autoImplicit false

namespace Verif.Spec.Wagner

/-- what can be wrong with two sibling blocks -/
inductive Fault where
  | collision | order | duplicate
  deriving DecidableEq

/-- What is wrong with the sibling blocks `A` and `B`; `agree` says that their strings agree where they have to. A block that begins with
the larger index is out of order; blocks that are in order, or begin with the same index, may have an index in common. -/
def Faulty (agree : Prop) (A B : List Nat) : Fault → Prop
  | .collision => ¬ agree
  | .order => agree ∧ ∃ a b, A[0]? = some a ∧ B[0]? = some b ∧ b < a
  | .duplicate => agree ∧ (∀ a b, A[0]? = some a → B[0]? = some b → a ≤ b) ∧ ∃ i, i ∈ A ∧ i ∈ B

/-- the fault of the pair of blocks number `w` at level `r` -/
def FaultAt (agree : Nat → List Nat → List Nat → Prop) (ixs : List Nat) (r w : Nat) : Fault → Prop :=
  Faulty (agree r (block ixs r (2 * w)) (block ixs r (2 * w + 1))) (block ixs r (2 * w)) (block ixs r (2 * w + 1))

/-- `f` is the fault of the first faulty pair: lower levels come first, within a level the pairs further left. -/
def FirstFault (k : Nat) (agree : Nat → List Nat → List Nat → Prop) (ixs : List Nat) (f : Fault) : Prop :=
  ∃ r w, r < k ∧ w < 2 ^ (k - (r + 1)) ∧ FaultAt agree ixs r w f ∧
    ∀ r' w', w' < 2 ^ (k - (r' + 1)) → r' < r ∨ (r' = r ∧ w' < w) → ∀ f', ¬ FaultAt agree ixs r' w' f'

/-- no pair at any level is faulty -/
def NoFault (k : Nat) (agree : Nat → List Nat → List Nat → Prop) (ixs : List Nat) : Prop :=
  ∀ r w, r < k → w < 2 ^ (k - (r + 1)) → ∀ f, ¬ FaultAt agree ixs r w f

end Verif.Spec.Wagner

/-- Equihash: the xors of the chunks number `r` of the leaves of the two blocks are the same -/
def Verif.Spec.Equihash.Agree (P : Prims) (q : Params) (header : List (BitVec 8)) (r : Nat) (A B : List Nat) : Prop :=
  Wagner.xorOf (fun i => chunk P q header i r) (A ++ B) = 0

/-- BeamHash III: the mixed work strings of the two blocks agree in their low 24 bits -/
def Verif.Spec.Beam.Agree (K : Sip.State) (r : Nat) (A B : List Nat) : Prop := mixed K r A % 2 ^ 24 = mixed K r B % 2 ^ 24
