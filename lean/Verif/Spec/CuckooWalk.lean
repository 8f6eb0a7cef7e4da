import Verif.Spec.Cycle

/-! # Specification: following a path through a list of edges

Edges are given by their number in the list; `false` is the `u` side, `true` the `v` side. This file refers to no model definition. -/

set_option autoImplicit false

namespace Verif.Spec

section
variable {E N : Type} (u v : E → N) (edges : List E)

/-- the endpoint on a side -/
def endOn (s : Bool) : E → N := if s then v else u

/-- two edges, different as members of the list, meet in a node of side `s` -/
def Meets (s : Bool) (a b : Nat) : Prop :=
  b ≠ a ∧ ∃ x y, edges[a]? = some x ∧ edges[b]? = some y ∧ endOn u v s x = endOn u v s y

/-- Starting from the `u` end of the first edge and going on as long as exactly one other edge meets the current one there, the
path is after `t` edges at end `s` of edge `a` and has not been back at the start. -/
inductive PathAt : Nat → Bool → Nat → Prop
  | start : PathAt 0 false 0
  | next {t : Nat} {s : Bool} {a b : Nat} : PathAt t s a → Meets u v edges s a b → (∀ b', Meets u v edges s a b' → b' = b) →
      ¬ (s = true ∧ b = 0) → PathAt (t + 1) (!s) b

/-- the path comes to a node that no other edge meets -/
def DeadEnd : Prop := ∃ t s a, PathAt u v edges t s a ∧ ∀ b, ¬ Meets u v edges s a b

/-- the path comes to a node that at least two other edges meet -/
def Branches : Prop := ∃ t s a b c, PathAt u v edges t s a ∧ Meets u v edges s a b ∧ Meets u v edges s a c ∧ b ≠ c

/-- the path is back at its start after `T` edges -/
def Returns (T : Nat) : Prop :=
  ∃ t a, T = t + 1 ∧ PathAt u v edges t true a ∧ Meets u v edges true a 0 ∧ ∀ b, Meets u v edges true a b → b = 0

end

/-- the exclusive or of some words -/
def xorOf (l : List (BitVec 64)) : BitVec 64 := l.foldr (· ^^^ ·) 0

end Verif.Spec
