/-! # Specification: cycles in bipartite graphs

Edges `e : E` of a bipartite multigraph, `u e` and `v e` being the two endpoints (on the two sides).
This file refers to no model definition. -/

set_option autoImplicit false

namespace Verif.Spec

/-- `cyc` lists the edges of a single simple cycle in the order in which the cycle traverses them: edges `2t` and
`2t+1` meet in a node of the `u` side, edges `2t+1` and `2t+2` meet in a node of the `v` side, cyclically, and no
node is visited twice. -/
structure IsCycle {E N : Type} (u v : E → N) (cyc : List E) : Prop where
  pos : 0 < cyc.length
  even : cyc.length % 2 = 0
  joinU : ∀ t a b, cyc[2 * t]? = some a → cyc[2 * t + 1]? = some b → u a = u b
  joinV : ∀ t a b, cyc[2 * t + 1]? = some a → cyc[(2 * t + 2) % cyc.length]? = some b → v a = v b
  distinctU : ∀ s t a b, cyc[2 * s]? = some a → cyc[2 * t]? = some b → u a = u b → s = t
  distinctV : ∀ s t a b, cyc[2 * s + 1]? = some a → cyc[2 * t + 1]? = some b → v a = v b → s = t

/-- The given edges, taken with multiplicity and in some order, form a single simple cycle. -/
def FormCycle {E N : Type} (u v : E → N) (edges : List E) : Prop :=
  ∃ cyc : List E, cyc.Perm edges ∧ IsCycle u v cyc

/-- The edges joined to the first one form a simple cycle of `T` edges: they are on a cycle, and no other edge meets it. -/
def FirstOnCycle {E N : Type} (u v : E → N) (edges : List E) (T : Nat) : Prop :=
  ∃ cyc rest : List E, cyc.length = T ∧ (cyc ++ rest).Perm edges ∧ IsCycle u v cyc ∧ (∀ e, edges.head? = some e → e ∈ cyc) ∧
    ∀ a ∈ cyc, ∀ b ∈ rest, u a ≠ u b ∧ v a ≠ v b

end Verif.Spec
