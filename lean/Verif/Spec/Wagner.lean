/-! # Specification: solutions of the generalised birthday problem (Wagner tree)

A list of `2^k` leaf indices; leaf `i` carries the words `word i 0, word i 1, …`. -/

set_option autoImplicit false

namespace Verif.Spec.Wagner

/-- xor of `f` over a list of indices -/
def xorOf (f : Nat → Nat) (l : List Nat) : Nat := l.foldr (fun i acc => f i ^^^ acc) 0

/-- The `w`-th aligned block of `2^r` entries. -/
def block (ixs : List Nat) (r w : Nat) : List Nat := (ixs.drop (w * 2 ^ r)).take (2 ^ r)

/-- In every pair of sibling subtrees the first index of the left one is the smaller. -/
def Ordered (k : Nat) (ixs : List Nat) : Prop :=
  ∀ r < k, ∀ w < 2 ^ (k - (r + 1)), ∀ a b, ixs[w * 2 ^ (r + 1)]? = some a → ixs[w * 2 ^ (r + 1) + 2 ^ r]? = some b → a < b

/-- Exchanging the two halves of the `w`-th aligned block of `2^(r+1)` entries. -/
def swapSiblings (ixs : List Nat) (r w : Nat) : List Nat :=
  ixs.take (w * 2 ^ (r + 1)) ++ block ixs r (2 * w + 1) ++ block ixs r (2 * w) ++ ixs.drop ((w + 1) * 2 ^ (r + 1))

end Verif.Spec.Wagner
