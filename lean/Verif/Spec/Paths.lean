/-! # What a slash-separated path names, lexically (specification only, no model) -/

set_option autoImplicit false

namespace Verif.Spec.Paths

/-- the elements of a path: the texts between the slashes -/
def elements : List Char → List (List Char)
  | [] => [[]]
  | c :: cs =>
    if c = '/' then [] :: elements cs
    else match elements cs with
      | [] => [[c]]
      | w :: ws => (c :: w) :: ws

/-- A place: below the root, or so many directories above the current one and then down. -/
structure Place where
  rooted : Bool
  ups : Nat
  down : List (List Char)
  deriving DecidableEq, Repr

/-- follow one element; the root has no parent -/
def Place.follow (p : Place) (w : List Char) : Place :=
  if w = [] ∨ w = ['.'] then p
  else if w = ['.', '.'] then
    if p.down ≠ [] then { p with down := p.down.dropLast }
    else if p.rooted then p
    else { p with ups := p.ups + 1 }
  else { p with down := p.down ++ [w] }

/-- the place a path names -/
def place (path : List Char) : Place := (elements path).foldl Place.follow ⟨path.head? == some '/', 0, []⟩

/-- a name for a file in a directory -/
def FileName (w : List Char) : Prop := w ≠ [] ∧ '/' ∉ w ∧ w ≠ ['.'] ∧ w ≠ ['.', '.']

end Verif.Spec.Paths
