import Verif.Go.Heap

/-! # What is said about memory (no model) -/

set_option autoImplicit false

namespace Verif.Go

variable {t : Ty}

/-- the slice lies in an array of the heap and has these elements -/
def Held (h : Heap) (s : Slice t) (xs : List t.Val) : Prop :=
  ∃ a, (h.store t)[s.arr]? = some a ∧ s.len ≤ s.cap ∧ s.off + s.cap ≤ a.length ∧ (a.drop s.off).take s.len = xs

/-- all arrays of `h` are in `h'`, with the same cells: no memory that existed was written -/
def Untouched (h h' : Heap) : Prop := ∀ (t : Ty) (i : Nat) (a : List t.Val), (h.store t)[i]? = some a → (h'.store t)[i]? = some a

/-- all arrays of `h` are in `h'`, and no cell outside of the slice `s` was written -/
def UntouchedBut (s : Slice t) (h h' : Heap) : Prop := ∀ (u : Ty) (i : Nat) (a : List u.Val), (h.store u)[i]? = some a →
  ∃ a', (h'.store u)[i]? = some a' ∧ a'.length = a.length ∧
    ∀ j, ¬ (u = t ∧ i = s.arr ∧ s.off ≤ j ∧ j < s.off + s.len) → a'[j]? = a[j]?

/-- the slice is in memory that `h` does not have: it shares no cell with any slice of `h` -/
def New (h : Heap) (s : Slice t) : Prop := (h.store t).length ≤ s.arr

/-- In memory `h`, `m` returns a slice with the elements `xs` that shares no cell with any slice of `h`, and writes to no cell of `h`. -/
def Delivers (m : Mem (Slice t)) (h : Heap) (xs : List t.Val) : Prop :=
  ∃ s h', m h = .ok (s, h') ∧ Untouched h h' ∧ New h s ∧ Held h' s xs

/-- the same for a function with an error result `none` -/
def DeliversOr (m : Mem (Option (Slice t))) (h : Heap) : Option (List t.Val) → Prop
  | .none => ∃ h', m h = .ok (.none, h') ∧ Untouched h h'
  | .some xs => ∃ s h', m h = .ok (some s, h') ∧ Untouched h h' ∧ New h s ∧ Held h' s xs

/-- the same for a function with two results, which do not share cells either -/
def DeliversTwo (m : Mem (Option (Slice t × Slice t))) (h : Heap) : Option (List t.Val × List t.Val) → Prop
  | .none => ∃ h', m h = .ok (.none, h') ∧ Untouched h h'
  | .some xs => ∃ r s h', m h = .ok (some (r, s), h') ∧ Untouched h h' ∧ New h r ∧ New h s ∧ r.arr ≠ s.arr ∧ Held h' r xs.1 ∧ Held h' s xs.2

/-- In memory `h`, `m` returns `b` and writes to no cell of `h`. -/
def Reports {α : Type} (m : Mem α) (h : Heap) (b : α) : Prop := ∃ h', m h = .ok (b, h') ∧ Untouched h h'

/-- Whatever the memory and whatever the slices in use: `m` writes to no cell that existed before, whether it returns, and then `fresh` holds of the
result, or stops. -/
def Isolated {α : Type} (m : Mem α) (fresh : Heap → α → Prop) : Prop :=
  (∀ h a h', m h = .ok (a, h') → Untouched h h' ∧ fresh h a) ∧ ∀ h p h', m h = .error (p, h') → Untouched h h'

end Verif.Go
