import Verif.Spec.Disk

/-! # Specification of what is left of a file after a loss of power

Nothing is flushed to the disk before a file is moved to its final name, so that the name can outlast the contents. -/

set_option autoImplicit false

namespace Verif.Spec.Disk

open Spec.Ethash

/-- all or nothing: the file is as it was, or nothing that could be taken for a cache file -/
def Whole (content left : Bytes) : Prop := left = content ∨ Rejected left

/-- block by block: the end may be missing, and every byte before it is the one that was written or zero -/
def Torn (content left : Bytes) : Prop :=
  left.length ≤ content.length ∧ ∀ (i : Nat) (b : BitVec 8), left[i]? = some b → b = 0 ∨ content[i]? = some b

end Verif.Spec.Disk
