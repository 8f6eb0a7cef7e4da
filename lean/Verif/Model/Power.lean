import Verif.Model.Files
import Verif.Spec.Power

/-! # Losses of power: /repo/internal/dag/mmap.go:118-164

The machine stops: all processes are gone, and of the directory is left what had reached the disk. `memoryMapAndGenerate` (mmap.go:118-164)
writes through a shared mapping, unmaps, closes and renames (mmap.go:147-161) without a call of `Flush` or `Sync` in between, so that neither
the contents of a file nor their order relative to the renaming is certain. What a file system leaves of the contents is the parameter `lose`.
Renamings and removals that had not reached the disk are undone: a name can again have contents that it had earlier. Temporary files are not
restricted at all. -/

set_option autoImplicit false

namespace Verif.Files

open Go Dag

/-- what the machine finds when it starts again; `past` are the states of the directory so far -/
structure PowerLoss (final : String → Prop) (lose : List Byte → List Byte → Prop) (past : List Disk) (after : Disk) : Prop where
  /-- no file has two names -/
  inj : ∀ q q' f, after.names q = some f → after.names q' = some f → q = q'
  lt : ∀ q f, after.names q = some f → f < after.fresh
  /-- files under final names were there before -/
  left : ∀ q, final q → ∀ c, after.view q = some c → ∃ d ∈ past, ∃ c0, d.view q = some c0 ∧ lose c0 c

/-- the executions of any number of processes on a directory, over any number of losses of power; with all states of the directory -/
inductive Life (P : Prims) (fuel : Nat) (Job : Config → U64 → Prop) (exclusive : Prop) (final : String → Prop)
    (lose : List Byte → List Byte → Prop) (disk : Disk) : List Disk → System → Prop
  | init : Life P fuel Job exclusive final lose disk [disk] ⟨disk, [], []⟩
  | step {past : List Disk} {s s' : System} : Life P fuel Job exclusive final lose disk past s → Step P fuel Job exclusive s s' →
      Life P fuel Job exclusive final lose disk (s'.disk :: past) s'
  | power {past : List Disk} {s : System} {after : Disk} : Life P fuel Job exclusive final lose disk past s →
      PowerLoss final lose past after → Life P fuel Job exclusive final lose disk (after :: past) ⟨after, [], []⟩

end Verif.Files
