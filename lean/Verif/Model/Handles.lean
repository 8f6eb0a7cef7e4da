import Verif.Model.Files
import Verif.Spec.Handles

/-! # Model of the descriptors and mappings of a process (/repo/internal/dag/cache.go, /repo/internal/dag/mmap.go)

The programs are those of `Model/Files.lean`. Here every call may have any result, whatever the directory holds: this covers the runs of
`Model/Files.lean`, in which the results come from a directory that other processes change.

* `Close` releases the descriptor, also when it reports an error (as on Linux; `os.File` does not try again).
* `Unmap` that reports an error leaves the mapping.
* `os.File` has a finalizer of its own, which closes a file that is no longer referenced. It is left out: the descriptors counted here are those
  that the package itself has not closed. -/

set_option autoImplicit false

namespace Verif.Files

open Go Dag Spec.Handles

/-- what a call with its result means for descriptors and mappings -/
def event : (c : Call) → c.Reply → List Event
  | .create _, (some f : Option Nat) => [.opened f]
  | .open _, (some f : Option Nat) => [.opened f]
  | .truncate f _, _ => [.use f]
  | .map f, (true : Bool) => [.mapped f]
  | .map f, (false : Bool) => [.use f]
  | .read f, _ => [.access f]
  | .store f _ _, _ => [.access f]
  | .lock f, _ => [.access f]
  | .unmap f, (true : Bool) => [.unmapped f]
  | .unmap f, (false : Bool) => [.stuck f]
  | .close f, _ => [.closed f]
  | _, _ => []

/-- the events of a program up to some point, and its value if it has ended with one -/
inductive Trace {α : Type} : Prog α → List Event → Option α → Prop
  | here (p : Prog α) : Trace p [] none
  | ret (a : α) : Trace (.ret a) [] (some a)
  | call (c : Call) (k : c.Reply → Prog α) (r : c.Reply) (es : List Event) (a : Option α) : Trace (k r) es a → Trace (.call c k) (event c r ++ es) a

/-- one of the two halves of cache.go:116-126: `mmap` is not nil exactly for a mapped file -/
def release : Buffer → Prog Unit
  | .mem _ => .ret ()
  | .file f => do
    let _ ← unmap f
    let _ ← close f
    .ret ()

/-- cache.go:115-127 `finalizer` -/
def finalizer (b : Buffers) : Prog Unit := do
  release b.cache
  release b.l1

/-- reading a mapped buffer, as the lookups of `Compute` do -/
def touch : Buffer → Prog Unit
  | .mem _ => .ret ()
  | .file f => do
    let _ ← read f
    .ret ()

/-- reads of the two buffers, in this order: `true` is the cache -/
def touches (b : Buffers) : List Bool → Prog Unit
  | [] => .ret ()
  | x :: xs => do
    touch (if x then b.cache else b.l1)
    touches b xs

/-- the life of a cache: generated, read any number of times, and finalized -/
def life (P : Prims) (fuel : Nat) (d : Config) (epoch : U64) (reads : List Bool) : Prog Unit := do
  let b ← generate P fuel d epoch
  touches b reads
  finalizer b

/-- how many of the buffers are mappings of the file `f` -/
def holds (b : Buffers) (f : Nat) : Nat :=
  (match b.cache with | .file g => if f = g then 1 else 0 | .mem _ => 0) + (match b.l1 with | .file g => if f = g then 1 else 0 | .mem _ => 0)

end Verif.Files
