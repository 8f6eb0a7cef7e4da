import Verif.Model.InMem.Clients
import Verif.Model.InMem.Generate
import Verif.Model.Manager

/-! # A process with memory: the cache manager, `Compute`, and the program that calls them

`Verif.Model.Manager` has the goroutines of /repo/internal/dag/dag.go:123-165 with the contents of a cache as lists. Here the bodies of `once.Do`
(cache.go:42-60) and the calls of `Compute` ({ethash,kawpow,firopow,octopus}/client.go) run in one heap together with the
program that imports the package, which may overwrite its own memory at any time. A body of `once.Do` and the part of `Compute` after `GetCache` are one
step each: C85 shows that they write to memory of their own only, and Props/Race.lean that what they read is not written meanwhile. With a `StorageDir`
the body gives mapped files, or memory when this fails; their contents are the parameter `Body`, as in `Verif.Model.Manager`, and are in memory that the
process did not have before (mmap, or the generator as without a directory). -/

set_option autoImplicit false

namespace Verif.Process

open Go Dag

/-- the elements of a slice -/
def peek {t : Ty} (h : Heap) (s : Slice t) : List t.Val := (((h.store t)[s.arr]?.getD []).drop s.off).take s.len

/-- the slice lies in an array of the heap -/
def Inside {t : Ty} (h : Heap) (s : Slice t) : Prop := ∃ a, (h.store t)[s.arr]? = some a ∧ s.len ≤ s.cap ∧ s.off + s.cap ≤ a.length

/-- The process, the slices `cache.Cache()` and `cache.L1()` (dag/cache.go:26-40) of each cache, and the memory. `theirs` are the arrays that the
program outside of the package may write: there is a reference to them there. -/
structure World where
  proc : Manager.State
  data : Nat → Slice .word × Slice .word
  mem : Heap
  theirs : Ty → Nat → Prop

/-- A process that starts: all memory is the program's. -/
def World.Fresh (w : World) : Prop := w.proc = Manager.init ∧ ∀ t i, w.theirs t i ↔ i < (w.mem.store t).length

/-- The program outside of the package has worked: it may have overwritten its arrays, and allocated. This includes the calls of functions of the package
that are not listed below, by C85. -/
structure Works (theirs : Ty → Nat → Prop) (h h' : Heap) : Prop where
  kept : ∀ (t : Ty) (i : Nat) (a : List t.Val), (h.store t)[i]? = some a →
    ∃ a', (h'.store t)[i]? = some a' ∧ a'.length = a.length ∧ (¬ theirs t i → a' = a)

/-- the clients with a cache -/
inductive Algo where
  | ethash | kawpow | firopow | octopus

/-- `Compute` of a client: the slices that it returns -/
def Algo.compute (P : Prims) (fuel : Nat) (d : Config) (getCache : Clients.InMem.GetCache) (hash : Slice .byte) (height nonce : U64) :
    Algo → Mem (List (Slice .byte))
  | .ethash => do
    let o ← Clients.InMem.ethash P fuel d getCache hash height nonce
    pure (match o with | none => [] | some (a, b) => [a, b])
  | .kawpow => do
    let o ← Clients.InMem.kawpow P fuel d getCache hash height nonce
    pure (match o with | none => [] | some (a, b) => [a, b])
  | .firopow => do
    let o ← Clients.InMem.firopow P fuel d getCache hash height nonce
    pure (match o with | none => [] | some (a, b) => [a, b])
  | .octopus => do
    let o ← Clients.InMem.octopus P fuel d getCache hash height nonce
    pure (match o with | none => [] | some a => [a])

/-- Steps of a process whose configuration is `d`. -/
inductive Step (P : Prims) (fuel : Nat) (d : Config) (Body : U64 → Go Loaded → Prop) : World → World → Prop
  /-- the steps of the manager (dag.go:123-165) without the bodies of `once.Do` -/
  | manager (w : World) (s : Manager.State) : Manager.Step d.cachesCount (fun _ _ => False) w.proc s → Step P fuel d Body w { w with proc := s }
  /-- the body of `once.Do` has generated a cache (cache.go:49-60) -/
  | generated (w : World) (t : Nat) (role : Option U64) (i : Nat) (p : Slice .word × Slice .word) (h : Heap) :
      w.proc.crashed = false → w.proc.threads[t]? = some (.filling role i) → d.storageDir = "" →
      Dag.InMem.generate P fuel d (w.proc.mgr.heap i).epoch w.mem = .ok (p, h) →
      Step P fuel d Body w { w with
        proc := { w.proc with
          mgr := w.proc.mgr.setOnce i (.done (some ⟨peek h p.1, peek h p.2⟩)), threads := w.proc.threads.set t (.ended role i) },
        data := Function.update w.data i p, mem := h }
  /-- it has panicked; what it has allocated stays -/
  | failed (w : World) (t : Nat) (role : Option U64) (i : Nat) (p : Stop) (h : Heap) :
      w.proc.crashed = false → w.proc.threads[t]? = some (.filling role i) → d.storageDir = "" →
      Dag.InMem.generate P fuel d (w.proc.mgr.heap i).epoch w.mem = .error (p, h) →
      Step P fuel d Body w { w with
        proc := { w.proc with
          mgr := w.proc.mgr.setOnce i (.done none), threads := w.proc.threads.set t (.panicked role), crashed := role.isNone },
        mem := h }
  /-- the body has loaded files into new memory, or generated there (cache.go:62-103) -/
  | loaded (w : World) (t : Nat) (role : Option U64) (i : Nat) (r : Loaded) (p : Slice .word × Slice .word) (h : Heap) :
      w.proc.crashed = false → w.proc.threads[t]? = some (.filling role i) → d.storageDir ≠ "" → Body (w.proc.mgr.heap i).epoch (.ok r) →
      (∀ (u : Ty) (j : Nat) (a : List u.Val), (w.mem.store u)[j]? = some a → (h.store u)[j]? = some a) →
      (w.mem.store .word).length ≤ p.1.arr → (w.mem.store .word).length ≤ p.2.arr ∨ p.2 = Dag.InMem.nilWords →
      Inside h p.1 → Inside h p.2 → peek h p.1 = r.cache → peek h p.2 = r.l1 →
      Step P fuel d Body w { w with
        proc := { w.proc with mgr := w.proc.mgr.setOnce i (.done (some r)), threads := w.proc.threads.set t (.ended role i) },
        data := Function.update w.data i p, mem := h }
  /-- it has panicked -/
  | broken (w : World) (t : Nat) (role : Option U64) (i : Nat) (p : Stop) (h : Heap) :
      w.proc.crashed = false → w.proc.threads[t]? = some (.filling role i) → d.storageDir ≠ "" → Body (w.proc.mgr.heap i).epoch (.error p) →
      (∀ (u : Ty) (j : Nat) (a : List u.Val), (w.mem.store u)[j]? = some a → (h.store u)[j]? = some a) →
      Step P fuel d Body w { w with
        proc := { w.proc with
          mgr := w.proc.mgr.setOnce i (.done none), threads := w.proc.threads.set t (.panicked role), crashed := role.isNone },
        mem := h }
  /-- `Compute` returns to a caller, after `GetCache` has returned the cache `i`: the caller has the results, and whatever else is new -/
  | compute (w : World) (t : Nat) (e : U64) (i : Nat) (a : Algo) (hash : Slice .byte) (height nonce : U64) (out : List (Slice .byte)) (h : Heap) :
      w.proc.crashed = false → w.proc.threads[t]? = some (.ended (some e) i) → calcEpoch d height = .ok e →
      a.compute P fuel d (fun _ => pure (w.data i)) hash height nonce w.mem = .ok (out, h) →
      Step P fuel d Body w { w with
        mem := h,
        theirs := fun u j => w.theirs u j ∨ ((w.mem.store u).length ≤ j ∧ j < (h.store u).length) ∨ (u = .byte ∧ ∃ s ∈ out, s.arr = j) }
  /-- `Compute` panics, and the caller recovers -/
  | aborted (w : World) (t : Nat) (e : U64) (i : Nat) (a : Algo) (hash : Slice .byte) (height nonce : U64) (p : Stop) (h : Heap) :
      w.proc.crashed = false → w.proc.threads[t]? = some (.ended (some e) i) → calcEpoch d height = .ok e →
      a.compute P fuel d (fun _ => pure (w.data i)) hash height nonce w.mem = .error (p, h) → Step P fuel d Body w { w with mem := h }
  /-- the program has worked -/
  | works (w : World) (h : Heap) : w.proc.crashed = false → Works w.theirs w.mem h →
      Step P fuel d Body w { w with
        mem := h, theirs := fun u j => w.theirs u j ∨ ((w.mem.store u).length ≤ j ∧ j < (h.store u).length) }

/-- the worlds of all executions -/
inductive Reach (P : Prims) (fuel : Nat) (d : Config) (Body : U64 → Go Loaded → Prop) : World → Prop
  | init (w : World) : w.Fresh → Reach P fuel d Body w
  | step {w w' : World} : Reach P fuel d Body w → Step P fuel d Body w w' → Reach P fuel d Body w'

end Verif.Process
