import Verif.Model.Mutex
import Verif.Spec.MemoryModel

/-! # The memory accesses of `GetCache`, the generators, `Compute` and the finalizers

The steps are those of Model/Mutex.lean, with the accesses and synchronisation operations of each statement; `fill` and `read` are the
accesses of the body of `once.Do` and of `Compute` after `GetCache`, `setFinalizer` and `finalize` those of cache.go:67 and 116-128. The
configuration is never written. The fields of the DAG are written in `New` before anybody calls it. Each call of `GetCache` with the use of
its cache is a goroutine of its own: the order of calls that one goroutine makes only adds to *happens before*. -/

set_option autoImplicit false

namespace Verif.Race

open Go Dag Spec.Mem
open Manager (Mgr Thread Once evictStep delete put takeCache preGenerate)
open Mutex (Holder Phase)

/-- the shared locations -/
inductive Loc where
  /-- `dag.caches` and the entries of the map -/
  | map
  /-- `dag.future` -/
  | future
  /-- the field `epoch` of a cache -/
  | epoch (i : Nat)
  /-- the field `used` of a cache -/
  | used (i : Nat)
  /-- the fields `cache` and `l1` of a cache and what they refer to -/
  | data (i : Nat)
  deriving DecidableEq

/-- an access: the location, and whether it is a write -/
abbrev Acc := Loc × Bool

/-- read -/
def rd (l : Loc) : Acc := (l, false)
/-- write -/
def wr (l : Loc) : Acc := (l, true)

/-- the state of the process, the calls of `Compute` that have returned, and what has been done so far -/
structure State where
  proc : Mutex.State
  returned : List Nat
  trace : Trace Loc

/-- a fresh process -/
def init : State := ⟨Mutex.init, [], []⟩

/-- accesses of a goroutine -/
def accs (g : Nat) (as : List Acc) : Trace Loc := as.map fun a => (.user g, .access a.1 a.2)

/-- the goroutine does `as`, and the process comes to state `p` -/
def State.does (s : State) (g : Nat) (as : List Acc) (p : Mutex.State) : State := { s with proc := p, trace := s.trace ++ accs g as }

/-- the goroutine does the operation `e`, and the process comes to state `p` -/
def State.syncs (s : State) (g : Nat) (e : Event Loc) (p : Mutex.State) : State := { s with proc := p, trace := s.trace ++ [(.user g, e)] }

/-- `&cache{epoch: …}` writes all fields of a new object -/
def created (i : Nat) : List Acc := [wr (.epoch i), wr (.used i), wr (.data i)]

/-- dag.go:138, one iteration -/
def scanAcc (best : Option Nat) (x : U64 × Nat) : List Acc :=
  match best with
  | none => [rd .map]
  | some v => [rd .map, rd (.used v), rd (.used x.2)]

/-- dag.go:145 and 153: `dag.future != nil && dag.future.epoch …` -/
def futureAcc (m : Mgr) : List Acc :=
  match m.future with
  | none => [rd .future]
  | some f => [rd .future, rd .future, rd (.epoch f)]

/-- dag.go:145-149 -/
def takeAcc (e : U64) (m : Mgr) : List Acc :=
  futureAcc m ++
    match m.future with
    | some f => if (m.heap f).epoch = e then [rd .future, wr .future] else created m.fresh
    | none => created m.fresh

/-- what nothing refers to any more: the map, `dag.future`, the goroutines and the calls of `Compute` that have not returned -/
def Unreachable (s : State) (i : Nat) : Prop :=
  (∀ e, (e, i) ∉ s.proc.base.mgr.caches) ∧ s.proc.base.mgr.future ≠ some i ∧ s.proc.holder = none ∧
  (∀ (t : Nat) (r : Option U64), s.proc.base.threads[t]? ≠ some (.waiting r i) ∧ s.proc.base.threads[t]? ≠ some (.filling r i)) ∧
  ∀ (t : Nat) (e : U64), s.proc.base.threads[t]? = some (.ended (some e) i) → t ∈ s.returned

/-- the steps; `fin`: finalizers run (they are set when caches are kept on disk) -/
inductive Step (fin : Prop) (k : Int) (Body : U64 → Go Loaded → Prop) : State → State → Prop
  | call (s : State) (e : U64) : s.proc.base.crashed = false →
      Step fin k Body s { s with proc := { s.proc with base := { s.proc.base with threads := s.proc.base.threads ++ [.locking e] } } }
  /-- dag.go:126 -/
  | lock (s : State) (t : Nat) (e : U64) : s.proc.base.crashed = false → s.proc.base.stuck = false → s.proc.holder = none →
      s.proc.base.threads[t]? = some (.locking e) → Step fin k Body s (s.syncs t .lock { s.proc with holder := some ⟨t, e, .look⟩ })
  /-- dag.go:127-132 -/
  | hit (s : State) (h : Holder) (c : Nat) : s.proc.base.crashed = false → s.proc.holder = some h → h.phase = .look →
      Manager.get s.proc.base.mgr.caches h.epoch = some c →
      Step fin k Body s (s.does h.thread [rd .map, rd .map] (s.proc.at h s.proc.base.mgr (.use c)))
  /-- dag.go:127-134 -/
  | room (s : State) (h : Holder) : s.proc.base.crashed = false → s.proc.holder = some h → h.phase = .look →
      Manager.get s.proc.base.mgr.caches h.epoch = none → ¬ k ≤ s.proc.base.mgr.caches.length →
      Step fin k Body s (s.does h.thread [rd .map, rd .map, rd .map] (s.proc.at h s.proc.base.mgr .take))
  /-- dag.go:127-136 -/
  | full (s : State) (h : Holder) (order : List (U64 × Nat)) : s.proc.base.crashed = false → s.proc.holder = some h → h.phase = .look →
      Manager.get s.proc.base.mgr.caches h.epoch = none → k ≤ s.proc.base.mgr.caches.length → order.Perm s.proc.base.mgr.caches →
      Step fin k Body s (s.does h.thread [rd .map, rd .map, rd .map] (s.proc.at h s.proc.base.mgr (.evict order none)))
  /-- dag.go:137-139 -/
  | scan (s : State) (h : Holder) (x : U64 × Nat) (rest : List (U64 × Nat)) (best : Option Nat) : s.proc.base.crashed = false →
      s.proc.holder = some h → h.phase = .evict (x :: rest) best →
      Step fin k Body s (s.does h.thread (scanAcc best x) (s.proc.at h s.proc.base.mgr (.evict rest (evictStep s.proc.base.mgr.heap best x))))
  /-- dag.go:141 -/
  | drop (s : State) (h : Holder) (v : Nat) : s.proc.base.crashed = false → s.proc.holder = some h → h.phase = .evict [] (some v) →
      Step fin k Body s (s.does h.thread [rd (.epoch v), wr .map]
        (s.proc.at h { s.proc.base.mgr with caches := delete s.proc.base.mgr.caches (s.proc.base.mgr.heap v).epoch } .take))
  /-- dag.go:141 with `evict == nil` -/
  | nilEvict (s : State) (h : Holder) : s.proc.base.crashed = false → s.proc.holder = some h → h.phase = .evict [] none →
      Step fin k Body s (s.does h.thread []
        ⟨{ s.proc.base with stuck := true, threads := s.proc.base.threads.set h.thread (.panicked (some h.epoch)) }, none⟩)
  /-- dag.go:145-149 -/
  | take (s : State) (h : Holder) : s.proc.base.crashed = false → s.proc.holder = some h → h.phase = .take →
      Step fin k Body s (s.does h.thread (takeAcc h.epoch s.proc.base.mgr)
        (s.proc.at h (takeCache h.epoch s.proc.base.mgr).1 (.store (takeCache h.epoch s.proc.base.mgr).2)))
  /-- dag.go:151 -/
  | store (s : State) (h : Holder) (c : Nat) : s.proc.base.crashed = false → s.proc.holder = some h → h.phase = .store c →
      Step fin k Body s (s.does h.thread [wr .map]
        (s.proc.at h { s.proc.base.mgr with caches := put s.proc.base.mgr.caches h.epoch c } (.ahead c)))
  /-- dag.go:153 -/
  | keep (s : State) (h : Holder) (c : Nat) (m : Mgr) : s.proc.base.crashed = false → s.proc.holder = some h → h.phase = .ahead c →
      preGenerate h.epoch s.proc.base.mgr = (m, none) →
      Step fin k Body s (s.does h.thread (futureAcc s.proc.base.mgr) (s.proc.at h m (.use c)))
  /-- dag.go:153-154 -/
  | next (s : State) (h : Holder) (c f : Nat) (m : Mgr) : s.proc.base.crashed = false → s.proc.holder = some h → h.phase = .ahead c →
      preGenerate h.epoch s.proc.base.mgr = (m, some f) →
      Step fin k Body s (s.does h.thread (futureAcc s.proc.base.mgr ++ created f ++ [wr .future]) (s.proc.at h m (.spawn c f)))
  /-- dag.go:155, which reads `dag.future` first -/
  | spawn (s : State) (h : Holder) (c f : Nat) : s.proc.base.crashed = false → s.proc.holder = some h → h.phase = .spawn c f →
      Step fin k Body s ((s.does h.thread [rd .future] s.proc).syncs h.thread (.go s.proc.base.threads.length)
        ⟨{ s.proc.base with threads := s.proc.base.threads ++ [.waiting none f] }, some { h with phase := .use c }⟩)
  /-- dag.go:159 -/
  | use (s : State) (h : Holder) (c now : Nat) : s.proc.base.crashed = false → s.proc.holder = some h → h.phase = .use c →
      s.proc.base.clock ≤ now →
      Step fin k Body s (s.does h.thread [wr (.used c)]
        ⟨{ s.proc.base with mgr := s.proc.base.mgr.use c now, clock := now, hist := (h.epoch, now) :: s.proc.base.hist },
          some { h with phase := .unlock c }⟩)
  /-- dag.go:160 -/
  | unlock (s : State) (h : Holder) (c : Nat) : s.proc.base.crashed = false → s.proc.holder = some h → h.phase = .unlock c →
      Step fin k Body s (s.syncs h.thread .unlock
        ⟨{ s.proc.base with threads := s.proc.base.threads.set h.thread (.waiting (some h.epoch) c) }, none⟩)
  /-- cache.go:43: the first to call `once.Do` -/
  | start (s : State) (t : Nat) (role : Option U64) (i : Nat) :
      s.proc.base.crashed = false → s.proc.base.threads[t]? = some (.waiting role i) → (s.proc.base.mgr.heap i).once = .idle →
      Step fin k Body s (s.does t [] { s.proc with base := { s.proc.base with
        mgr := s.proc.base.mgr.setOnce i .running, threads := s.proc.base.threads.set t (.filling role i),
        started := i :: s.proc.base.started } })
  /-- cache.go:67 -/
  | setFinalizer (s : State) (t : Nat) (role : Option U64) (i : Nat) : fin → s.proc.base.crashed = false →
      s.proc.base.threads[t]? = some (.filling role i) → Step fin k Body s (s.syncs t (.setFinalizer i) s.proc)
  /-- cache.go:44-111: an access of the body -/
  | fill (s : State) (t : Nat) (role : Option U64) (i : Nat) (a : Acc) : s.proc.base.crashed = false →
      s.proc.base.threads[t]? = some (.filling role i) → a ∈ [rd (.epoch i), rd (.data i), wr (.data i)] →
      Step fin k Body s (s.does t [a] s.proc)
  /-- the body ends -/
  | finish (s : State) (t : Nat) (role : Option U64) (i : Nat) (r : Loaded) :
      s.proc.base.crashed = false → s.proc.base.threads[t]? = some (.filling role i) → Body (s.proc.base.mgr.heap i).epoch (.ok r) →
      Step fin k Body s (s.syncs t (.onceEnd i) { s.proc with base := { s.proc.base with
        mgr := s.proc.base.mgr.setOnce i (.done (some r)), threads := s.proc.base.threads.set t (.ended role i) } })
  /-- the body panics, which `sync.Once` takes for its end -/
  | finishPanic (s : State) (t : Nat) (role : Option U64) (i : Nat) (p : Stop) :
      s.proc.base.crashed = false → s.proc.base.threads[t]? = some (.filling role i) → Body (s.proc.base.mgr.heap i).epoch (.error p) →
      Step fin k Body s (s.syncs t (.onceEnd i) { s.proc with base := { s.proc.base with
        mgr := s.proc.base.mgr.setOnce i (.done none), threads := s.proc.base.threads.set t (.panicked role),
        crashed := role.isNone } })
  /-- `once.Do` after the body has ended -/
  | skip (s : State) (t : Nat) (role : Option U64) (i : Nat) (r : Option Loaded) :
      s.proc.base.crashed = false → s.proc.base.threads[t]? = some (.waiting role i) → (s.proc.base.mgr.heap i).once = .done r →
      Step fin k Body s (s.syncs t (.onceReturn i) { s.proc with base := { s.proc.base with threads := s.proc.base.threads.set t (.ended role i) } })
  /-- `Compute` reads its cache (cache.go:34-40) -/
  | read (s : State) (t : Nat) (e : U64) (i : Nat) : s.proc.base.crashed = false → s.proc.base.threads[t]? = some (.ended (some e) i) →
      t ∉ s.returned → Step fin k Body s (s.does t [rd (.data i)] s.proc)
  /-- `Compute` returns -/
  | ret (s : State) (t : Nat) (e : U64) (i : Nat) : s.proc.base.crashed = false → s.proc.base.threads[t]? = some (.ended (some e) i) →
      Step fin k Body s { s with returned := t :: s.returned }
  /-- cache.go:116-128: the finalizer of a cache that nothing refers to -/
  | finalize (s : State) (i t : Nat) : fin → s.proc.base.crashed = false → (.user t, .setFinalizer i) ∈ s.trace →
      (.finalizer, .finalize i) ∉ s.trace → Unreachable s i →
      Step fin k Body s { s with trace := s.trace ++
        [(.finalizer, .finalize i), (.finalizer, .access (.data i) false), (.finalizer, .access (.data i) true)] }

/-- the states of all executions -/
inductive Reach (fin : Prop) (k : Int) (Body : U64 → Go Loaded → Prop) : State → Prop
  | init : Reach fin k Body init
  | step {s s' : State} : Reach fin k Body s → Step fin k Body s s' → Reach fin k Body s'

end Verif.Race
