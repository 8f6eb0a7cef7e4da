import Verif.Model.Disk

/-! # Model of `GetCache` (/repo/internal/dag/dag.go:123-165) and of the goroutines around it

Pointers are natural numbers below `fresh`; Go pointers to allocated objects are always valid, so that only nil needs a check. The mutex
makes the section between `Lock` and `Unlock` (dag.go:126-160) one step; it is left locked when the section panics. `sync.Once` is its
documented behaviour: the first caller runs the body, the others wait for its end, and a panic of the body counts as its end. The clock
(`time.Now`, which contains a monotonic reading) does not run backwards. What the body gives for an epoch is the parameter `Body`.
The finalizers (cache.go:116-128) are in Model/Finalizer.lean. -/

set_option autoImplicit false

namespace Verif.Manager

open Go Dag

/-- `sync.Once` together with the contents; they are `none` when the body panicked -/
inductive Once where
  | idle
  | running
  | done (r : Option Loaded)

/-- cache.go:26-32 -/
structure Cache where
  epoch : U64
  used : Nat
  once : Once

/-- dag.go:29-34, without the configuration and the mutex. The map is a list of entries, a nil map is an empty one. -/
structure Mgr where
  heap : Nat → Cache
  fresh : Nat
  caches : List (U64 × Nat)
  future : Option Nat

/-- dag.go:36-43 -/
def new : Mgr := ⟨fun _ => ⟨0, 0, .idle⟩, 0, [], none⟩

/-- `m[e]` -/
def get (caches : List (U64 × Nat)) (e : U64) : Option Nat := (caches.find? fun x => x.1 == e).map Prod.snd

/-- `delete(m, e)` -/
def delete (caches : List (U64 × Nat)) (e : U64) : List (U64 × Nat) := caches.filter fun x => x.1 != e

/-- `m[e] = i` -/
def put (caches : List (U64 × Nat)) (e : U64) (i : Nat) : List (U64 × Nat) := (e, i) :: delete caches e

/-- `&cache{epoch: e}` -/
def Mgr.alloc (m : Mgr) (e : U64) : Mgr × Nat :=
  ({ m with heap := Function.update m.heap m.fresh ⟨e, 0, .idle⟩, fresh := m.fresh + 1 }, m.fresh)

/-- dag.go:136-140, one iteration -/
def evictStep (heap : Nat → Cache) (evict : Option Nat) (entry : U64 × Nat) : Option Nat :=
  match evict with
  | none => some entry.2
  | some v => if (heap entry.2).used < (heap v).used then some entry.2 else some v

/-- dag.go:134-142; `order` is the order in which `range` goes through the map -/
def evictOne (cachesCount : Int) (order : List (U64 × Nat)) (m : Mgr) : Go Mgr :=
  if cachesCount ≤ m.caches.length then
    match order.foldl (evictStep m.heap) none with
    | none => .error (.panic .nilDeref)
    | some v => pure { m with caches := delete m.caches (m.heap v).epoch }
  else pure m

/-- dag.go:145-149 -/
def takeCache (epoch : U64) (m : Mgr) : Mgr × Nat :=
  match m.future with
  | some f => if (m.heap f).epoch = epoch then ({ m with future := none }, f) else m.alloc epoch
  | none => m.alloc epoch

/-- dag.go:154-155 -/
def startFuture (epoch : U64) (m : Mgr) : Mgr × Option Nat :=
  ({ (m.alloc (epoch + 1)).1 with future := some (m.alloc (epoch + 1)).2 }, some (m.alloc (epoch + 1)).2)

/-- dag.go:152-156; the second component is the cache for which a goroutine is started -/
def preGenerate (epoch : U64) (m : Mgr) : Mgr × Option Nat :=
  match m.future with
  | some f => if (m.heap f).epoch ≤ epoch then startFuture epoch m else (m, none)
  | none => startFuture epoch m

/-- dag.go:159 -/
def Mgr.use (m : Mgr) (i : Nat) (now : Nat) : Mgr := { m with heap := Function.update m.heap i { m.heap i with used := now } }

/-- dag.go:132-156: the epoch is not registered -/
def register (cachesCount : Int) (order : List (U64 × Nat)) (epoch : U64) (m : Mgr) : Go (Mgr × Nat × Option Nat) := do
  let m ← evictOne cachesCount order m
  let (m, c) := takeCache epoch m
  let m := { m with caches := put m.caches epoch c }
  let (m, spawn) := preGenerate epoch m
  pure (m, c, spawn)

/-- dag.go:127-159, the section under the mutex: the cache, and the one for which a goroutine is started -/
def locked (cachesCount : Int) (order : List (U64 × Nat)) (now : Nat) (epoch : U64) (m : Mgr) : Go (Mgr × Nat × Option Nat) :=
  match get m.caches epoch with
  | some c => pure (m.use c now, c, none)
  | none => do
    let (m, c, spawn) ← register cachesCount order epoch m
    pure (m.use c now, c, spawn)

/-- a goroutine: a call of `GetCache` for an epoch (`some`) or a background generator (`none`) -/
inductive Thread where
  /-- before the mutex (dag.go:126) -/
  | locking (e : U64)
  /-- before `once.Do` (cache.go:43) -/
  | waiting (role : Option U64) (i : Nat)
  /-- in the body of `once.Do` -/
  | filling (role : Option U64) (i : Nat)
  /-- `GetCache` returned the cache, or the generator ended -/
  | ended (role : Option U64) (i : Nat)
  | panicked (role : Option U64)

/-- the process. `stuck`: a goroutine panicked with the mutex locked; `crashed`: a generator panicked, which ends the process. `started`
lists the caches whose bodies were started and `hist` the sections under the mutex with their times, newest first; the program has neither. -/
structure State where
  mgr : Mgr
  clock : Nat
  stuck : Bool
  crashed : Bool
  threads : List Thread
  started : List Nat
  hist : List (U64 × Nat)

/-- a fresh process -/
def init : State := ⟨new, 0, false, false, [], [], []⟩

/-- change of the `sync.Once` of a cache -/
def Mgr.setOnce (m : Mgr) (i : Nat) (o : Once) : Mgr := { m with heap := Function.update m.heap i { m.heap i with once := o } }

/-- the steps of a process with `CachesCount = k`, whose bodies give what `Body` allows -/
inductive Step (k : Int) (Body : U64 → Go Loaded → Prop) : State → State → Prop
  /-- somebody calls `GetCache(e)` -/
  | call (s : State) (e : U64) : s.crashed = false → Step k Body s { s with threads := s.threads ++ [.locking e] }
  /-- the section under the mutex -/
  | lock (s : State) (t : Nat) (e : U64) (order : List (U64 × Nat)) (now : Nat) (m : Mgr) (c : Nat) (spawn : Option Nat) :
      s.crashed = false → s.stuck = false → s.threads[t]? = some (.locking e) → order.Perm s.mgr.caches → s.clock ≤ now →
      locked k order now e s.mgr = .ok (m, c, spawn) →
      Step k Body s { s with
        mgr := m, clock := now, hist := (e, now) :: s.hist,
        threads := s.threads.set t (.waiting (some e) c) ++ (spawn.map fun f => Thread.waiting none f).toList }
  /-- a panic in it -/
  | lockPanic (s : State) (t : Nat) (e : U64) (order : List (U64 × Nat)) (now : Nat) (p : Stop) :
      s.crashed = false → s.stuck = false → s.threads[t]? = some (.locking e) → order.Perm s.mgr.caches → s.clock ≤ now →
      locked k order now e s.mgr = .error p → Step k Body s { s with stuck := true, threads := s.threads.set t (.panicked (some e)) }
  /-- the first to call `once.Do` -/
  | start (s : State) (t : Nat) (role : Option U64) (i : Nat) :
      s.crashed = false → s.threads[t]? = some (.waiting role i) → (s.mgr.heap i).once = .idle →
      Step k Body s { s with mgr := s.mgr.setOnce i .running, threads := s.threads.set t (.filling role i), started := i :: s.started }
  /-- the body ends -/
  | finish (s : State) (t : Nat) (role : Option U64) (i : Nat) (r : Loaded) :
      s.crashed = false → s.threads[t]? = some (.filling role i) → Body (s.mgr.heap i).epoch (.ok r) →
      Step k Body s { s with mgr := s.mgr.setOnce i (.done (some r)), threads := s.threads.set t (.ended role i) }
  /-- the body panics -/
  | finishPanic (s : State) (t : Nat) (role : Option U64) (i : Nat) (p : Stop) :
      s.crashed = false → s.threads[t]? = some (.filling role i) → Body (s.mgr.heap i).epoch (.error p) →
      Step k Body s { s with
        mgr := s.mgr.setOnce i (.done none), threads := s.threads.set t (.panicked role), crashed := role.isNone }
  /-- `once.Do` after the body has ended -/
  | skip (s : State) (t : Nat) (role : Option U64) (i : Nat) (r : Option Loaded) :
      s.crashed = false → s.threads[t]? = some (.waiting role i) → (s.mgr.heap i).once = .done r →
      Step k Body s { s with threads := s.threads.set t (.ended role i) }

/-- the states of all executions -/
inductive Reach (k : Int) (Body : U64 → Go Loaded → Prop) : State → Prop
  | init : Reach k Body init
  | step {s s' : State} : Reach k Body s → Step k Body s s' → Reach k Body s'

end Verif.Manager
