import Verif.Model.Manager

/-! # `GetCache` statement by statement (/repo/internal/dag/dag.go:123-165)

Model/Manager.lean takes the section between `Lock` and `Unlock` as one step. Here its statements are steps of their own that change the
shared state in place, and any other goroutine may take steps between them: new calls, calls that wait for the mutex, and the generators,
among them the one that the section itself has started before it ends. Only one goroutine is between `Lock` and `Unlock`. -/

set_option autoImplicit false

namespace Verif.Mutex

open Go Dag
open Manager (Mgr Thread Once evictStep delete put takeCache preGenerate)

/-- the next statement of the goroutine that has the mutex; `c` is the variable of that name -/
inductive Phase where
  /-- dag.go:131-134; the map is never nil (dag.go:39) -/
  | look
  /-- dag.go:136-140: the entries that `range` has still to visit and the variable `evict` -/
  | evict (rest : List (U64 × Nat)) (best : Option Nat)
  /-- dag.go:145-149 -/
  | take
  /-- dag.go:151 -/
  | store (c : Nat)
  /-- dag.go:152-154 -/
  | ahead (c : Nat)
  /-- dag.go:155 -/
  | spawn (c f : Nat)
  /-- dag.go:159 -/
  | use (c : Nat)
  /-- dag.go:160 -/
  | unlock (c : Nat)

/-- the goroutine between `Lock` and `Unlock` -/
structure Holder where
  thread : Nat
  epoch : U64
  phase : Phase

/-- `base` is the state of the process, in which the goroutine that has the mutex is still `locking`; `holder` is the mutex -/
structure State where
  base : Manager.State
  holder : Option Holder

/-- a fresh process -/
def init : State := ⟨Manager.init, none⟩

/-- the state when the goroutine that has the mutex has come to phase `p` and the manager to `m` -/
def State.at (s : State) (h : Holder) (m : Mgr) (p : Phase) : State := ⟨{ s.base with mgr := m }, some { h with phase := p }⟩

/-- the steps of a process with `CachesCount = k`, whose bodies give what `Body` allows -/
inductive Step (k : Int) (Body : U64 → Go Loaded → Prop) : State → State → Prop
  /-- somebody calls `GetCache(e)` -/
  | call (s : State) (e : U64) : s.base.crashed = false →
      Step k Body s { s with base := { s.base with threads := s.base.threads ++ [.locking e] } }
  /-- dag.go:126 -/
  | lock (s : State) (t : Nat) (e : U64) : s.base.crashed = false → s.base.stuck = false → s.holder = none →
      s.base.threads[t]? = some (.locking e) → Step k Body s { s with holder := some ⟨t, e, .look⟩ }
  /-- dag.go:131-132: the epoch is registered -/
  | hit (s : State) (h : Holder) (c : Nat) : s.base.crashed = false → s.holder = some h → h.phase = .look →
      Manager.get s.base.mgr.caches h.epoch = some c → Step k Body s (s.at h s.base.mgr (.use c))
  /-- dag.go:134: there is room -/
  | room (s : State) (h : Holder) : s.base.crashed = false → s.holder = some h → h.phase = .look →
      Manager.get s.base.mgr.caches h.epoch = none → ¬ k ≤ s.base.mgr.caches.length → Step k Body s (s.at h s.base.mgr .take)
  /-- dag.go:135-136: the limit is reached; `order` is the order in which `range` will go through the map -/
  | full (s : State) (h : Holder) (order : List (U64 × Nat)) : s.base.crashed = false → s.holder = some h → h.phase = .look →
      Manager.get s.base.mgr.caches h.epoch = none → k ≤ s.base.mgr.caches.length → order.Perm s.base.mgr.caches →
      Step k Body s (s.at h s.base.mgr (.evict order none))
  /-- dag.go:137-139 -/
  | scan (s : State) (h : Holder) (x : U64 × Nat) (rest : List (U64 × Nat)) (best : Option Nat) : s.base.crashed = false →
      s.holder = some h → h.phase = .evict (x :: rest) best →
      Step k Body s (s.at h s.base.mgr (.evict rest (evictStep s.base.mgr.heap best x)))
  /-- dag.go:141 -/
  | drop (s : State) (h : Holder) (v : Nat) : s.base.crashed = false → s.holder = some h → h.phase = .evict [] (some v) →
      Step k Body s (s.at h { s.base.mgr with caches := delete s.base.mgr.caches (s.base.mgr.heap v).epoch } .take)
  /-- dag.go:141 with `evict == nil`: a panic that leaves the mutex locked -/
  | nilEvict (s : State) (h : Holder) : s.base.crashed = false → s.holder = some h → h.phase = .evict [] none →
      Step k Body s ⟨{ s.base with stuck := true, threads := s.base.threads.set h.thread (.panicked (some h.epoch)) }, none⟩
  /-- dag.go:145-149 -/
  | take (s : State) (h : Holder) : s.base.crashed = false → s.holder = some h → h.phase = .take →
      Step k Body s (s.at h (takeCache h.epoch s.base.mgr).1 (.store (takeCache h.epoch s.base.mgr).2))
  /-- dag.go:151 -/
  | store (s : State) (h : Holder) (c : Nat) : s.base.crashed = false → s.holder = some h → h.phase = .store c →
      Step k Body s (s.at h { s.base.mgr with caches := put s.base.mgr.caches h.epoch c } (.ahead c))
  /-- dag.go:153: there is a cache for a later epoch -/
  | keep (s : State) (h : Holder) (c : Nat) (m : Mgr) : s.base.crashed = false → s.holder = some h → h.phase = .ahead c →
      preGenerate h.epoch s.base.mgr = (m, none) → Step k Body s (s.at h m (.use c))
  /-- dag.go:153-154 -/
  | next (s : State) (h : Holder) (c f : Nat) (m : Mgr) : s.base.crashed = false → s.holder = some h → h.phase = .ahead c →
      preGenerate h.epoch s.base.mgr = (m, some f) → Step k Body s (s.at h m (.spawn c f))
  /-- dag.go:155 -/
  | spawn (s : State) (h : Holder) (c f : Nat) : s.base.crashed = false → s.holder = some h → h.phase = .spawn c f →
      Step k Body s ⟨{ s.base with threads := s.base.threads ++ [.waiting none f] }, some { h with phase := .use c }⟩
  /-- dag.go:159 -/
  | use (s : State) (h : Holder) (c now : Nat) : s.base.crashed = false → s.holder = some h → h.phase = .use c → s.base.clock ≤ now →
      Step k Body s ⟨{ s.base with mgr := s.base.mgr.use c now, clock := now, hist := (h.epoch, now) :: s.base.hist },
        some { h with phase := .unlock c }⟩
  /-- dag.go:160 -/
  | unlock (s : State) (h : Holder) (c : Nat) : s.base.crashed = false → s.holder = some h → h.phase = .unlock c →
      Step k Body s ⟨{ s.base with threads := s.base.threads.set h.thread (.waiting (some h.epoch) c) }, none⟩
  /-- the first to call `once.Do` (cache.go:43) -/
  | start (s : State) (t : Nat) (role : Option U64) (i : Nat) :
      s.base.crashed = false → s.base.threads[t]? = some (.waiting role i) → (s.base.mgr.heap i).once = .idle →
      Step k Body s { s with base := { s.base with
        mgr := s.base.mgr.setOnce i .running, threads := s.base.threads.set t (.filling role i), started := i :: s.base.started } }
  /-- the body ends -/
  | finish (s : State) (t : Nat) (role : Option U64) (i : Nat) (r : Loaded) :
      s.base.crashed = false → s.base.threads[t]? = some (.filling role i) → Body (s.base.mgr.heap i).epoch (.ok r) →
      Step k Body s { s with base := { s.base with
        mgr := s.base.mgr.setOnce i (.done (some r)), threads := s.base.threads.set t (.ended role i) } }
  /-- the body panics -/
  | finishPanic (s : State) (t : Nat) (role : Option U64) (i : Nat) (p : Stop) :
      s.base.crashed = false → s.base.threads[t]? = some (.filling role i) → Body (s.base.mgr.heap i).epoch (.error p) →
      Step k Body s { s with base := { s.base with
        mgr := s.base.mgr.setOnce i (.done none), threads := s.base.threads.set t (.panicked role), crashed := role.isNone } }
  /-- `once.Do` after the body has ended -/
  | skip (s : State) (t : Nat) (role : Option U64) (i : Nat) (r : Option Loaded) :
      s.base.crashed = false → s.base.threads[t]? = some (.waiting role i) → (s.base.mgr.heap i).once = .done r →
      Step k Body s { s with base := { s.base with threads := s.base.threads.set t (.ended role i) } }

/-- the states of all executions -/
inductive Reach (k : Int) (Body : U64 → Go Loaded → Prop) : State → Prop
  | init : Reach k Body init
  | step {s s' : State} : Reach k Body s → Step k Body s s' → Reach k Body s'

end Verif.Mutex
