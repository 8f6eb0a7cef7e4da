import Verif.Model.Manager

/-! # Model of the finalizer of a cache (/repo/internal/dag/cache.go:65-67 and 115-128)

The finalizer unmaps the files of a cache when the collector finds that nothing refers to the cache any more; a slice of the mapping does
not count, because the mapping is not memory of the collector. A call of `Compute` (ethash/client.go:82-96 and its likes) reads the
mapping after `GetCache` has returned, and refers to the cache until its last look-up has begun, by the closure of `NewLookupFunc…`
(dag.go:171-196), or until `runtime.KeepAlive(cache)`. The collector may run at any time. A cache in memory has no finalizer, so that here
more is collected than in the program. -/

set_option autoImplicit false

namespace Verif.Finalizer

open Go Dag Manager

/-- a call of `Compute` -/
inductive Client where
  /-- in `GetCache`, which is the goroutine `t` of the manager -/
  | getting (t : Nat)
  /-- reads the cache `i`, with `n` look-ups to come after the present one -/
  | reading (i n : Nat)
  | done

/-- `unmapped`: the caches whose finalizers ran; `fault`: somebody read from an unmapped cache -/
structure System where
  proc : State
  clients : List Client
  unmapped : Nat → Prop
  fault : Prop

/-- the goroutine refers to the cache -/
def Refers : Thread → Nat → Prop
  | .waiting _ i, j => i = j
  | .filling _ i, j => i = j
  | _, _ => False

/-- the manager, a goroutine in `GetCache` or a generator refers to the cache -/
def Referred (s : State) (i : Nat) : Prop :=
  (∃ e, (e, i) ∈ s.mgr.caches) ∨ s.mgr.future = some i ∨ ∃ th ∈ s.threads, Refers th i

/-- the call of `Compute` refers to the cache; `keep`: the call of `runtime.KeepAlive` is there -/
def Holds (keep : Prop) (s : State) : Client → Nat → Prop
  | .getting t, i => ∃ e, s.threads[t]? = some (.ended (some e) i)
  | .reading j n, i => j = i ∧ (keep ∨ 0 < n)
  | .done, _ => False

/-- something refers to the cache -/
def Live (keep : Prop) (s : System) (i : Nat) : Prop := Referred s.proc i ∨ ∃ c ∈ s.clients, Holds keep s.proc c i

/-- the steps of a process; `k` and `Body` are the parameters of the manager, `keep` is as above -/
inductive Step (keep : Prop) (k : Int) (Body : U64 → Go Loaded → Prop) : System → System → Prop
  /-- a step of the manager -/
  | manager (s : System) (proc : State) : Manager.Step k Body s.proc proc → Step keep k Body s { s with proc := proc }
  /-- somebody calls `Compute` for a height of the epoch `e` -/
  | compute (s : System) (e : U64) : s.proc.crashed = false →
      Step keep k Body s { s with
        proc := { s.proc with threads := s.proc.threads ++ [.locking e] }, clients := s.clients ++ [.getting s.proc.threads.length] }
  /-- `GetCache` has returned -/
  | take (s : System) (u t : Nat) (e : U64) (i n : Nat) : s.clients[u]? = some (.getting t) →
      s.proc.threads[t]? = some (.ended (some e) i) → Step keep k Body s { s with clients := s.clients.set u (.reading i n) }
  /-- memory of the cache is read -/
  | access (s : System) (u i n : Nat) : s.clients[u]? = some (.reading i n) →
      Step keep k Body s { s with fault := s.fault ∨ s.unmapped i }
  /-- the next look-up begins -/
  | lookup (s : System) (u i n : Nat) : s.clients[u]? = some (.reading i (n + 1)) →
      Step keep k Body s { s with clients := s.clients.set u (.reading i n) }
  /-- `Compute` returns -/
  | finish (s : System) (u i : Nat) : s.clients[u]? = some (.reading i 0) → Step keep k Body s { s with clients := s.clients.set u .done }
  /-- the collector runs the finalizer of a cache that nothing refers to -/
  | finalize (s : System) (i : Nat) : i < s.proc.mgr.fresh → ¬ Live keep s i →
      Step keep k Body s { s with unmapped := fun j => j = i ∨ s.unmapped j }

/-- the states of all executions -/
inductive Reach (keep : Prop) (k : Int) (Body : U64 → Go Loaded → Prop) : System → Prop
  | init : Reach keep k Body ⟨Manager.init, [], fun _ => False, False⟩
  | step {s s' : System} : Reach keep k Body s → Step keep k Body s s' → Reach keep k Body s'

end Verif.Finalizer
