/-! # Specification: the Go memory model (https://go.dev/ref/mem, version of June 6, 2022), as far as needed

An execution is the list of the memory accesses and synchronisation operations of all goroutines in the order in which they happen. Two
accesses of the same location, of which one is a write, have to be ordered by the relation *happens before*, which consists of the program
order of each goroutine and of the orders that the operations of package sync, the go statement and `runtime.SetFinalizer` establish.
This file refers to no model definition. -/

set_option autoImplicit false

namespace Verif.Spec.Mem

/-- the goroutines of the program, and the one of the run time that runs the finalizers -/
inductive Gid where
  | user (n : Nat)
  | finalizer
  deriving DecidableEq

/-- what a goroutine does -/
inductive Event (Loc : Type) where
  /-- reads or writes a location -/
  | access (l : Loc) (write : Bool)
  /-- `Lock` of the mutex returns -/
  | lock
  /-- `Unlock` of the mutex is called -/
  | unlock
  /-- a go statement that starts `child` -/
  | go (child : Nat)
  /-- the function passed to `Do` of the `sync.Once` number `o` returns -/
  | onceEnd (o : Nat)
  /-- another call of `Do` of the `sync.Once` number `o` returns -/
  | onceReturn (o : Nat)
  /-- `runtime.SetFinalizer` of the object `o` -/
  | setFinalizer (o : Nat)
  /-- the finalizer of the object `o` is called -/
  | finalize (o : Nat)

/-- an execution -/
abbrev Trace (Loc : Type) := List (Gid × Event Loc)

/-- the operation at position `p` happens before the one at position `q` -/
inductive HB {Loc : Type} (tr : Trace Loc) : Nat → Nat → Prop
  /-- program order -/
  | program {p q : Nat} {g : Gid} {e e' : Event Loc} : p < q → tr[p]? = some (g, e) → tr[q]? = some (g, e') → HB tr p q
  /-- call n of Unlock is synchronized before call m of Lock returns, for n < m -/
  | mutex {p q : Nat} {g g' : Gid} : p < q → tr[p]? = some (g, .unlock) → tr[q]? = some (g', .lock) → HB tr p q
  /-- the go statement is synchronized before the start of the goroutine's execution -/
  | go {p q : Nat} {g : Gid} {c : Nat} {e : Event Loc} : p < q → tr[p]? = some (g, .go c) → tr[q]? = some (.user c, e) → HB tr p q
  /-- the completion of f() from Do(f) is synchronized before the return of any call of Do(f) -/
  | once {p q : Nat} {g g' : Gid} {o : Nat} : p < q → tr[p]? = some (g, .onceEnd o) → tr[q]? = some (g', .onceReturn o) → HB tr p q
  /-- a call to SetFinalizer(x, f) is synchronized before the finalization call f(x) -/
  | finalizer {p q : Nat} {g g' : Gid} {o : Nat} : p < q → tr[p]? = some (g, .setFinalizer o) → tr[q]? = some (g', .finalize o) → HB tr p q
  | trans {p q r : Nat} : HB tr p q → HB tr q r → HB tr p r

/-- two accesses of one location, of which one is a write, by the goroutines `g` and `g'` -/
def Conflict {Loc : Type} (tr : Trace Loc) (p q : Nat) (g g' : Gid) : Prop :=
  ∃ l w w', tr[p]? = some (g, .access l w) ∧ tr[q]? = some (g', .access l w') ∧ (w = true ∨ w' = true)

/-- no data races -/
def RaceFree {Loc : Type} (tr : Trace Loc) : Prop := ∀ p q g g', p < q → Conflict tr p q g g' → HB tr p q

end Verif.Spec.Mem
