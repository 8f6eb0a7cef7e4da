/-! # Specification: descriptors and mappings held by a process -/

set_option autoImplicit false

namespace Verif.Spec.Handles

/-- what happens to the file with number `f` -/
inductive Event
  | opened (f : Nat)
  /-- something that needs a descriptor -/
  | use (f : Nat)
  | closed (f : Nat)
  | mapped (f : Nat)
  /-- something that needs a mapping: reading or writing through it, or locking it in memory -/
  | access (f : Nat)
  | unmapped (f : Nat)
  /-- `Unmap` reported an error; the mapping stays -/
  | stuck (f : Nat)

/-- per file: open descriptors, mappings, and how often `Unmap` failed -/
structure Held where
  opens : Nat → Nat
  maps : Nat → Nat
  stuck : Nat → Nat

def nothing : Held := ⟨fun _ => 0, fun _ => 0, fun _ => 0⟩

/-- one more for `f` -/
def inc (n : Nat → Nat) (f : Nat) : Nat → Nat := fun g => if g = f then n g + 1 else n g

/-- one less for `f` -/
def dec (n : Nat → Nat) (f : Nat) : Nat → Nat := fun g => if g = f then n g - 1 else n g

/-- `none` if the event is a mistake: use of a file that is not open, closing it once more, access to memory that is not mapped, unmapping it
once more -/
def after (h : Held) : Event → Option Held
  | .opened f => some { h with opens := inc h.opens f }
  | .use f => if h.opens f = 0 then none else some h
  | .closed f => if h.opens f = 0 then none else some { h with opens := dec h.opens f }
  | .mapped f => if h.opens f = 0 then none else some { h with maps := inc h.maps f }
  | .access f => if h.maps f = 0 then none else some h
  | .unmapped f => if h.maps f = 0 then none else some { h with maps := dec h.maps f }
  | .stuck f => if h.maps f = 0 then none else some { h with stuck := inc h.stuck f }

/-- after a series of events -/
def run (h : Held) : List Event → Option Held
  | [] => some h
  | e :: es => (after h e).bind fun h => run h es

end Verif.Spec.Handles
