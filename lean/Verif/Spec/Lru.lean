/-! # Least recently used -/

set_option autoImplicit false

namespace Verif.Spec.Lru

variable {α : Type} [DecidableEq α]

/-- the keys requested so far, each once, the most recently requested first; `h` is the history, newest first -/
def recent : List α → List α
  | [] => []
  | e :: h => e :: (recent h).filter (· ≠ e)

/-- the keys that a least-recently-used cache with `k` places holds -/
def resident (k : Nat) (h : List α) : List α := (recent h).take k

/-- the time of the last request of a key; `h` is the history with times, newest first -/
def lastUse : List (α × Nat) → α → Option Nat
  | [], _ => none
  | (e, t) :: h, a => if a = e then some t else lastUse h a

end Verif.Spec.Lru
