import Verif.Go.Basic

/-! # The row-halving loop shared by equihash.verify and beamhashiii.verify

Both functions contain the same loop (equihash.go:217-230, beamhashiii.go: the `for len(rows) > 1` loop of `verify`):
rows are combined in pairs until one is left, and the function returns on the first error. -/

set_option autoImplicit false

namespace Verif.Pairing

open Go

variable {N E : Type}

/-- one iteration of the inner loop (`i = 2 t`): combine `rows[i]` and `rows[i+1]` and append the result -/
def pairStep (pair : N → N → Go (Except E N)) (rows : List N) (t : Nat) (cur : List N) : Go (Step (List N) E) := do
  let a ← idx rows (2 * t)
  let b ← idx rows (2 * t + 1)
  match ← pair a b with
  | .error e => pure (.ret e)
  | .ok c => pure (.cont (cur ++ [c]))

/-- `for i := 0; i < len(rows); i += 2 { … }` -/
def pairLoop (pair : N → N → Go (Except E N)) (rows : List N) : Go (Step (List N) E) :=
  forRangeE 0 ((rows.length + 1) / 2) [] (pairStep pair rows)

/-- one iteration of `for len(rows) > 1 { … }`; the state is the round number and the rows -/
def roundStep (pair : Nat → N → N → Go (Except E N)) (s : Nat × List N) : Go (Step (Nat × List N) (Except E (List N))) :=
  if 1 < s.2.length then do
    match ← pairLoop (pair s.1) s.2 with
    | .ret e => pure (.ret (.error e))
    | .cont rows' => pure (.cont (s.1 + 1, rows'))
  else pure (.ret (.ok s.2))

/-- the whole loop -/
def rounds (pair : Nat → N → N → Go (Except E N)) (fuel : Nat) (start : Nat) (rows : List N) : Go (Except E (List N)) :=
  forever fuel (start, rows) (roundStep pair)

end Verif.Pairing
