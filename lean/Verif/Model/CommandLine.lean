import Verif.Go.Flag
import Verif.Model.GenLookup

/-! # Model of the command line of /repo/cmd/gen-lookup/main.go

The calls of the package `flag` in `main`; that package itself is in `Go/Flag.lean`. -/

set_option autoImplicit false

namespace Verif.GenLookup

open Go Flag

/-- `Set` of a flag made by `flag.Uint64Var` -/
def setUint64 (f : U64 → Flags → Flags) (v : List Char) (x : Flags) : Option Flags := (parseUint v).map fun n => f (BitVec.ofNat 64 n) x

/-- main.go:101-107: the flags that are defined, and what setting them does -/
def formal (name : List Char) : Option (List Char → Flags → Option Flags) :=
  if name = "package".toList then some fun v x => some { x with package := v }
  else if name = "epochs".toList then some fun v x => (parseInt v).map fun n => { x with epochs := n }
  else if name = "mixBytes".toList then some (setUint64 fun n x => { x with mixBytes := n })
  else if name = "cacheInit".toList then some (setUint64 fun n x => { x with cacheInitBytes := n })
  else if name = "cacheGrowth".toList then some (setUint64 fun n x => { x with cacheGrowthBytes := n })
  else if name = "datasetInit".toList then some (setUint64 fun n x => { x with datasetInitBytes := n })
  else if name = "datasetGrowth".toList then some (setUint64 fun n x => { x with datasetGrowthBytes := n })
  else none

/-- how the program ends, if it does not panic: with a file written, or with an exit code -/
inductive Outcome where
  | wrote (path text : List Char)
  | exits (code : Nat)
deriving DecidableEq

/-- main.go:96-126 for the arguments of the command line (without the name of the program): `flag.Parse` in line 108, and the rest. What
`flag.Parse` leaves is not looked at. `log.Fatalf` exits with 1. -/
def program (fuel : Nat) (args : List (List Char)) (wd : Option (List Char)) (writes : Bool) : Go Outcome :=
  match parse formal args {} with
  | .exit code => .ok (.exits code)
  | .ok f _ => do
    match ← main fuel f wd writes with
    | none => return .exits 1
    | some (path, text) => return .wrote path text

end Verif.GenLookup
