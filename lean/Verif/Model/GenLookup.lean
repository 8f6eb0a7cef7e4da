import Verif.Model.Dag

/-! # Model of /repo/cmd/gen-lookup/main.go

Text is a list of characters. `Flags` are the values of the flags after `flag.Parse`; the command line is in Model/CommandLine.lean. -/

set_option autoImplicit false

namespace Verif.GenLookup

open Go Dag

/-- main.go:24-26, one iteration -/
def cacheEntry (fuel : Nat) (d : Config) (i : Nat) (t : List U64) : Go (List U64) := do
  let s ← cacheSize fuel d (BitVec.ofNat 64 i)
  upd t i s

/-- main.go:16-29 -/
def genCacheLookupTable (fuel : Nat) (initBytes growthBytes : U64) (epochs : Nat) : Go (List U64) :=
  let d : Config := { cacheInitBytes := initBytes, cacheGrowthBytes := growthBytes }
  forRange 0 epochs (List.replicate epochs 0) (cacheEntry fuel d)

/-- main.go:41-43, one iteration -/
def datasetEntry (fuel : Nat) (d : Config) (i : Nat) (t : List U64) : Go (List U64) := do
  let s ← datasetSize fuel d (BitVec.ofNat 64 i)
  upd t i s

/-- main.go:31-46 -/
def genDatasetLookupTable (fuel : Nat) (mixBytes initBytes growthBytes : U64) (epochs : Nat) : Go (List U64) :=
  let d : Config := { mixBytes := mixBytes, datasetInitBytes := initBytes, datasetGrowthBytes := growthBytes }
  forRange 0 epochs (List.replicate epochs 0) (datasetEntry fuel d)

/-- `fmt.Sprintf("%d,", x)` -/
def sprintEntry (x : U64) : List Char := Nat.toDigits 10 x.toNat ++ [',']

/-- main.go:54-64, one iteration of the loop over a row; `j < rowSize-1` for `int`s -/
def rowStep (table : List U64) (rowSize : Int) (i : Nat) (j : Nat) (row : List Char) : Go (List Char) := do
  let index := i * rowSize.toNat + j
  if index ≥ table.length then return row
  let x ← idx table index
  let row := row ++ sprintEntry x
  if (j : Int) < rowSize - 1 then return row ++ [' ']
  return row

/-- main.go:52-67, one iteration -/
def lineStep (table : List U64) (rowSize : Int) (i : Nat) (formatted : List Char) : Go (List Char) := do
  let row ← forRange 0 rowSize.toNat [] (rowStep table rowSize i)
  return formatted ++ ('\t' :: row ++ ['\n'])

/-- main.go:48-72; Go's integer division truncates, and panics for `rowSize = 0` -/
def formatLookupTable (table : List U64) (rowSize : Int) : Go (List Char) := do
  if rowSize = 0 then panic .divZero
  let rows := (table.length : Int).tdiv rowSize
  let formatted ← forRange 0 rows.toNat [] (lineStep table rowSize)
  return "[]uint64{\n".toList ++ formatted ++ ['}']

/-- main.go:89-94, the template, and main.go:121-123, its execution -/
def fileText (package cacheLookup datasetLookup : List Char) : List Char :=
  "package ".toList ++ package ++ "\n\nvar cacheSizes = ".toList ++ cacheLookup ++ "\n\nvar datasetSizes = ".toList ++ datasetLookup ++
    ['\n']

/-- main.go:112-123: the text written for the given flags -/
def output (fuel : Nat) (package : List Char) (mixBytes cacheInit cacheGrowth datasetInit datasetGrowth : U64) (epochs : Nat) :
    Go (List Char) := do
  let c ← genCacheLookupTable fuel cacheInit cacheGrowth epochs
  let d ← genDatasetLookupTable fuel mixBytes datasetInit datasetGrowth epochs
  let c ← formatLookupTable c 5
  let d ← formatLookupTable d 5
  return fileText package c d

/-- main.go:97-108: the flags -/
structure Flags where
  package : List Char := []
  epochs : Int := 2048
  mixBytes : U64 := 128
  cacheInitBytes : U64 := 0
  cacheGrowthBytes : U64 := 0
  datasetInitBytes : U64 := 0
  datasetGrowthBytes : U64 := 0

/-- main.go:96-126 with 74-87 `saveToFile`: the path and the text of the file that is written, or `none` when `log.Fatalf` ends the
program. `wd` is the result of `os.Getwd`, `writes` whether `ioutil.WriteFile` succeeds. `make` panics for a negative length (the panic of
the run time is `explicit` here); executing the template on strings does not fail. -/
def main (fuel : Nat) (f : Flags) (wd : Option (List Char)) (writes : Bool) : Go (Option (List Char × List Char)) := do
  if f.package.length = 0 then return none
  if f.epochs < 0 then panic .explicit
  let text ← output fuel f.package f.mixBytes f.cacheInitBytes f.cacheGrowthBytes f.datasetInitBytes f.datasetGrowthBytes f.epochs.toNat
  match wd with
  | none => return none
  | some dir => if writes then return some (dir ++ "/".toList ++ f.package ++ "_lookup.go".toList, text) else return none

end Verif.GenLookup
