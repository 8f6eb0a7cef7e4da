/-! # Reading a Go composite literal `[]uint64{1, 2, 3}` -/

set_option autoImplicit false

namespace Verif.Spec.GoLiteral

/-- reads decimal entries separated by commas up to the closing brace; `cur` is the number being read. Space may stand between
entries, and a comma may follow the last one. -/
def entries : Option Nat → List Char → Option (List Nat)
  | _, [] => none
  | cur, c :: cs =>
    if c.isDigit then entries (some (10 * cur.getD 0 + (c.toNat - '0'.toNat))) cs
    else if c = ',' then
      match cur with
      | some n => (entries none cs).map (n :: ·)
      | none => none
    else if c = ' ' ∨ c = '\t' ∨ c = '\n' then
      match cur with
      | some _ => none
      | none => entries none cs
    else if c = '}' ∧ cs = [] then
      match cur with
      | some n => some [n]
      | none => some []
    else none

/-- the value of a literal of type `[]uint64` -/
def readTable (text : List Char) : Option (List Nat) :=
  if "[]uint64{".toList.isPrefixOf text then entries none (text.drop 9) else none

/-- what follows the prefix `p` -/
def strip (p text : List Char) : Option (List Char) := if p.isPrefixOf text then some (text.drop p.length) else none

/-- what precedes and what follows the first `c` -/
def upTo (c : Char) : List Char → Option (List Char × List Char)
  | [] => none
  | x :: xs => if x = c then some ([], xs) else (upTo c xs).map fun r => (x :: r.1, r.2)

/-- a table up to its closing brace, and what follows -/
def readNext (text : List Char) : Option (List Nat × List Char) := do
  let (t, rest) ← upTo '}' text
  let l ← readTable (t ++ ['}'])
  return (l, rest)

/-- a file that declares `cacheSizes` and `datasetSizes`: package name and tables -/
def readFile (text : List Char) : Option (List Char × List Nat × List Nat) := do
  let s ← strip "package ".toList text
  let (name, s) ← upTo '\n' s
  let s ← strip "\nvar cacheSizes = ".toList s
  let (c, s) ← readNext s
  let s ← strip "\n\nvar datasetSizes = ".toList s
  let (d, s) ← readNext s
  if s = ['\n'] then some (name, c, d) else none

-- tests of the reader itself
#guard readFile "package p\n\nvar cacheSizes = []uint64{\n\t1, 2,\n}\n\nvar datasetSizes = []uint64{3}\n".toList = some ("p".toList, [1, 2], [3])
#guard readFile "package p\n\nvar cacheSizes = []uint64{1}\n\nvar datasetSizes = []uint64{3}}\n".toList = none
#guard readTable "[]uint64{}".toList = some []
#guard readTable "[]uint64{1, 20,\n\t300}".toList = some [1, 20, 300]
#guard readTable "[]uint64{\n\t1, 20,\n}".toList = some [1, 20]
#guard readTable "[]uint64{1 20}".toList = none
#guard readTable "[]uint64{1,,2}".toList = none
#guard readTable "[]uint32{1}".toList = none

end Verif.Spec.GoLiteral
