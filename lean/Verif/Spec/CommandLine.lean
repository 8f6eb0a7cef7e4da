/-! # The command line of gen-lookup, as its user means it

Settings, written in the ways that the documentation of Go's package `flag` describes, numbers in decimal. -/

set_option autoImplicit false

namespace Verif.Spec.CommandLine

/-- what can be set -/
inductive Setting where
  | package (name : List Char)
  | epochs (n : Int)
  | mixBytes (n : Nat)
  | cacheInit (n : Nat)
  | cacheGrowth (n : Nat)
  | datasetInit (n : Nat)
  | datasetGrowth (n : Nat)

/-- the parameters of a run -/
structure Params where
  package : List Char
  epochs : Int
  mixBytes : Nat
  cacheInit : Nat
  cacheGrowth : Nat
  datasetInit : Nat
  datasetGrowth : Nat

/-- the values when nothing is set -/
def defaults : Params where
  package := []
  epochs := 2048
  mixBytes := 128
  cacheInit := 0
  cacheGrowth := 0
  datasetInit := 0
  datasetGrowth := 0

/-- one setting -/
def Params.apply (p : Params) : Setting → Params
  | .package name => { p with package := name }
  | .epochs n => { p with epochs := n }
  | .mixBytes n => { p with mixBytes := n }
  | .cacheInit n => { p with cacheInit := n }
  | .cacheGrowth n => { p with cacheGrowth := n }
  | .datasetInit n => { p with datasetInit := n }
  | .datasetGrowth n => { p with datasetGrowth := n }

/-- the values that the types of the flags can hold: `int` and `uint64` -/
def Setting.Fits : Setting → Prop
  | .package _ => True
  | .epochs n => -2 ^ 63 ≤ n ∧ n < 2 ^ 63
  | .mixBytes n | .cacheInit n | .cacheGrowth n | .datasetInit n | .datasetGrowth n => n < 2 ^ 64

/-- a natural number in decimal -/
def decimal (n : Nat) : List Char := Nat.toDigits 10 n

/-- an integer in decimal -/
def signed : Int → List Char
  | .ofNat n => decimal n
  | .negSucc n => '-' :: decimal (n + 1)

/-- the name of the flag -/
def Setting.name : Setting → List Char
  | .package _ => "package".toList
  | .epochs _ => "epochs".toList
  | .mixBytes _ => "mixBytes".toList
  | .cacheInit _ => "cacheInit".toList
  | .cacheGrowth _ => "cacheGrowth".toList
  | .datasetInit _ => "datasetInit".toList
  | .datasetGrowth _ => "datasetGrowth".toList

/-- the value, written -/
def Setting.value : Setting → List Char
  | .package name => name
  | .epochs n => signed n
  | .mixBytes n | .cacheInit n | .cacheGrowth n | .datasetInit n | .datasetGrowth n => decimal n

/-- the ways to write a setting: with one or two dashes, the value behind `=` or as the next argument -/
structure Form where
  twoDashes : Bool
  equals : Bool

/-- the arguments of a setting -/
def Setting.written (s : Setting) (f : Form) : List (List Char) :=
  let flag := (if f.twoDashes then "--".toList else "-".toList) ++ s.name
  if f.equals then [flag ++ ['='] ++ s.value] else [flag, s.value]

/-- the ways in which the flags of a command line end: with the command line, with `--`, or before an argument that is no flag -/
inductive Ends : List (List Char) → Prop
  | nothing : Ends []
  | dashes (rest : List (List Char)) : Ends ("--".toList :: rest)
  | plain (a : List Char) (rest : List (List Char)) (h : a = ['-'] ∨ a.head? ≠ some '-') : Ends (a :: rest)

/-- a command line: the words of a line, separated by single spaces -/
def words : List Char → List (List Char)
  | [] => [[]]
  | c :: cs =>
    if c = ' ' then [] :: words cs
    else
      match words cs with
      | [] => [[c]]
      | w :: ws => (c :: w) :: ws

#guard words "a bc d".toList = ["a".toList, "bc".toList, "d".toList]

/-- the value of digits in a base -/
def value (base : Nat) (ds : List Nat) : Nat := ds.foldl (fun n d => n * base + d) 0

#guard value 8 [1, 7] = 15

end Verif.Spec.CommandLine
