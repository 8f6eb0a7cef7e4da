/-! # The packages `flag` and `strconv` of Go

The parts that a program uses which calls `flag.StringVar`, `flag.IntVar`, `flag.Uint64Var` and `flag.Parse`: `FlagSet.Parse` and `parseOne`
of `flag`, `ParseUint` and `ParseInt` of `strconv` with base 0 and 64 bits. This is a model of Go's library as documented (it is not part of
/repo); like the rest of `Verif/Go` it is trusted. Text is a list of characters, where Go has bytes: arguments that are not UTF-8 are not
covered. What is printed on standard error is left out. -/

set_option autoImplicit false

namespace Verif.Go.Flag

/-- the value of a digit, letters of either case from 10 -/
def digitValue (c : Char) : Option Nat :=
  if '0' ≤ c ∧ c ≤ '9' then some (c.toNat - 48)
  else if 'a' ≤ c ∧ c ≤ 'z' then some (c.toNat - 87)
  else if 'A' ≤ c ∧ c ≤ 'Z' then some (c.toNat - 55)
  else none

/-- the loop of `strconv.ParseUint` with base 0 and 64 bits: underscores are skipped, everything else must be a digit, and the value must
stay below 2^64 -/
def digits (base : Nat) : List Char → Nat → Option Nat
  | [], n => some n
  | c :: cs, n =>
    if c = '_' then digits base cs n
    else
      match digitValue c with
      | none => none
      | some d => if base ≤ d then none else if 2 ^ 64 ≤ n * base + d then none else digits base cs (n * base + d)

/-- base 0: the base according to the prefix, and what follows the prefix -/
def split : List Char → Nat × List Char
  | '0' :: c :: d :: t =>
    if c = 'b' ∨ c = 'B' then (2, d :: t)
    else if c = 'o' ∨ c = 'O' then (8, d :: t)
    else if c = 'x' ∨ c = 'X' then (16, d :: t)
    else (8, c :: d :: t)
  | '0' :: t => (8, t)
  | t => (10, t)

/-- what the loop of `strconv.underscoreOK` saw last -/
inductive Saw where
  | begin | digit | underscore | other
deriving DecidableEq

/-- the loop of `strconv.underscoreOK` -/
def underscores (hex : Bool) : Saw → List Char → Bool
  | saw, [] => saw ≠ .underscore
  | saw, c :: cs =>
    if ('0' ≤ c ∧ c ≤ '9') ∨ (hex = true ∧ (('a' ≤ c ∧ c ≤ 'f') ∨ ('A' ≤ c ∧ c ≤ 'F'))) then underscores hex .digit cs
    else if c = '_' then (if saw = .digit then underscores hex .underscore cs else false)
    else if saw = .underscore then false
    else underscores hex .other cs

/-- `strconv.underscoreOK` without its optional sign: underscores only between digits or after the prefix -/
def underscoreOK : List Char → Bool
  | '0' :: c :: t =>
    if c = 'b' ∨ c = 'B' ∨ c = 'o' ∨ c = 'O' then underscores false .digit t
    else if c = 'x' ∨ c = 'X' then underscores true .digit t
    else underscores false .begin ('0' :: c :: t)
  | t => underscores false .begin t

/-- `strconv.ParseUint(s, 0, 64)`, `none` for an error -/
def parseUint (s : List Char) : Option Nat :=
  if s = [] then none
  else
    match digits (split s).1 (split s).2 0 with
    | none => none
    | some n => if '_' ∈ (split s).2 ∧ underscoreOK s = false then none else some n

/-- `strconv.ParseInt(s, 0, 64)`, `none` for an error -/
def parseInt (s : List Char) : Option Int :=
  match s with
  | '-' :: t => (parseUint t).bind fun n => if n > 2 ^ 63 then none else some (-(n : Int))
  | '+' :: t => (parseUint t).bind fun n => if n ≥ 2 ^ 63 then none else some (n : Int)
  | t => (parseUint t).bind fun n => if n ≥ 2 ^ 63 then none else some (n : Int)

/-- an argument as `FlagSet.parseOne` sees it -/
inductive Arg where
  /-- not a flag: it and what follows are left -/
  | plain
  /-- `--`: what follows is left -/
  | terminator
  /-- bad flag syntax -/
  | bad
  /-- a flag, with the value behind `=` if there is one -/
  | flag (name : List Char) (value : Option (List Char))
deriving DecidableEq

/-- splits at the first `=` -/
def cut : List Char → List Char × Option (List Char)
  | [] => ([], none)
  | c :: cs => if c = '=' then ([], some cs) else (c :: (cut cs).1, (cut cs).2)

/-- what follows the dashes; an `=` cannot be first -/
def named : List Char → Arg
  | [] => .bad
  | c :: cs => if c = '-' ∨ c = '=' then .bad else .flag (c :: (cut cs).1) (cut cs).2

/-- the first half of `FlagSet.parseOne` -/
def classify : List Char → Arg
  | '-' :: '-' :: [] => .terminator
  | '-' :: '-' :: t => named t
  | '-' :: c :: t => named (c :: t)
  | _ => .plain

/-- what `flag.Parse` of the command line (`ExitOnError`) does: the variables and the arguments that are left, or the end of the program -/
inductive Parsed (σ : Type) where
  | ok (vars : σ) (left : List (List Char))
  | exit (code : Nat)

/-- a flag that is not defined: `-help` and `-h` print the usage and exit with 0, all others with 2 -/
def undefined {σ : Type} (name : List Char) : Parsed σ :=
  if name = "help".toList ∨ name = "h".toList then .exit 0 else .exit 2

/-- `FlagSet.Parse` with `parseOne`, for flags none of which is boolean. `formal` gives for the name of a defined flag its `Set`, which fails with
`none`. -/
def parse {σ : Type} (formal : List Char → Option (List Char → σ → Option σ)) : List (List Char) → σ → Parsed σ
  | [], vars => .ok vars []
  | [a], vars =>
    match classify a with
    | .plain => .ok vars [a]
    | .terminator => .ok vars []
    | .bad => .exit 2
    | .flag name value =>
      match formal name with
      | none => undefined name
      | some set =>
        match value with
        | none => .exit 2
        | some v =>
          match set v vars with
          | none => .exit 2
          | some vars => .ok vars []
  | a :: b :: as, vars =>
    match classify a with
    | .plain => .ok vars (a :: b :: as)
    | .terminator => .ok vars (b :: as)
    | .bad => .exit 2
    | .flag name value =>
      match formal name with
      | none => undefined name
      | some set =>
        match value with
        | none =>
          match set b vars with
          | none => .exit 2
          | some vars => parse formal as vars
        | some v =>
          match set v vars with
          | none => .exit 2
          | some vars => parse formal (b :: as) vars

#guard parseUint "0".toList = some 0
#guard parseUint "010".toList = some 8
#guard parseUint "08".toList = none
#guard parseUint "0x_1F".toList = some 31
#guard parseUint "1_000".toList = some 1000
#guard parseUint "1__000".toList = none
#guard parseUint "_1".toList = none
#guard parseUint "0_1".toList = some 1
#guard parseUint "0x".toList = none
#guard parseUint "+1".toList = none
#guard parseUint "18446744073709551615".toList = some (2 ^ 64 - 1)
#guard parseUint "18446744073709551616".toList = none
#guard parseInt "-0b101".toList = some (-5)
#guard parseInt "-9223372036854775808".toList = some (-(2 ^ 63))
#guard parseInt "9223372036854775808".toList = none
#guard classify "--a=b=c".toList = .flag "a".toList (some "b=c".toList)
#guard classify "---a".toList = .bad
#guard classify "-".toList = .plain

end Verif.Go.Flag
