import Verif.Go.Basic

/-! # Go's `float64`: IEEE 754 binary64 with rounding to nearest, ties to even

A finite number is a sign and a magnitude in units of `2^-1074`, the smallest positive double. -/

set_option autoImplicit false

namespace Verif.Go

inductive F64 where
  | nan
  | inf (neg : Bool)
  | fin (neg : Bool) (k : Nat)
  deriving DecidableEq, Repr

namespace F64

/-- the number of units in 1 -/
def one : Nat := 2 ^ 1074

/-- 53 significant bits: the units of the last place are `2^e` -/
def ulpExp (u : Nat) : Nat := u.log2 - 52

/-- the magnitude `n / d` (in units) rounded to the nearest number of 53 significant bits, ties to even -/
def roundNat (n d : Nat) : Nat :=
  let e := ulpExp (n / d)
  let w := d * 2 ^ e
  let q := n / w
  let r := n % w
  if w < 2 * r ∨ (2 * r = w ∧ q % 2 = 1) then (q + 1) * 2 ^ e else q * 2 ^ e

/-- rounding of a magnitude with a sign; `2^1024` and above overflows -/
def round (neg : Bool) (n d : Nat) : F64 :=
  let k := roundNat n d
  if 2 ^ 1024 * one ≤ k then .inf neg else .fin neg k

/-- signed magnitude of a difference `a - b` of magnitudes with signs, over the denominator `d`; an exact zero is `-0` only if both
terms are negative zeros -/
def roundDiff (sa : Bool) (a : Nat) (sb : Bool) (b d : Nat) : F64 :=
  if sa = sb then
    if b < a then round sa (a - b) d
    else if a < b then round (!sa) (b - a) d
    else .fin false 0
  else if a + b = 0 then .fin sa 0
  else round sa (a + b) d

/-- `x * y` -/
def mul : F64 → F64 → F64
  | .nan, _ => .nan
  | _, .nan => .nan
  | .inf s, .inf t => .inf (s != t)
  | .inf s, .fin t k => if k = 0 then .nan else .inf (s != t)
  | .fin s k, .inf t => if k = 0 then .nan else .inf (s != t)
  | .fin s a, .fin t b => round (s != t) (a * b) one

/-- `x / y` -/
def div : F64 → F64 → F64
  | .nan, _ => .nan
  | _, .nan => .nan
  | .inf _, .inf _ => .nan
  | .inf s, .fin t _ => .inf (s != t)
  | .fin s _, .inf t => .fin (s != t) 0
  | .fin s a, .fin t b =>
    if b = 0 then if a = 0 then .nan else .inf (s != t)
    else round (s != t) (a * one) b

/-- `x - y` -/
def sub : F64 → F64 → F64
  | .nan, _ => .nan
  | _, .nan => .nan
  | .inf s, .inf t => if s = t then .nan else .inf s
  | .inf s, .fin _ _ => .inf s
  | .fin _ _, .inf t => .inf (!t)
  | .fin s a, .fin t b => roundDiff s a t b 1

/-- `x - p * c` with one rounding: the fused operation that Go allows for `x - p * c` -/
def fusedMulSub : F64 → F64 → F64 → F64
  | .nan, _, _ => .nan
  | _, .nan, _ => .nan
  | _, _, .nan => .nan
  | .fin s x, .fin t a, .fin v b => roundDiff s (x * one) (t != v) (a * b) one
  | x, p, c => sub x (mul p c)

/-- `float64(n)` -/
def ofNat (n : Nat) : F64 := round false (n * one) 1

/-- `math.Abs(x) > y` for a positive finite constant `y` of `k` units -/
def absGt (k : Nat) : F64 → Bool
  | .nan => false
  | .inf _ => true
  | .fin _ a => decide (k < a)

/-- `math.Abs(x) <= y` -/
def absLe (k : Nat) : F64 → Bool
  | .nan => false
  | .inf _ => false
  | .fin _ a => decide (a ≤ k)

end F64

end Verif.Go
