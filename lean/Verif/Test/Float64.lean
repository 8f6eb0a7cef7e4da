import Verif.Model.HeavyFloat

/-! # `Go/Float64.lean` against the doubles of the machine

Evaluated, not proved: about 3000 pairs of bit patterns, among them subnormal numbers, infinities, NaN and numbers close to overflow. -/

set_option autoImplicit false

namespace Verif.Test

open Go

/-- the double with the given bits -/
def ofBits (b : UInt64) : F64 :=
  let s := decide (b.toNat / 2 ^ 63 = 1)
  let e := b.toNat / 2 ^ 52 % 2048
  let m := b.toNat % 2 ^ 52
  if e = 2047 then if m = 0 then .inf s else .nan
  else if e = 0 then .fin s m
  else .fin s ((2 ^ 52 + m) * 2 ^ (e - 1))

def same (x : F64) (y : Float) : Bool := if y.isNaN then x == .nan else x == ofBits y.toBits

def xorshift (x : UInt64) : UInt64 :=
  let x := x ^^^ (x <<< 13)
  let x := x ^^^ (x >>> 7)
  x ^^^ (x <<< 17)

/-- patterns whose exponents are close to each other as well as arbitrary ones -/
def patterns (n : Nat) : List (UInt64 × UInt64) :=
  let rec go : Nat → UInt64 → List (UInt64 × UInt64)
    | 0, _ => []
    | n + 1, x =>
      let y := xorshift x
      let z := xorshift y
      let near := (z &&& 0x800fffffffffffff) ||| (y &&& 0x7ff0000000000000)
      (y, z) :: (y, near) :: (y &&& 0x801fffffffffffff, z &&& 0xbfffffffffffffff) :: (y ||| 0x7fe0000000000000, z ||| 0x3ff0000000000000) ::
        (y &&& 0xffffffffe0000000, near &&& 0xffffffffe0000000) :: go n z
  (0, 0x8000000000000000) :: (0x8000000000000000, 0x8000000000000000) :: (0x8000000000000000, 0) :: (0x7ff0000000000000, 0x7ff0000000000000) ::
  (0x7ff0000000000000, 0xfff0000000000000) :: (0x7ff0000000000000, 0) :: (0, 0x7ff0000000000000) :: (0x7ff8000000000000, 1) :: (1, 0x7ff8000000000000) ::
  (0x3ff0000000000000, 0) :: (1, 0x4000000000000000) :: (3, 0x4000000000000000) :: (0x0010000000000000, 0x4000000000000000) :: go n 0x9e3779b97f4a7c15

#guard (patterns 600).all fun (a, b) => same (F64.mul (ofBits a) (ofBits b)) (Float.ofBits a * Float.ofBits b)
#guard (patterns 600).all fun (a, b) => same (F64.div (ofBits a) (ofBits b)) (Float.ofBits a / Float.ofBits b)
#guard (patterns 600).all fun (a, b) => same (F64.sub (ofBits a) (ofBits b)) (Float.ofBits a - Float.ofBits b)
#guard (patterns 600).all fun (a, b) => same (F64.sub (F64.sub (ofBits b) (ofBits a)) (ofBits a)) (Float.ofBits b - Float.ofBits a - Float.ofBits a)
#guard (patterns 600).all fun (a, b) => same (F64.fusedMulSub (F64.mul (ofBits a) (ofBits b)) (ofBits b) (F64.ofNat 1)) (Float.ofBits a * Float.ofBits b - Float.ofBits b)

/-- equal up to the sign of a zero -/
def alike (x y : F64) : Bool := x == y || (x == .fin true 0 && y == .fin false 0) || (x == .fin false 0 && y == .fin true 0)

#guard (patterns 600).all fun (a, b) => alike (F64.fusedMulSub (.fin false 0) (ofBits a) (ofBits b)) (F64.sub (.fin false 0) (F64.mul (ofBits a) (ofBits b)))
#guard (patterns 600).all fun (a, _) => Heavy.separate.big (ofBits a) == decide ((Float.ofBits a).abs > 1e-9)
#guard (patterns 600).all fun (a, _) => Heavy.separate.small (ofBits a) == decide ((Float.ofBits a).abs ≤ 1e-9)
#guard (List.range 600).all fun n => same (F64.ofNat (n * n * n * n * n * n * n)) (Float.ofNat (n * n * n * n * n * n * n))
#guard same (.fin false Heavy.epsilon) 1e-9

end Verif.Test
