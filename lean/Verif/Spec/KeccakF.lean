/-! # Keccak-f[1600] (FIPS 202, section 3) on a state of 200 bytes

A lane is 64 bits, lane `(x, y)` of the state is number `x + 5 y`. -/

set_option autoImplicit false

namespace Verif.Spec.KeccakF

/-- the round constants -/
def constants : List (BitVec 64) := [0x0000000000000001, 0x0000000000008082, 0x800000000000808a, 0x8000000080008000, 0x000000000000808b,
  0x0000000080000001, 0x8000000080008081, 0x8000000000008009, 0x000000000000008a, 0x0000000000000088, 0x0000000080008009, 0x000000008000000a,
  0x000000008000808b, 0x800000000000008b, 0x8000000000008089, 0x8000000000008003, 0x8000000000008002, 0x8000000000000080, 0x000000000000800a,
  0x800000008000000a, 0x8000000080008081, 0x8000000000008080, 0x0000000080000001, 0x8000000080008008]

/-- the rotations of the lanes -/
def offsets : List Nat := [0, 1, 62, 28, 27, 36, 44, 6, 55, 20, 3, 10, 43, 25, 39, 41, 45, 15, 21, 8, 18, 2, 61, 56, 14]

/-- the lane at `(x, y)` -/
def lane (a : List (BitVec 64)) (x y : Nat) : BitVec 64 := a.getD (x % 5 + 5 * (y % 5)) 0

/-- a state from a function of `x` and `y` -/
def state (g : Nat → Nat → BitVec 64) : List (BitVec 64) := (List.range 25).map fun i => g (i % 5) (i / 5)

def theta (a : List (BitVec 64)) : List (BitVec 64) :=
  let c := (List.range 5).map fun x => lane a x 0 ^^^ lane a x 1 ^^^ lane a x 2 ^^^ lane a x 3 ^^^ lane a x 4
  state fun x y => lane a x y ^^^ c.getD ((x + 4) % 5) 0 ^^^ (c.getD ((x + 1) % 5) 0).rotateLeft 1

def rho (a : List (BitVec 64)) : List (BitVec 64) := state fun x y => (lane a x y).rotateLeft (offsets.getD (x + 5 * y) 0)

def pi (a : List (BitVec 64)) : List (BitVec 64) := state fun x y => lane a (x + 3 * y) x

def chi (a : List (BitVec 64)) : List (BitVec 64) := state fun x y => lane a x y ^^^ (~~~ lane a (x + 1) y &&& lane a (x + 2) y)

def iota (c : BitVec 64) (a : List (BitVec 64)) : List (BitVec 64) := a.set 0 (lane a 0 0 ^^^ c)

def round (a : List (BitVec 64)) (c : BitVec 64) : List (BitVec 64) := iota c (chi (pi (rho (theta a))))

/-- the number with the given bytes, the lowest first -/
def number : List (BitVec 8) → Nat
  | [] => 0
  | b :: l => b.toNat + 256 * number l

/-- the lanes of 200 bytes -/
def lanes (s : List (BitVec 8)) : List (BitVec 64) := (List.range 25).map fun i => BitVec.ofNat 64 (number ((s.drop (8 * i)).take 8))

/-- the bytes of lanes -/
def bytes (a : List (BitVec 64)) : List (BitVec 8) := (List.range 200).map fun i => BitVec.ofNat 8 ((a.getD (i / 8) 0).toNat / 256 ^ (i % 8))

/-- Keccak-f[1600] -/
def keccakF (s : List (BitVec 8)) : List (BitVec 8) := bytes (constants.foldl round (lanes s))

end Verif.Spec.KeccakF
