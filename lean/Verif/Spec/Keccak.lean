/-! # Keccak-p[800, 22] after FIPS 202, section 3

A state is a 5 × 5 array of 32-bit lanes `A x y`; as a list of words, lane `(x, y)` is word `5 y + x`. -/

set_option autoImplicit false

namespace Verif.Spec.Keccak

abbrev State := Fin 5 → Fin 5 → BitVec 32

/-- 3.2.1: the parity of a column -/
def parity (A : State) (x : Fin 5) : BitVec 32 := A x 0 ^^^ A x 1 ^^^ A x 2 ^^^ A x 3 ^^^ A x 4

/-- 3.2.1 -/
def theta (A : State) : State := fun x y => A x y ^^^ (parity A (x + 4) ^^^ (parity A (x + 1)).rotateLeft 1)

/-- 3.2.2: the lane reached after `t` steps of the walk that starts at (1, 0) -/
def walk : Nat → Fin 5 × Fin 5
  | 0 => (1, 0)
  | t + 1 => ((walk t).2, 2 * (walk t).1 + 3 * (walk t).2)

/-- 3.2.2: the rotation offset of a lane: `(t + 1) (t + 2) / 2` at step `t < 24` of the walk, zero at (0, 0) -/
def offset (x y : Fin 5) : Nat :=
  match (List.range 24).find? fun t => walk t == (x, y) with
  | some t => (t + 1) * (t + 2) / 2
  | none => 0

/-- 3.2.2 -/
def rho (A : State) : State := fun x y => (A x y).rotateLeft (offset x y)

/-- 3.2.3 -/
def pi (A : State) : State := fun x y => A (x + 3 * y) x

/-- 3.2.4 -/
def chi (A : State) : State := fun x y => A x y ^^^ (~~~ A (x + 1) y &&& A (x + 2) y)

/-- 3.2.5, algorithm 5: one step of the linear feedback shift register on bits R[0..7] -/
def lfsr (R : List Bool) : List Bool :=
  let b (i : Nat) : Bool := (false :: R).getD i false
  let top := b 8
  [xor (b 0) top, b 1, b 2, b 3, xor (b 4) top, xor (b 5) top, xor (b 6) top, b 7]

/-- 3.2.5, algorithm 5: `rc(t)` -/
def register : Nat → List Bool
  | 0 => [true, false, false, false, false, false, false, false]
  | t + 1 => lfsr (register t)

def rc (t : Nat) : Bool := (register (t % 255)).getD 0 false

/-- 3.2.5: the round constant: bit `2^j - 1` is `rc(j + 7 i)`, for `j ≤ 5` -/
def roundConstant (i : Nat) : BitVec 32 :=
  BitVec.ofNat 32 (((List.range 6).map fun j => if rc (j + 7 * i) then 2 ^ (2 ^ j - 1) else 0).sum)

/-- 3.2.5 -/
def iota (i : Nat) (A : State) : State := fun x y => if x = 0 ∧ y = 0 then A x y ^^^ roundConstant i else A x y

/-- 3.3 -/
def round (i : Nat) (A : State) : State := iota i (chi (pi (rho (theta A))))

/-- the first `n` rounds -/
def rounds : Nat → State → State
  | 0, A => A
  | n + 1, A => round n (rounds n A)

/-- a list of 25 words as a state -/
def ofWords (l : List (BitVec 32)) : State := fun x y => l.getD (5 * y.val + x.val) 0

/-- a state as a list of 25 words -/
def toWords (A : State) : List (BitVec 32) := [0, 1, 2, 3, 4].flatMap fun y : Fin 5 => [0, 1, 2, 3, 4].map fun x : Fin 5 => A x y

/-- Keccak-p[800, 22] on words -/
def f800 (l : List (BitVec 32)) : List (BitVec 32) := toWords (rounds 22 (ofWords l))

end Verif.Spec.Keccak
