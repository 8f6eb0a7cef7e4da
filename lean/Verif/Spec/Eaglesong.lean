import Verif.Spec.Bytes
import Verif.Spec.EaglesongConst

/-! # Specification of Eaglesong (Nervos) -/

set_option autoImplicit false

namespace Verif.Spec.Eaglesong

/-- word `j` of a state -/
def word (s : List (BitVec 32)) (j : Nat) : BitVec 32 := s.getD j 0

/-- exclusive or of a list of words -/
def xorAll (l : List (BitVec 32)) : BitVec 32 := l.foldr (· ^^^ ·) 0

/-- bit matrix multiplication -/
def matrix (s : List (BitVec 32)) : List (BitVec 32) := columns.map fun col => xorAll (col.map (word s))

/-- circulant multiplication -/
def circulant (s : List (BitVec 32)) : List (BitVec 32) :=
  rotations.mapIdx fun j r => word s j ^^^ (word s j).rotateLeft r.1 ^^^ (word s j).rotateLeft r.2

/-- constants injection of round `i` -/
def inject (i : Nat) (s : List (BitVec 32)) : List (BitVec 32) :=
  (List.range 16).map fun j => word s j ^^^ constants.getD (16 * i + j) 0

/-- addition, rotation, addition on each pair of words -/
def ara (s : List (BitVec 32)) : List (BitVec 32) :=
  (List.range 8).flatMap fun q =>
    let a := (word s (2 * q) + word s (2 * q + 1)).rotateLeft 8
    [a, a + (word s (2 * q + 1)).rotateLeft 24]

/-- round `i` -/
def round (i : Nat) (s : List (BitVec 32)) : List (BitVec 32) := ara (inject i (circulant (matrix s)))

/-- the first `n` rounds -/
def permutation : Nat → List (BitVec 32) → List (BitVec 32)
  | 0, s => s
  | n + 1, s => round n (permutation n s)

/-- Word `w` of the padded message: the bytes are the input followed by the delimiter; a word is the big-endian value of the
(at most four) bytes it covers, so an incomplete last word is not shifted up. -/
def messageWord (delim : BitVec 8) (input : List (BitVec 8)) (w : Nat) : BitVec 32 :=
  BitVec.ofNat 32 (beValue (((input ++ [delim]).drop (4 * w)).take 4))

/-- absorb eight words starting at word `8 i`, then permute -/
def absorb (rounds : Nat) (delim : BitVec 8) (input : List (BitVec 8)) (i : Nat) (s : List (BitVec 32)) : List (BitVec 32) :=
  permutation rounds ((List.range 16).map fun j => if j < 8 then word s j ^^^ messageWord delim input (8 * i + j) else word s j)

/-- the state after absorbing `n` blocks -/
def absorbed (rounds : Nat) (delim : BitVec 8) (input : List (BitVec 8)) : Nat → List (BitVec 32)
  | 0 => List.replicate 16 0
  | n + 1 => absorb rounds delim input n (absorbed rounds delim input n)

/-- number of 32-byte blocks of the input and the delimiter -/
def blocks (input : List (BitVec 8)) : Nat := (input.length + 1 + 31) / 32

/-- the digest: the first eight words of the final state, little-endian -/
def digest (rounds : Nat) (delim : BitVec 8) (input : List (BitVec 8)) : List (BitVec 8) :=
  (List.range 8).flatMap fun j => leEncode 4 (word (absorbed rounds delim input (blocks input)) j).toNat

/-! ## any rate

A rate of `r` bits: a block covers `r / 32` whole words of the state; block `i` starts at byte `i r / 8` (rounded down) of the message and of
the output. -/

/-- the big-endian value of the (at most four) bytes at a position of the padded message -/
def messageAt (delim : BitVec 8) (input : List (BitVec 8)) (pos : Nat) : BitVec 32 :=
  BitVec.ofNat 32 (beValue (((input ++ [delim]).drop pos).take 4))

/-- absorb block `i`, then permute -/
def absorbAt (rounds r : Nat) (delim : BitVec 8) (input : List (BitVec 8)) (i : Nat) (s : List (BitVec 32)) : List (BitVec 32) :=
  permutation rounds
    ((List.range 16).map fun j => if j < r / 32 then word s j ^^^ messageAt delim input (i * r / 8 + 4 * j) else word s j)

/-- the state after absorbing `n` blocks -/
def absorbedAt (rounds r : Nat) (delim : BitVec 8) (input : List (BitVec 8)) : Nat → List (BitVec 32)
  | 0 => List.replicate 16 0
  | n + 1 => absorbAt rounds r delim input n (absorbedAt rounds r delim input n)

/-- the number of blocks of `r` bits that cover the input and the delimiter -/
def blocksAt (r : Nat) (input : List (BitVec 8)) : Nat := (8 * (input.length + 1) + r - 1) / r

/-- the state from which block `i` of the output is taken -/
def squeezedAt (rounds r : Nat) (delim : BitVec 8) (input : List (BitVec 8)) : Nat → List (BitVec 32)
  | 0 => absorbedAt rounds r delim input (blocksAt r input)
  | i + 1 => permutation rounds (squeezedAt rounds r delim input i)

/-- byte `t` of a state, its words little-endian -/
def stateByte (s : List (BitVec 32)) (t : Nat) : BitVec 8 := BitVec.ofNat 8 ((word s (t / 4)).toNat / 256 ^ (t % 4))

end Verif.Spec.Eaglesong
