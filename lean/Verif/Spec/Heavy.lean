import Verif.Go.Basic
import Verif.Spec.Bytes

/-! # Specification of HeavyHash (Kaspa) and of xoshiro256++ -/

set_option autoImplicit false

namespace Verif.Spec.Heavy

/-- the state of xoshiro256++ -/
structure XState where
  s0 : BitVec 64
  s1 : BitVec 64
  s2 : BitVec 64
  s3 : BitVec 64
  deriving DecidableEq

/-- xoshiro256++ (Blackman, Vigna): the transition, each word of the new state as a function of the old state -/
def XState.step (s : XState) : XState where
  s0 := s.s0 ^^^ s.s1 ^^^ s.s3
  s1 := s.s0 ^^^ s.s1 ^^^ s.s2
  s2 := s.s0 ^^^ s.s2 ^^^ (s.s1 <<< 17)
  s3 := (s.s1 ^^^ s.s3).rotateLeft 45

/-- xoshiro256++: the output -/
def XState.out (s : XState) : BitVec 64 := (s.s0 + s.s3).rotateLeft 23 + s.s0

/-- the state after `n` steps -/
def XState.after (s : XState) : Nat → XState
  | 0 => s
  | n + 1 => (s.after n).step

/-- output number `n` -/
def XState.word (s : XState) (n : Nat) : BitVec 64 := (s.after n).out

/-- the seed: the four little-endian words of the hash -/
def seed (hash : List (BitVec 8)) : XState := ⟨leWord64 hash 0, leWord64 hash 1, leWord64 hash 2, leWord64 hash 3⟩

/-- Candidate matrix number `t`: each matrix takes 256 generator outputs, row by row, 16 nibbles per output, low nibble first. -/
def entry (s : XState) (t i j : Nat) : Nat := (s.word (256 * t + 4 * i + j / 16)).toNat / 16 ^ (j % 16) % 16

/-- candidate matrix `t` as a list of rows -/
def candidate (s : XState) (t : Nat) : List (List (BitVec 16)) :=
  (List.range 64).map fun i => (List.range 64).map fun j => BitVec.ofNat 16 (entry s t i j)

/-- the first cSHAKE: hash ‖ timestamp ‖ 32 zero bytes ‖ nonce -/
def powHash (P : Prims) (hash : List (BitVec 8)) (timestamp nonce : BitVec 64) : List (BitVec 8) :=
  P.cshake256 (hash ++ leEncode 8 timestamp.toNat ++ List.replicate 32 0 ++ leEncode 8 nonce.toNat)
    [80, 114, 111, 111, 102, 79, 102, 87, 111, 114, 107, 72, 97, 115, 104] 32

/-- nibble `j` of a byte string, high nibble first -/
def nibble (h : List (BitVec 8)) (j : Nat) : Nat := if j % 2 = 0 then (h.getD (j / 2) 0).toNat / 16 else (h.getD (j / 2) 0).toNat % 16

/-- coordinate `i` of the matrix-vector product, divided by `2^10` -/
def product (mat : Nat → Nat → Nat) (h : List (BitVec 8)) (i : Nat) : Nat :=
  ((List.range 64).map fun j => mat i j * nibble h j).sum / 2 ^ 10

/-- the digest for a matrix -/
def digest (P : Prims) (mat : Nat → Nat → Nat) (hash : List (BitVec 8)) (timestamp nonce : BitVec 64) : List (BitVec 8) :=
  let h := powHash P hash timestamp nonce
  let x := (List.range 32).map fun i => h.getD i 0 ^^^ BitVec.ofNat 8 (16 * product mat h (2 * i) + product mat h (2 * i + 1))
  (P.cshake256 x [72, 101, 97, 118, 121, 72, 97, 115, 104] 32).reverse

end Verif.Spec.Heavy
