import Verif.Spec.Sponge
import Mathlib.Data.Nat.Digits.Defs

/-! # cSHAKE256 (NIST SP 800-185, sections 2.3 and 3) on whole bytes -/

set_option autoImplicit false

namespace Verif.Spec.CShake

open Sponge

/-- the bytes of a number, the highest first, at least one -/
def numeral (n : Nat) : List (BitVec 8) := if n = 0 then [0] else ((Nat.digits 256 n).map (BitVec.ofNat 8)).reverse

/-- `left_encode` -/
def leftEncode (n : Nat) : List (BitVec 8) := BitVec.ofNat 8 (numeral n).length :: numeral n

/-- `encode_string` -/
def encodeString (s : List (BitVec 8)) : List (BitVec 8) := leftEncode (8 * s.length) ++ s

/-- `bytepad` -/
def bytepad (x : List (BitVec 8)) (w : Nat) : List (BitVec 8) :=
  let z := leftEncode w ++ x
  z ++ List.replicate ((w - z.length % w) % w) 0

/-- what cSHAKE256 puts before the input -/
def front (name custom : List (BitVec 8)) : List (BitVec 8) := bytepad (encodeString name ++ encodeString custom) 136

/-- the blocks that cSHAKE256 absorbs, SHAKE256 if both strings are empty -/
def absorbed (name custom data : List (BitVec 8)) : List (BitVec 8) :=
  if name = [] ∧ custom = [] then data ++ padding 136 0x1f data.length
  else front name custom ++ data ++ padding 136 0x04 (front name custom ++ data).length

/-- `size` bytes of its output -/
def cshake256 (f : List (BitVec 8) → List (BitVec 8)) (name custom data : List (BitVec 8)) (size : Nat) : List (BitVec 8) :=
  (List.range size).map (stream f 136 (absorb f 136 (absorbed name custom data)))

end Verif.Spec.CShake
