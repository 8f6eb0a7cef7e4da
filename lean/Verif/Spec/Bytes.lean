/-! # Specification vocabulary for byte strings -/

set_option autoImplicit false

namespace Verif.Spec

/-- The number denoted by a byte string, least significant byte first. -/
def leValue (bs : List (BitVec 8)) : Nat := bs.foldr (fun b acc => b.toNat + 256 * acc) 0

/-- The number denoted by a byte string, most significant byte first. -/
def beValue (bs : List (BitVec 8)) : Nat := leValue bs.reverse

/-- The `i`-th little-endian 64-bit word of a byte string. -/
def leWord64 (bs : List (BitVec 8)) (i : Nat) : BitVec 64 := BitVec.ofNat 64 (leValue ((bs.drop (8 * i)).take 8))

/-- The `i`-th little-endian 32-bit word of a byte string. -/
def leWord32 (bs : List (BitVec 8)) (i : Nat) : BitVec 32 := BitVec.ofNat 32 (leValue ((bs.drop (4 * i)).take 4))

/-- A number as `m` bytes, least significant first. -/
def leEncode : Nat → Nat → List (BitVec 8)
  | 0, _ => []
  | m + 1, v => BitVec.ofNat 8 v :: leEncode m (v / 256)

/-- A number as `m` bytes, most significant first. -/
def beEncode (m v : Nat) : List (BitVec 8) := (leEncode m v).reverse

/-- The `g`-th group of `b` bits of a byte string read as one big-endian bit string. -/
def bitGroup (bs : List (BitVec 8)) (b g : Nat) : Nat := beValue bs / 2 ^ (8 * bs.length - (g + 1) * b) % 2 ^ b

/-- The `g`-th group of `b` bits of a byte string read as one little-endian bit string. -/
def bitGroupLE (bs : List (BitVec 8)) (b g : Nat) : Nat := leValue bs / 2 ^ (g * b) % 2 ^ b

end Verif.Spec
