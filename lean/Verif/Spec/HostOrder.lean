import Verif.Spec.Disk

/-! # Specification vocabulary for machines of the other byte order -/

set_option autoImplicit false

namespace Verif.Spec.Disk

/-- a word with its four bytes in the opposite order -/
def reversed (x : BitVec 32) : BitVec 32 := BitVec.ofNat 32 (beValue (leEncode 4 x.toNat))

/-- the dump magic as a big-endian machine stores it -/
def magicBig : List (BitVec 8) := [0xba, 0xdd, 0xca, 0xfe, 0xfe, 0xe1, 0xde, 0xad]

/-- the four bytes of the word read the same in both directions -/
def Palindrome (x : BitVec 32) : Prop := (leEncode 4 x.toNat).reverse = leEncode 4 x.toNat

end Verif.Spec.Disk
