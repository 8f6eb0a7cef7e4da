import Verif.Spec.Ethash
import Verif.Spec.Dag

/-! # Specification of the cache files

A cache file is the eight bytes of the dump magic followed by the little-endian words of the cache. -/

set_option autoImplicit false

namespace Verif.Spec.Disk

open Spec.Ethash

/-- the dump magic of go-ethereum -/
def magic : Bytes := [0xfe, 0xca, 0xdd, 0xba, 0xad, 0xde, 0xe1, 0xfe]

/-- the file that holds the given words -/
def file (w : List (BitVec 32)) : Bytes := magic ++ bytes w

/-- contents that cannot be taken for a cache file: none at all, or others than the magic at the start -/
def Rejected (content : Bytes) : Prop := content = [] ∨ (8 ≤ content.length ∧ content.take 8 ≠ magic)

/-- the cache of `size` bytes for a seed, as words -/
def cacheWords (H512 : Bytes → Bytes) (size rounds : Nat) (seed : Bytes) : List (BitVec 32) :=
  (mkcache H512 (size / 64) seed rounds).flatMap words

/-- the L1 cache of `size` bytes: the first items of the dataset -/
def l1Words (H512 : Bytes → Bytes) (parents size : Nat) (cache : List (BitVec 32)) : List (BitVec 32) :=
  (List.range (size / 64)).flatMap fun j => words (itemOf H512 cache parents (BitVec.ofNat 32 j))

end Verif.Spec.Disk
