import Verif.Spec.Bytes

/-! # Specification of Autolykos v2 (Ergo) -/

set_option autoImplicit false

namespace Verif.Spec.Autolykos

/-- one 5 % step of the table size -/
def grow (n : Nat) : Nat := n / 100 * 105

/-- `k` steps -/
def growN : Nat → Nat → Nat
  | 0, n => n
  | k + 1, n => grow (growN k n)

/-- the table size: constant below 614400, one step at 614400 and at every 51200 blocks from there, none after 4198400 -/
def tableSize (base height : Nat) : Nat :=
  if height < 614400 then base else growN ((min height 4198400 - 614400) / 51200 + 1) base

/-- one step on 32-bit numbers -/
def grow32 (n : Nat) : Nat := n / 100 * 105 % 2 ^ 32

/-- `k` steps on 32-bit numbers -/
def growN32 : Nat → Nat → Nat
  | 0, n => n
  | k + 1, n => grow32 (growN32 k n)

/-- The table size for the parameter `n`, whatever it is: `2^n` (as a 32-bit number) grows in 32-bit arithmetic up to height 4198400;
from the next block on the size is one constant. -/
def sizeFor (n height : Nat) : Nat :=
  if 4198400 < height then 2143944600
  else if height < 614400 then 2 ^ n % 2 ^ 32
  else growN32 ((height - 614400) / 51200 + 1) (2 ^ n % 2 ^ 32)

/-- the bytes of a number, most significant first, without leading zeros (zero has no bytes) -/
def minimalBytes (v : Nat) : List (BitVec 8) :=
  if v = 0 then [] else minimalBytes (v / 256) ++ [BitVec.ofNat 8 v]
termination_by v
decreasing_by omega

/-- the constant 8 KiB string: the numbers below 1024 as 8-byte big-endian words -/
def bigM : List (BitVec 8) := (List.range 1024).flatMap (beEncode 8)

variable (H : List (BitVec 8) → List (BitVec 8))

/-- element `i` of the table at the given height: the last 31 bytes of a digest -/
def element (height i : Nat) : List (BitVec 8) := (H (beEncode 4 i ++ (beEncode 4 height ++ bigM))).drop 1

/-- the index of the first element -/
def firstIndex (N : Nat) (msg nonce : List (BitVec 8)) : Nat := beValue ((H (msg ++ nonce)).drop 24) % N

/-- the seed of the indexes -/
def seed (N height : Nat) (msg nonce : List (BitVec 8)) : List (BitVec 8) :=
  element H height (firstIndex H N msg nonce) ++ (msg ++ nonce)

/-- index `j`: the four bytes at position `j` of the doubled digest of the seed, modulo the table size -/
def index (N height : Nat) (msg nonce : List (BitVec 8)) (j : Nat) : Nat :=
  beValue (((H (seed H N height msg nonce) ++ H (seed H N height msg nonce)).drop j).take 4) % N

/-- the sum of the selected elements -/
def sum (k N height : Nat) (msg nonce : List (BitVec 8)) : Nat :=
  ((List.range k).map fun j => beValue (element H height (index H N height msg nonce j))).sum

/-- the digest -/
def digest (k N height : Nat) (msg nonce : List (BitVec 8)) : List (BitVec 8) := H (minimalBytes (sum H k N height msg nonce))

end Verif.Spec.Autolykos
