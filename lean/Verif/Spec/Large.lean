import Verif.Spec.Ethash

/-! # Caches and datasets beyond the range of 32-bit offsets

The published functions know no limit on the sizes. A program that keeps byte offsets, word offsets, row numbers and item numbers in 32
bits computes the functions below instead. -/

set_option autoImplicit false

namespace Verif.Spec.Large

open Verif.Spec.Ethash

/-- row `k` of a cache stored as one array of words, found through a 32-bit offset in words -/
def rowAt (cache : List (BitVec 32)) (k : Nat) : List (BitVec 32) := rowOf cache (k % 2 ^ 28)

/-- the dataset item computed from such a cache, with a 32-bit number of rows -/
def itemAt (H512 : Bytes → Bytes) (cache : List (BitVec 32)) (parents : Nat) (i : BitVec 32) : Bytes :=
  item H512 (cache.length / 16 % 2 ^ 32) (rowAt cache) parents i

section
variable (H512 : Bytes → Bytes)

/-- the innermost step of `mkcache` with a 32-bit offset in bytes: nothing if the end of the selected row is not representable -/
def replaceRow (n : Nat) (o : List Bytes) (i : Nat) : Option (List Bytes) :=
  let v := leValue ((o.getD i []).take 4) % (n % 2 ^ 32) % 2 ^ 26
  if v = 2 ^ 26 - 1 then none
  else some (o.set i (H512 (List.zipWith (· ^^^ ·) (o.getD ((i + n - 1) % n) []) (o.getD v []))))

/-- the first rows of a round -/
def cacheRound (n : Nat) (o : List Bytes) : Nat → Option (List Bytes)
  | 0 => some o
  | i + 1 => (cacheRound n o i).bind fun o => replaceRow H512 n o i

/-- `mkcache`: `n` rows, `r` rounds -/
def mkcache (n : Nat) (seed : Bytes) : Nat → Option (List Bytes)
  | 0 => some (chain H512 seed n)
  | r + 1 => (mkcache n seed r).bind fun o => cacheRound H512 n o n

end

end Verif.Spec.Large
