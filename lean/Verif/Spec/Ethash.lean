import Verif.Spec.Bytes

/-! # Specification of the Ethash cache, dataset and hashimoto (ethereum/wiki "Ethash") -/

set_option autoImplicit false

namespace Verif.Spec.Ethash

abbrev Bytes := List (BitVec 8)

/-- the 32-bit words of a byte string -/
def words (b : Bytes) : List (BitVec 32) := (List.range (b.length / 4)).map (leWord32 b)

/-- the byte string of some words -/
def bytes (w : List (BitVec 32)) : Bytes := w.flatMap fun x => leEncode 4 x.toNat

/-- `fnv` of the wiki -/
def fnv (a b : BitVec 32) : BitVec 32 := (a * 0x01000193) ^^^ b

section
/- the 512-bit hash function -/
variable (H512 : Bytes → Bytes)

/-! ## mkcache -/

/-- `[H(seed), H(H(seed)), …]` -/
def chain (seed : Bytes) : Nat → List Bytes
  | 0 => []
  | n + 1 => H512 seed :: chain (H512 seed) n

/-- the body of the innermost loop of `mkcache`: row `i` of `n` is replaced -/
def replaceRow (n : Nat) (o : List Bytes) (i : Nat) : List Bytes :=
  let v := leValue ((o.getD i []).take 4) % n
  o.set i (H512 (List.zipWith (· ^^^ ·) (o.getD ((i + n - 1) % n) []) (o.getD v [])))

/-- one round over all rows -/
def cacheRound (n : Nat) (o : List Bytes) : List Bytes := (List.range n).foldl (replaceRow H512 n) o

/-- `mkcache`: `n` rows, `r` rounds -/
def mkcache (n : Nat) (seed : Bytes) : Nat → List Bytes
  | 0 => chain H512 seed n
  | r + 1 => cacheRound H512 n (mkcache n seed r)

/-! ## calc_dataset_item -/

/-- the start of the mix: the row with its first word changed, hashed -/
def itemStart (row : List (BitVec 32)) (i : BitVec 32) : List (BitVec 32) :=
  words (H512 (bytes (row.set 0 (row.getD 0 0 ^^^ i))))

/-- `j`-th parent: `n` rows, `row k` being the `k`-th -/
def itemMix (n : Nat) (row : Nat → List (BitVec 32)) (i : BitVec 32) : Nat → List (BitVec 32)
  | 0 => itemStart H512 (row (i.toNat % n)) i
  | j + 1 =>
    let mix := itemMix n row i j
    let p := (fnv (i ^^^ BitVec.ofNat 32 j) (mix.getD (j % 16) 0)).toNat % n
    List.zipWith fnv mix (row p)

/-- `calc_dataset_item` with the given number of parents -/
def item (n : Nat) (row : Nat → List (BitVec 32)) (parents : Nat) (i : BitVec 32) : Bytes :=
  H512 (bytes (itemMix H512 n row i parents))

end

/-- row `k` of a cache stored as one array of words -/
def rowOf (cache : List (BitVec 32)) (k : Nat) : List (BitVec 32) := (cache.drop (16 * k)).take 16

/-- the item computed from a cache stored as one array -/
def itemOf (H512 : Bytes → Bytes) (cache : List (BitVec 32)) (parents : Nat) (i : BitVec 32) : Bytes :=
  item H512 (cache.length / 16) (rowOf cache) parents i

/-! ## hashimoto -/

section
variable (H512 H256 : Bytes → Bytes)

/-- the seed `s` -/
def seedOf (header : Bytes) (nonce : BitVec 64) : Bytes := H512 (header ++ leEncode 8 nonce.toNat)

/-- the mix after some accesses, for a dataset of `n` items of 64 bytes given by `L` -/
def accessMix (n : Nat) (L : Nat → List (BitVec 32)) (s : Bytes) : Nat → List (BitVec 32)
  | 0 => words s ++ words s
  | i + 1 =>
    let mix := accessMix n L s i
    let p := (fnv (BitVec.ofNat 32 i ^^^ leWord32 s 0) (mix.getD (i % 32) 0)).toNat % (n / 2) * 2
    List.zipWith fnv mix (L p ++ L (p + 1))

/-- the compressed mix -/
def cmix (mix : List (BitVec 32)) : List (BitVec 32) := (List.range 8).map fun i =>
  fnv (fnv (fnv (mix.getD (4 * i) 0) (mix.getD (4 * i + 1) 0)) (mix.getD (4 * i + 2) 0)) (mix.getD (4 * i + 3) 0)

/-- `hashimoto`: the mix digest and the result -/
def hashimoto (n : Nat) (L : Nat → List (BitVec 32)) (header : Bytes) (nonce : BitVec 64) : Bytes × Bytes :=
  let s := seedOf H512 header nonce
  let c := bytes (cmix (accessMix n L s 64))
  (c, H256 (s ++ c))

end

end Verif.Spec.Ethash
