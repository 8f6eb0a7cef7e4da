import Verif.Model.Dag

/-! # Model of /repo/internal/crypto/hasher.go with the hash object, and of the functions of /repo/internal/dag that use one hasher for
several digests

The hash objects are those of golang.org/x/crypto/sha3, which is not in the repository: a sponge of 200 bytes with a position and a direction,
described here byte by byte after its documentation (`Reset`, `Write`, which panics after `Read`, and `Read`). The permutation is a parameter.
Slices have no spare capacity here, as in Model/Generate.lean. -/

set_option autoImplicit false

namespace Verif.Hasher

open Go Dag

/-- what `sha3.NewLegacyKeccak256/512()` fix: the permutation of 200 bytes, the rate, the padding byte and the size of the digest -/
structure Kind where
  f : List Byte → List Byte
  rate : Nat
  ds : Byte
  outputLen : Nat

/-- the hash object: the state, the position in it, and whether it is being read -/
structure Sponge where
  a : List Byte
  n : Nat
  squeezing : Bool
  deriving DecidableEq

/-- sha3.NewLegacyKeccak256: capacity 64 bytes -/
def legacyKeccak256 (f : List Byte → List Byte) : Kind := ⟨f, 136, 0x01, 32⟩

/-- sha3.NewLegacyKeccak512: capacity 128 bytes -/
def legacyKeccak512 (f : List Byte → List Byte) : Kind := ⟨f, 72, 0x01, 64⟩

/-- a new object, and what `Reset` leaves -/
def fresh : Sponge := ⟨List.replicate 200 0, 0, false⟩

/-- `Reset` -/
def reset (_ : Sponge) : Sponge := fresh

/-- one byte of `Write` -/
def writeByte (K : Kind) (s : Sponge) (b : Byte) : Sponge :=
  let a := s.a.set s.n (s.a.getD s.n 0 ^^^ b)
  if s.n + 1 = K.rate then ⟨K.f a, 0, false⟩ else ⟨a, s.n + 1, false⟩

/-- `Write` -/
def write (K : Kind) (s : Sponge) (p : List Byte) : Go Sponge :=
  if s.squeezing then .error (.panic .explicit) else .ok (p.foldl (writeByte K) s)

/-- the padding, at the first `Read` -/
def padAndPermute (K : Kind) (s : Sponge) : Sponge :=
  let a := s.a.set s.n (s.a.getD s.n 0 ^^^ K.ds)
  let a := a.set (K.rate - 1) (a.getD (K.rate - 1) 0 ^^^ 0x80)
  ⟨K.f a, 0, true⟩

/-- `m` bytes of `Read`, in the reading direction -/
def squeeze (K : Kind) : Nat → Sponge → List Byte × Sponge
  | 0, s => ([], s)
  | m + 1, s =>
    let s' := if s.n + 1 = K.rate then { s with a := K.f s.a, n := 0 } else { s with n := s.n + 1 }
    let (out, t) := squeeze K m s'
    (s.a.getD s.n 0 :: out, t)

/-- `Read` into a slice of `m` bytes -/
def read (K : Kind) (s : Sponge) (m : Nat) : List Byte × Sponge := squeeze K m (if s.squeezing then s else padAndPermute K s)

/-- hasher.go:44-48, the function that `makeHasher` returns: the new contents of `dest` and the object -/
def call (K : Kind) (s : Sponge) (dest data : List Byte) : Go (List Byte × Sponge) := do
  let s := reset s
  let s ← write K s data
  if dest.length < K.outputLen then .error (.panic .slice)
  let (out, s) := read K s K.outputLen
  pure (out ++ dest.drop K.outputLen, s)

/-- a computation that uses a hasher -/
abbrev Using (α : Type) := StateT Sponge Go α

/-- a counting loop -/
def Using.forRange {σ : Type} (lo hi : Nat) (s : σ) (f : Nat → σ → Using σ) : Using σ :=
  fun h => Go.forRange lo hi (s, h) fun i p => f i p.1 p.2

/-- `keccak512Hasher(buf[off:], data)` -/
def hashAt (K : Kind) (buf : List Byte) (off : Nat) (data : List Byte) : Using (List Byte) := fun s => do
  if buf.length < off then .error (.panic .slice)
  let (tail, s) ← call K s (buf.drop off) data
  pure (buf.take off ++ tail, s)

/-- dag.go:69-81, with the hasher of line 75 -/
def seedHash (K : Kind) (d : Config) (height : U64) : Go (List Byte) := do
  let seed := List.replicate 32 (0 : Byte)
  if height < d.seedEpochLength then return seed
  let n ← udiv height d.seedEpochLength
  let (seed, _) ← (Using.forRange 0 n.toInt.toNat seed fun _ seed => hashAt K seed 0 seed).run fresh
  return seed

/-- generate.go:51, the iteration with `offset = 64 k` -/
def chainStep (K : Kind) (k : Nat) (cache : List Byte) : Using (List Byte) := do
  let offset := hashBytes * k
  let data ← slc cache (offset - hashBytes) offset
  hashAt K cache offset data

/-- generate.go:59-65, one iteration of the inner loop; the state is `(cache, temp)` -/
def memoStep (K : Kind) (rows : Nat) (j : Nat) (st : List Byte × List Byte) : Using (List Byte × List Byte) := do
  let (cache, temp) := st
  let srcOff := ((j + rows - 1) % rows) * hashBytes
  let dstOff := j * hashBytes
  let tail ← slc cache dstOff cache.length
  let w ← getU32 .little tail
  let r ← umod w (BitVec.ofNat 32 rows)
  let xorOff := r * BitVec.ofNat 32 hashBytes
  let a ← slc cache srcOff (srcOff + hashBytes)
  let b ← slc cache xorOff.toNat (xorOff + BitVec.ofNat 32 hashBytes).toNat
  let temp ← xorBytes temp a b
  let cache ← hashAt K cache dstOff temp
  pure (cache, temp)

/-- generate.go:34-68 `generateCache`, with the hasher of line 46 -/
def generateCache (K : Kind) (cacheRounds : Int) (dest : List U32) (seed : List Byte) : Go (List U32) := do
  let work : Using (List Byte) := do
    let cache := byteView dest
    let size := cache.length
    let rows := size / hashBytes
    let cache ← hashAt K cache 0 seed
    let cache ← Using.forRange 1 ((size + hashBytes - 1) / hashBytes) cache (chainStep K)
    let st ← Using.forRange 0 cacheRounds.toNat (cache, List.replicate hashBytes 0) fun _ st => Using.forRange 0 rows st (memoStep K rows)
    pure st.1
  let (cache, _) ← work.run fresh
  pure (wordView cache)

/-- generate.go:89-123 `generateDatasetItem`, with the hasher of the caller -/
def generateDatasetItem (K : Kind) (parents : U32) (cache : List U32) (index : U32) : Using (List Byte) := do
  let rows := BitVec.ofNat 32 (cache.length / hashWords)
  let mix := List.replicate hashBytes 0
  let r ← umod index rows
  let w ← idx cache (r * BitVec.ofNat 32 hashWords).toNat
  let mix ← putU32 .little mix 0 (w ^^^ index)
  let mix ← Go.forRange 1 hashWords mix (seedStep cache index rows)
  let mix ← hashAt K mix 0 mix
  let intMix ← Go.forRange 0 hashWords (List.replicate hashWords 0) (intStep mix)
  let intMix ← Go.forRange 0 parents.toNat intMix (parentStep cache index rows)
  let mix ← Go.forRange 0 intMix.length mix (flattenStep intMix)
  hashAt K mix 0 mix

/-- generate.go:128-132 -/
def itemStep (K : Kind) (parents : U32) (cache : List U32) (index size : U32) (n : Nat) (data : List U32) : Using (List U32) := do
  let item ← generateDatasetItem K parents cache (index * size + BitVec.ofNat 32 n)
  Go.forRange 0 hashWords data (itemWordStep item n)

/-- dag.go:171-196 `NewLookupFunc512`, `NewLookupFunc1024` and `NewLookupFunc2048` for `size` 1, 2 and 4: the returned function, with the
hasher that it keeps between calls; generate.go:125-136 -/
def lookup (K : Kind) (parents : U32) (cache : List U32) (size index : U32) : Using (List U32) :=
  Using.forRange 0 size.toNat (List.replicate (BitVec.ofNat 32 hashWords * size).toNat 0) (itemStep K parents cache index size)

/-- generate.go:82-83 -/
def l1Step (K : Kind) (parents : U32) (cache : List U32) (i : Nat) (l1 : List Byte) : Using (List Byte) := do
  let item ← generateDatasetItem K parents cache (BitVec.ofNat 32 i)
  copyAt l1 (i * hashBytes) item

/-- generate.go:70-85 `generateL1Cache`, with the hasher of line 71 -/
def generateL1Cache (K : Kind) (parents : U32) (dest cache : List U32) : Go (List U32) := do
  let l1 := byteView dest
  let size := l1.length
  let rows := size / hashBytes
  let (l1, _) ← (Using.forRange 0 rows l1 (l1Step K parents cache)).run fresh
  pure (wordView l1)

end Verif.Hasher
