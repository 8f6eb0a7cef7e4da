import Verif.Go.Basic
import Verif.Model.Convutil

/-! # Model of /repo/internal/dag/generate.go, the hashers of /repo/internal/crypto/hasher.go and the lookup functions of
/repo/internal/dag/dag.go:171-196

* The byte views that generate.go:36-39 and 73-76 make of a `[]uint32` with `reflect.SliceHeader` are the little-endian
  encodings of the words: the host is taken to be little-endian (amd64, arm64).
* `int` values here are byte offsets into an object that exists, so they do not overflow and are natural numbers; the
  `uint32` arithmetic of the code is kept as it is.
* `XORBytes` is used on operands that do not overlap with its destination; on those it is the list function `xorBytes`
  below (see `C37_xorBytes` in `Verif.Props.Generate`, which derives this from the model of the assembly).
* A hasher absorbs all of its input before it writes its output, so the input may alias the destination. -/

set_option autoImplicit false

namespace Verif.Dag

open Go

/-- config.go:20 -/
def hashBytes : Nat := 64

/-- config.go:21 -/
def hashWords : Nat := 16

/-- hasher.go:44-48 for the Keccak-512 hasher (lines 55-57), called as `keccak512Hasher(buf[off:], data)`: writes the digest to
the 64 bytes from `off`; `buf[off:]` or `dest[:outputLen]` panics when they are not there -/
def keccak512At (P : Prims) (buf : List Byte) (off : Nat) (data : List Byte) : Go (List Byte) :=
  if buf.length < off + 64 then panic .slice else .ok (buf.take off ++ P.keccak512 data ++ buf.drop (off + 64))

/-- hasher.go:44-48 for the Keccak-256 hasher (lines 51-53), called as `keccak256Hasher(buf, data)` -/
def keccak256At (P : Prims) (buf : List Byte) (data : List Byte) : Go (List Byte) :=
  if buf.length < 32 then panic .slice else .ok (P.keccak256 data ++ buf.drop 32)

/-- `bitutil.XORBytes(dst, a, b)` for operands disjoint from `dst` -/
def xorBytes (dst a b : List Byte) : Go (List Byte) :=
  let n := min a.length b.length
  if dst.length < n then panic .index else .ok (List.zipWith (· ^^^ ·) a b ++ dst.drop n)

/-- generate.go:36-39 (and 73-76): the byte view of a word slice -/
def byteView (w : List U32) : List Byte := w.flatMap (leBytes 4)

/-- the words of a byte view -/
def wordView (b : List Byte) : List U32 :=
  (List.range (b.length / 4)).map fun i => BitVec.ofNat 32 (leNat ((b.drop (4 * i)).take 4))

/-- generate.go:51, the iteration with `offset = 64 k` -/
def chainStep (P : Prims) (k : Nat) (cache : List Byte) : Go (List Byte) := do
  let offset := hashBytes * k
  let data ← slc cache (offset - hashBytes) offset
  keccak512At P cache offset data

/-- generate.go:59-65, one iteration of the inner loop; the state is `(cache, temp)` -/
def memoStep (P : Prims) (rows : Nat) (j : Nat) (st : List Byte × List Byte) : Go (List Byte × List Byte) := do
  let (cache, temp) := st
  let srcOff := ((j + rows - 1) % rows) * hashBytes
  let dstOff := j * hashBytes
  let tail ← slc cache dstOff cache.length
  let w ← getU32 .little tail
  let r ← umod w (BitVec.ofNat 32 rows)
  let xorOff := r * BitVec.ofNat 32 hashBytes
  let a ← slc cache srcOff (srcOff + hashBytes)
  let b ← slc cache xorOff.toNat (xorOff + BitVec.ofNat 32 hashBytes).toNat
  let temp ← xorBytes temp a b
  let cache ← keccak512At P cache dstOff temp
  pure (cache, temp)

/-- generate.go:58-66, one pass -/
def memoPass (P : Prims) (rows : Nat) (_ : Nat) (st : List Byte × List Byte) : Go (List Byte × List Byte) :=
  forRange 0 rows st (memoStep P rows)

/-- generate.go:42-67: the work on the byte view; `CacheRounds` is an `int` -/
def generateCacheBytes (P : Prims) (cacheRounds : Int) (cache seed : List Byte) : Go (List Byte) := do
  let size := cache.length
  let rows := size / hashBytes
  let cache ← keccak512At P cache 0 seed
  let cache ← forRange 1 ((size + hashBytes - 1) / hashBytes) cache (chainStep P)
  let st ← forRange 0 cacheRounds.toNat (cache, List.replicate hashBytes 0) (memoPass P rows)
  pure st.1

/-- generate.go:34-68 `generateCache`; the mutated `dest` is returned -/
def generateCache (P : Prims) (cacheRounds : Int) (dest : List U32) (seed : List Byte) : Go (List U32) := do
  let cache ← generateCacheBytes P cacheRounds (byteView dest) seed
  pure (wordView cache)

/-- generate.go:98 -/
def seedStep (cache : List U32) (index rows : U32) (i : Nat) (mix : List Byte) : Go (List Byte) := do
  let r ← umod index rows
  let w ← idx cache (r * BitVec.ofNat 32 hashWords + BitVec.ofNat 32 i).toNat
  putU32 .little mix (i * 4) w

/-- generate.go:106 -/
def intStep (mix : List Byte) (i : Nat) (intMix : List U32) : Go (List U32) := do
  let tail ← slc mix (i * 4) mix.length
  let w ← getU32 .little tail
  upd intMix i w

/-- generate.go:111-112 -/
def parentStep (cache : List U32) (index rows : U32) (i : Nat) (intMix : List U32) : Go (List U32) := do
  let m ← idx intMix (i % 16)
  let parent ← umod (Crypto.fnv1 (index ^^^ BitVec.ofNat 32 i) m) rows
  let data ← slc cache (parent * BitVec.ofNat 32 hashWords).toNat cache.length
  Crypto.fnvHash intMix data

/-- generate.go:117 -/
def flattenStep (intMix : List U32) (i : Nat) (mix : List Byte) : Go (List Byte) := do
  let v ← idx intMix i
  putU32 .little mix (i * 4) v

/-- generate.go:89-123 `generateDatasetItem` -/
def generateDatasetItem (P : Prims) (parents : U32) (cache : List U32) (index : U32) : Go (List Byte) := do
  let rows := BitVec.ofNat 32 (cache.length / hashWords)
  let mix := List.replicate hashBytes 0
  let r ← umod index rows
  let w ← idx cache (r * BitVec.ofNat 32 hashWords).toNat
  let mix ← putU32 .little mix 0 (w ^^^ index)
  let mix ← forRange 1 hashWords mix (seedStep cache index rows)
  let mix ← keccak512At P mix 0 mix
  let intMix ← forRange 0 hashWords (List.replicate hashWords 0) (intStep mix)
  let intMix ← forRange 0 parents.toNat intMix (parentStep cache index rows)
  let mix ← forRange 0 intMix.length mix (flattenStep intMix)
  keccak512At P mix 0 mix

/-- generate.go:131 -/
def itemWordStep (item : List Byte) (n i : Nat) (data : List U32) : Go (List U32) := do
  let tail ← slc item (i * 4) item.length
  let w ← getU32 .little tail
  upd data (n * hashWords + i) w

/-- generate.go:128-132 -/
def itemStep (P : Prims) (parents : U32) (cache : List U32) (index size : U32) (n : Nat) (data : List U32) : Go (List U32) := do
  let item ← generateDatasetItem P parents cache (index * size + BitVec.ofNat 32 n)
  forRange 0 hashWords data (itemWordStep item n)

/-- generate.go:125-136 `generateDatasetItemUint` -/
def generateDatasetItemUint (P : Prims) (parents : U32) (cache : List U32) (index size : U32) : Go (List U32) :=
  forRange 0 size.toNat (List.replicate (BitVec.ofNat 32 hashWords * size).toNat 0) (itemStep P parents cache index size)

/-- generate.go:82-83 -/
def l1Step (P : Prims) (parents : U32) (cache : List U32) (i : Nat) (l1 : List Byte) : Go (List Byte) := do
  let item ← generateDatasetItem P parents cache (BitVec.ofNat 32 i)
  copyAt l1 (i * hashBytes) item

/-- generate.go:70-85 `generateL1Cache`; the mutated `dest` is returned -/
def generateL1Cache (P : Prims) (parents : U32) (dest cache : List U32) : Go (List U32) := do
  let l1 := byteView dest
  let size := l1.length
  let rows := size / hashBytes
  let l1 ← forRange 0 rows l1 (l1Step P parents cache)
  pure (wordView l1)

/-- dag.go:171-178 `NewLookupFunc512`, the returned function -/
def lookup512 (P : Prims) (parents : U32) (cache : List U32) (index : U32) : Go (List U32) :=
  generateDatasetItemUint P parents cache index 1

/-- dag.go:180-187 `NewLookupFunc1024` -/
def lookup1024 (P : Prims) (parents : U32) (cache : List U32) (index : U32) : Go (List U32) :=
  generateDatasetItemUint P parents cache index 2

/-- dag.go:189-196 `NewLookupFunc2048` -/
def lookup2048 (P : Prims) (parents : U32) (cache : List U32) (index : U32) : Go (List U32) :=
  generateDatasetItemUint P parents cache index 4

end Verif.Dag
