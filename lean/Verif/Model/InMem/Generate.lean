import Verif.Model.Disk
import Verif.Model.InMem.Ethash

/-! # Cache generation with memory

/repo/internal/dag/generate.go:34-85, /repo/internal/dag/dag.go:69-81 and /repo/internal/dag/cache.go:42-60. As in `Verif.Model.Generate`, `Verif.Model.Dag`
and `Verif.Model.Disk`, but slices are references into a heap: `generateCache` and `generateL1Cache` write through a byte view to the `[]uint32` that
they are given. Only the branch of `generate` for an empty `StorageDir` is here; the buffers of mapped files are `dest` of the same functions. -/

set_option autoImplicit false

namespace Verif.Dag.InMem

open Go Crypto.InMem

/-- generate.go:36-39, 73-76: a `[]byte` made of the header of a `[]uint32`, whose length and capacity are multiplied by 4. The array is one of words; offset,
length and capacity are in bytes. The host is little-endian, as in `Verif.Model.Generate`. -/
structure View where
  arr : Nat
  off : Nat
  len : Nat
  cap : Nat

/-- generate.go:36-39, 73-76 -/
def View.of (s : Slice .word) : View := ⟨s.arr, 4 * s.off, 4 * s.len, 4 * s.cap⟩

/-- the bytes of the array -/
def View.array (v : View) : Mem (List Byte) := do
  let a ← Mem.array (⟨v.arr, 0, 0, 0⟩ : Slice .word)
  pure (byteView a)

/-- the elements of a view -/
def View.contents (v : View) : Mem (List Byte) := do
  let a ← v.array
  pure ((a.drop v.off).take v.len)

/-- `v[lo:hi]` -/
def View.slc (v : View) (lo hi : Nat) : Mem View :=
  if lo ≤ hi ∧ hi ≤ v.cap then pure ⟨v.arr, v.off + lo, hi - lo, v.cap - lo⟩ else Mem.lift (panic .slice)

/-- overwrite the first bytes of a view; they exist -/
def View.blit (v : View) (bs : List Byte) : Mem Unit := do
  let a ← v.array
  Mem.blit (⟨v.arr, 0, 0, 0⟩ : Slice .word) 0 (wordView (a.take v.off ++ bs ++ a.drop (v.off + bs.length)))

/-- hasher.go:44-48 for Keccak-512 writing to a view; `xs` is the input, which is absorbed before -/
def hashToView (P : Prims) (dest : View) (xs : List Byte) : Mem Unit := do
  let d ← dest.slc 0 64
  d.blit (P.keccak512 xs)

/-- generate.go:51, the iteration with `offset = 64 k` -/
def chain (P : Prims) (cache : View) (k : Nat) : Mem Unit := do
  let offset := hashBytes * k
  let dest ← cache.slc offset cache.len
  let data ← cache.slc (offset - hashBytes) offset
  let xs ← data.contents
  hashToView P dest xs

/-- bitutil/xor.go: `XORBytes(dst, a, b)` with `dst` in another array than `a` and `b` (cf. `Dag.xorBytes`) -/
def xorViews (dst : Slice .byte) (a b : View) : Mem Unit := do
  let xs ← a.contents
  let ys ← b.contents
  if dst.len < min xs.length ys.length then Mem.lift (panic .index)
  else Mem.blit dst 0 (List.zipWith (· ^^^ ·) xs ys)

/-- generate.go:59-65 -/
def memo (P : Prims) (cache : View) (temp : Slice .byte) (rows : Nat) (j : Nat) : Mem Unit := do
  let srcOff := ((j + rows - 1) % rows) * hashBytes
  let dstOff := j * hashBytes
  let tail ← cache.slc dstOff cache.len
  let ws ← tail.contents
  let w ← Mem.lift (getU32 .little ws)
  let r ← Mem.lift (umod w (BitVec.ofNat 32 rows))
  let xorOff := r * BitVec.ofNat 32 hashBytes
  let a ← cache.slc srcOff (srcOff + hashBytes)
  let b ← cache.slc xorOff.toNat (xorOff + BitVec.ofNat 32 hashBytes).toNat
  xorViews temp a b
  let dest ← cache.slc dstOff cache.len
  let xs ← Mem.contents temp
  hashToView P dest xs

/-- generate.go:34-68 `generateCache` -/
def generateCache (P : Prims) (cacheRounds : Int) (dest : Slice .word) (seed : Slice .byte) : Mem Unit := do
  let cache := View.of dest
  let size := cache.len
  let rows := size / hashBytes
  let xs ← Mem.contents seed
  hashToView P cache xs
  Mem.each 1 ((size + hashBytes - 1) / hashBytes) (chain P cache)
  let temp ← Mem.make .byte hashBytes
  Mem.each 0 cacheRounds.toNat fun _ => Mem.each 0 rows (memo P cache temp rows)

/-- `copy(v, s)` for a view and a byte slice -/
def View.copy (v : View) (s : Slice .byte) : Mem Unit := do
  let xs ← Mem.contents s
  v.blit (xs.take v.len)

/-- generate.go:70-85 `generateL1Cache` -/
def generateL1Cache (P : Prims) (parents : U32) (dest cache : Slice .word) : Mem Unit := do
  let l1 := View.of dest
  let size := l1.len
  let rows := size / hashBytes
  Mem.each 0 rows fun i => do
    let item ← generateDatasetItem P parents cache (BitVec.ofNat 32 i)
    let d ← l1.slc (i * hashBytes) l1.len
    d.copy item

/-- hasher.go:44-48 for Keccak-256 -/
def keccak256Hasher (P : Prims) (dest data : Slice .byte) : Mem Unit := do
  let xs ← Mem.contents data
  let d ← Mem.slc dest 0 32
  Mem.blit d 0 (P.keccak256 xs)

/-- dag.go:69-81 `SeedHash` -/
def seedHash (P : Prims) (d : Config) (height : U64) : Mem (Slice .byte) := do
  let seed ← Mem.make .byte 32
  if height < d.seedEpochLength then pure seed
  else do
    let n ← Mem.lift (udiv height d.seedEpochLength)
    Mem.each 0 n.toInt.toNat fun _ => keccak256Hasher P seed seed
    pure seed

/-- the nil slice of words: it has no cell, so the array does not matter -/
def nilWords : Slice .word := ⟨0, 0, 0, 0⟩

/-- cache.go:44-60, the body of `once.Do` when `StorageDir` is empty: the slices that `Cache()` and `L1()` return afterwards -/
def generate (P : Prims) (fuel : Nat) (d : Config) (epoch : U64) : Mem (Slice .word × Slice .word) := do
  let size ← Mem.lift (cacheSize fuel d epoch)
  let seed ← seedHash P d (epoch * d.epochLength + 1)
  let cache ← Mem.make .word (size / 4).toNat
  generateCache P d.cacheRounds cache seed
  if d.l1Enabled then do
    let l1 ← Mem.make .word d.l1CacheNumItems.toNat
    generateL1Cache P d.datasetParents l1 cache
    pure (cache, l1)
  else pure (cache, nilWords)

end Verif.Dag.InMem
