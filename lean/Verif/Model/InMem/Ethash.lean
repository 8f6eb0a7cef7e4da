import Verif.Model.InMem.Autolykos
import Verif.Model.Hashimoto
import Verif.Model.Generate

/-! # Model of dataset items and of /repo/ethash/ethash.go with memory

/repo/internal/dag/generate.go:89-136, /repo/internal/dag/dag.go:171-196, /repo/internal/crypto/{fnv,hasher,keccak}.go. As in
`Verif.Model.Generate` and `Verif.Model.Hashimoto`, but slices are references into a heap; the cache is one of them. -/

set_option autoImplicit false

namespace Verif

open Go

namespace Crypto.InMem

/-- fnv.go:27-31 `FnvHash` -/
def fnvHash (mix data : Slice .word) : Mem Unit :=
  Mem.each 0 mix.len fun i => do
    let m ← Mem.idx mix i
    let d ← Mem.idx data i
    Mem.upd mix i (fnv1 m d)

/-- keccak.go:12-17 `Keccak256`: `h.Sum(nil)` -/
def keccak256 (P : Prims) (b : Slice .byte) : Mem (Slice .byte) := do
  let xs ← Mem.contents b
  Mem.fresh .byte (P.keccak256 xs)

/-- keccak.go:19-24 `Keccak512` -/
def keccak512 (P : Prims) (b : Slice .byte) : Mem (Slice .byte) := do
  let xs ← Mem.contents b
  Mem.fresh .byte (P.keccak512 xs)

/-- hasher.go:44-48 for Keccak-512: the input is absorbed before `dest[:outputLen]` is written -/
def keccak512Hasher (P : Prims) (dest data : Slice .byte) : Mem Unit := do
  let xs ← Mem.contents data
  let d ← Mem.slc dest 0 64
  Mem.blit d 0 (P.keccak512 xs)

end Crypto.InMem

namespace Dag.InMem

open Crypto.InMem

/-- generate.go:89-123 `generateDatasetItem` -/
def generateDatasetItem (P : Prims) (parents : U32) (cache : Slice .word) (index : U32) : Mem (Slice .byte) := do
  let rows := BitVec.ofNat 32 (cache.len / hashWords)
  let mix ← Mem.make .byte hashBytes
  let r ← Mem.lift (umod index rows)
  let w ← Mem.idx cache (r * BitVec.ofNat 32 hashWords).toNat
  Mem.put32 .little mix ((w : U32) ^^^ index)
  Mem.each 1 hashWords fun i => do
    let r ← Mem.lift (umod index rows)
    let w ← Mem.idx cache (r * BitVec.ofNat 32 hashWords + BitVec.ofNat 32 i).toNat
    Mem.putU32 .little mix (i * 4) w
  keccak512Hasher P mix mix
  let intMix ← Mem.make .word hashWords
  Mem.each 0 hashWords fun i => do
    let tail ← Mem.slc mix (i * 4) mix.len
    let w ← Mem.getU32 .little tail
    Mem.upd intMix i w
  Mem.each 0 parents.toNat fun i => do
    let m ← Mem.idx intMix (i % 16)
    let parent ← Mem.lift (umod (Crypto.fnv1 (index ^^^ BitVec.ofNat 32 i) m) rows)
    let data ← Mem.slc cache (parent * BitVec.ofNat 32 hashWords).toNat cache.len
    fnvHash intMix data
  Mem.each 0 intMix.len fun i => do
    let v ← Mem.idx intMix i
    Mem.putU32 .little mix (i * 4) v
  keccak512Hasher P mix mix
  pure mix

/-- generate.go:125-136 `generateDatasetItemUint` -/
def generateDatasetItemUint (P : Prims) (parents : U32) (cache : Slice .word) (index size : U32) : Mem (Slice .word) := do
  let data ← Mem.make .word (BitVec.ofNat 32 hashWords * size).toNat
  Mem.each 0 size.toNat fun n => do
    let item ← generateDatasetItem P parents cache (index * size + BitVec.ofNat 32 n)
    Mem.each 0 hashWords fun i => do
      let tail ← Mem.slc item (i * 4) item.len
      let w ← Mem.getU32 .little tail
      Mem.upd data (n * hashWords + i) w
  pure data

/-- dag.go:171-178 `NewLookupFunc512`, the returned function -/
def lookup512 (P : Prims) (parents : U32) (cache : Slice .word) (index : U32) : Mem (Slice .word) :=
  generateDatasetItemUint P parents cache index 1

/-- dag.go:189-196 `NewLookupFunc2048` -/
def lookup2048 (P : Prims) (parents : U32) (cache : Slice .word) (index : U32) : Mem (Slice .word) :=
  generateDatasetItemUint P parents cache index 4

end Dag.InMem

namespace Ethash.InMem

open Crypto.InMem

/-- a `func(index uint32) []uint32` -/
abbrev Lookup := U32 → Mem (Slice .word)

/-- ethash.go:57-61 -/
def round (lookup : Lookup) (rows seedHead : U32) (mix temp : Slice .word) (i : Nat) : Mem Unit := do
  let m ← Mem.idx mix (i % mix.len)
  let parent ← Mem.lift (umod (Crypto.fnv1 (BitVec.ofNat 32 i ^^^ seedHead) m) rows)
  Mem.each 0 (mixBytes / hashBytes) fun j => do
    let item ← lookup (2 * parent + BitVec.ofNat 32 j)
    Mem.copyAt temp (j * hashWords) item
  fnvHash mix temp

/-- ethash.go:36-76 `hashimoto` -/
def hashimoto (P : Prims) (hash : Slice .byte) (nonce datasetSize : U64) (lookup : Lookup) : Mem (Slice .byte × Slice .byte) := do
  let rows : U32 := (datasetSize / BitVec.ofNat 64 mixBytes).setWidth 32
  let seed ← Mem.make .byte 40
  Mem.copy seed hash
  Mem.putU64 .little seed 32 nonce
  let seed ← keccak512 P seed
  let seedHead ← Mem.getU32 .little seed
  let mix ← Mem.make .word (mixBytes / 4)
  Mem.each 0 (mixBytes / 4) fun i => do
    let tail ← Mem.slc seed (i % 16 * 4) seed.len
    let w ← Mem.getU32 .little tail
    Mem.upd mix i w
  let temp ← Mem.make .word mix.len
  Mem.each 0 hashimotoRounds (round lookup rows seedHead mix temp)
  Mem.each 0 (mix.len / 4) fun k => do
    let i := 4 * k
    let a ← Mem.idx mix i
    let b ← Mem.idx mix (i + 1)
    let c ← Mem.idx mix (i + 2)
    let d ← Mem.idx mix (i + 3)
    Mem.upd mix (i / 4) (Crypto.fnv1 (Crypto.fnv1 (Crypto.fnv1 a b) c) d)
  let mix ← Mem.slc mix 0 (mix.len / 4)
  let digest ← Mem.make .byte 32
  Mem.each 0 mix.len fun i => do
    let v ← Mem.idx mix i
    Mem.putU32 .little digest (i * 4) v
  let long ← Mem.append seed digest
  let result ← keccak256 P long
  pure (digest, result)

end Ethash.InMem

end Verif
