import Verif.Go.Heap
import Verif.Model.Autolykos

/-! # Model of /repo/autolykos2/autolykos2.go and /repo/internal/common/convutil/convutil.go with memory

As in `Verif.Model.Autolykos` and `Verif.Model.Convutil`, but slices and `*big.Int` are references into a heap. -/

set_option autoImplicit false

namespace Verif

open Go

namespace Convutil.InMem

/-- convutil.go:7-14 `Uint32ArrayToBytes` -/
def uint32ArrayToBytes (arr : Slice .word) (o : ByteOrder) : Mem (Slice .byte) := do
  let buf ← Mem.make .byte (arr.len * 4)
  Mem.each 0 arr.len fun i => do
    let v ← Mem.idx arr i
    Mem.putU32 o buf (i * 4) v
  pure buf

/-- convutil.go:16-24 `BytesToUint32Array` -/
def bytesToUint32Array (buf : Slice .byte) (o : ByteOrder) : Mem (Slice .word) := do
  let length := buf.len / 4
  let arr ← Mem.make .word length
  Mem.each 0 length fun i => do
    let b ← Mem.slc buf (i * 4) ((i + 1) * 4)
    let v ← Mem.getU32 o b
    Mem.upd arr i v
  pure arr

/-- convutil.go:26-31 `Uint32ToBytes` -/
def uint32ToBytes (v : U32) (o : ByteOrder) : Mem (Slice .byte) := do
  let data ← Mem.make .byte 4
  Mem.put32 o data v
  pure data

/-- convutil.go:33-38 `Uint64ToBytes` -/
def uint64ToBytes (v : U64) (o : ByteOrder) : Mem (Slice .byte) := do
  let data ← Mem.make .byte 8
  Mem.put64 o data v
  pure data

end Convutil.InMem

namespace Crypto.InMem

/-- blake.go:25-28 `Blake2b256`: the slice of an array of 32 bytes -/
def blake2b256 (P : Prims) (data : Slice .byte) : Mem (Slice .byte) := do
  let xs ← Mem.contents data
  Mem.lit .byte (P.blake2b256 xs)

end Crypto.InMem

namespace Autolykos.InMem

open Convutil.InMem Crypto.InMem

/-- autolykos2.go:17-23 `concatBytes` -/
def concatBytes (a b : Slice .byte) : Mem (Slice .byte) := do
  let c ← Mem.makeCap .byte a.len (a.len + b.len)
  Mem.copy c a
  Mem.append c b

/-- autolykos2.go:25-32 `generateM` -/
def generateM (size : Nat) : Mem (Slice .byte) := do
  let m ← Mem.make .byte (size * 8)
  Mem.each 0 size fun i => do
    let b ← Mem.slc m (i * 8) (i * 8 + 8)
    Mem.put64 .big b (BitVec.ofNat 64 i)
  pure m

/-- autolykos2.go:50-60 `genIndexes` -/
def genIndexes (P : Prims) (seed : Slice .byte) (k n : U32) : Mem (Slice .word) := do
  let hash ← blake2b256 P seed
  let extendedHash ← Mem.append hash hash
  let indexes ← Mem.make .word k.toNat
  Mem.each 0 k.toNat fun i => do
    let b ← Mem.slc extendedHash i (i + 4)
    let v ← Mem.getU32 .big b
    let r ← Mem.lift (umod v n)
    Mem.upd indexes i r
  pure indexes

/-- `new(big.Int).SetBytes(b)` -/
def setBytes (b : Slice .byte) : Mem (Slice .big) := do
  let xs ← Mem.contents b
  Mem.lit .big [beNat xs]

/-- autolykos2.go:81-85, one iteration -/
def sumStep (P : Prims) (h m : Slice .byte) (indexes : Slice .word) (f2 : Slice .big) (j : Nat) : Mem Unit := do
  let index ← Mem.idx indexes j
  let ib ← uint32ToBytes index .big
  let hm ← concatBytes h m
  let elem ← concatBytes ib hm
  let hash ← blake2b256 P elem
  let elemHash ← Mem.slc hash 1 hash.len
  let v ← setBytes elemHash
  let x ← Mem.idx f2 0
  let y ← Mem.idx v 0
  Mem.upd f2 0 (Nat.add x y)

/-- autolykos2.go:62-90 `compute` -/
def compute (P : Prims) (k nBase : U32) (msg : Slice .byte) (nonce height : U64) : Mem (Slice .byte) := do
  let m ← generateM 1024
  let h ← uint32ToBytes (height.setWidth 32) .big
  let nonceBytes ← uint64ToBytes nonce .big
  let n ← Mem.lift (calcN nBase height)
  let bigN ← Mem.lit .big [(n.setWidth 64 : U64).toNat]
  let fullMsg ← concatBytes msg nonceBytes
  let msgHash ← blake2b256 P fullMsg
  let tail ← Mem.slc msgHash 24 32
  let prei8 ← setBytes tail
  let x ← Mem.idx prei8 0
  let y ← Mem.idx bigN 0
  let r ← Mem.lift (bigMod x y)
  Mem.upd prei8 0 r
  let r ← Mem.idx prei8 0
  let i ← uint32ToBytes ((BitVec.ofNat 64 r : U64).setWidth 32) .big
  let hm ← concatBytes h m
  let ihm ← concatBytes i hm
  let fh ← blake2b256 P ihm
  let f ← Mem.slc fh 1 32
  let mn ← concatBytes msg nonceBytes
  let seed ← concatBytes f mn
  let indexes ← genIndexes P seed k n
  let f2 ← Mem.lit .big [0]
  Mem.each 0 indexes.len (sumStep P h m indexes f2)
  let s ← Mem.idx f2 0
  let bs ← Mem.fresh .byte (bigBytes s)
  blake2b256 P bs

/-- client.go:27-33 `Compute`; `none` is the error result -/
def clientCompute (P : Prims) (c : Client) (msg : Slice .byte) (height nonce : U64) : Mem (Option (Slice .byte)) :=
  if msg.len ≠ 32 then pure none
  else do
    let d ← compute P c.k c.nBase msg nonce height
    pure (some d)

end Autolykos.InMem

end Verif
