import Verif.Go.Basic

/-! # Model of /repo/internal/common/convutil/convutil.go and /repo/internal/crypto/{fnv,blake}.go -/

set_option autoImplicit false

namespace Verif.Convutil

open Go

/-- convutil.go:9-11, one iteration: `byteOrder.PutUint32(buf[i*4:], v)` -/
def putStep (arr : List U32) (o : ByteOrder) (i : Nat) (buf : List Byte) : Go (List Byte) := do
  let v ← idx arr i
  putU32 o buf (i * 4) v

/-- convutil.go:7-14 `Uint32ArrayToBytes` -/
def uint32ArrayToBytes (arr : List U32) (o : ByteOrder) : Go (List Byte) :=
  forRange 0 arr.length (List.replicate (arr.length * 4) 0) (putStep arr o)

/-- convutil.go:19-21, one iteration: `arr[i] = byteOrder.Uint32(buf[i*4 : (i+1)*4])` -/
def getStep (buf : List Byte) (o : ByteOrder) (i : Nat) (arr : List U32) : Go (List U32) := do
  let b ← slc buf (i * 4) ((i + 1) * 4)
  let v ← getU32 o b
  upd arr i v

/-- convutil.go:16-24 `BytesToUint32Array` -/
def bytesToUint32Array (buf : List Byte) (o : ByteOrder) : Go (List U32) :=
  let length := buf.length / 4
  forRange 0 length (List.replicate length 0) (getStep buf o)

/-- convutil.go:26-31 `Uint32ToBytes` -/
def uint32ToBytes (v : U32) (o : ByteOrder) : Go (List Byte) := putU32 o (List.replicate 4 0) 0 v

/-- convutil.go:33-38 `Uint64ToBytes` -/
def uint64ToBytes (v : U64) (o : ByteOrder) : Go (List Byte) := putU64 o (List.replicate 8 0) 0 v

end Verif.Convutil

namespace Verif.Crypto

open Go

/-- fnv.go:9 -/
def fnvPrime : Nat := 0x01000193

/-- fnv.go:13-15 `Fnv1` -/
def fnv1 (u v : U32) : U32 := (u * BitVec.ofNat 32 fnvPrime) ^^^ v

/-- fnv.go:17-19 `Fnv1Uint64` -/
def fnv1Uint64 (u v : U64) : U64 := (u * BitVec.ofNat 64 fnvPrime) ^^^ v

/-- fnv.go:22-24 `Fnv1a` -/
def fnv1a (u v : U32) : U32 := (u ^^^ v) * BitVec.ofNat 32 fnvPrime

/-- fnv.go:29, one iteration of `FnvHash` -/
def fnvStep (data : List U32) (i : Nat) (mix : List U32) : Go (List U32) := do
  let m ← idx mix i
  let d ← idx data i
  upd mix i (fnv1 m d)

/-- fnv.go:27-31 `FnvHash`; the slice `mix`, mutated in place, is returned -/
def fnvHash (mix data : List U32) : Go (List U32) := forRange 0 mix.length mix (fnvStep data)

/-- blake.go:7-23 `Blake2b`. `uint8(size)` truncates. `blake2b.New` (github.com/dchest/blake2b v1.0.0, outside /repo)
returns an error exactly when the size exceeds 64 or the personalisation is longer than 16 bytes (key and salt are nil),
and treats size 0 as 64; on error blake.go:17-19 panics. -/
def blake2b (P : Prims) (data personal : List Byte) (size : Nat) : Go (List Byte) :=
  let sz := size % 256
  let sz := if sz = 0 then 64 else sz
  if 64 < sz ∨ 16 < personal.length then panic .explicit else .ok (P.blake2bRaw data personal sz)

/-- blake.go:25-28 `Blake2b256` -/
def blake2b256 (P : Prims) (data : List Byte) : List Byte := P.blake2b256 data

end Verif.Crypto
