import Verif.Model.Disk

/-! # The byte order of the host: /repo/internal/dag/generate.go and mmap.go on a machine of either kind

generate.go:36-39, 73-76 and mmap.go:95-100 look at the same memory as bytes and as `uint32`s, so what they compute depends on the
byte order of the machine. The other models take it to be little-endian; here it is a parameter. Everything else in these functions
uses `binary.LittleEndian` and does not depend on it. -/

set_option autoImplicit false

namespace Verif.Dag

open Go

/-- generate.go:36-39 (and 73-76): the bytes in which a machine of the given byte order stores some words -/
def byteViewOn (order : ByteOrder) (w : List U32) : List Byte := w.flatMap (bytesOf order 4)

/-- mmap.go:95-100: the words that a machine of the given byte order sees in some bytes -/
def wordViewOn (order : ByteOrder) (b : List Byte) : List U32 :=
  (List.range (b.length / 4)).map fun i => BitVec.ofNat 32 (natOf order ((b.drop (4 * i)).take 4))

/-- generate.go:34-68 `generateCache` -/
def generateCacheOn (order : ByteOrder) (P : Prims) (cacheRounds : Int) (dest : List U32) (seed : List Byte) : Go (List U32) := do
  let cache ← generateCacheBytes P cacheRounds (byteViewOn order dest) seed
  pure (wordViewOn order cache)

/-- generate.go:70-85 `generateL1Cache` -/
def generateL1CacheOn (order : ByteOrder) (P : Prims) (parents : U32) (dest cache : List U32) : Go (List U32) := do
  let l1 := byteViewOn order dest
  let size := l1.length
  let rows := size / hashBytes
  let l1 ← forRange 0 rows l1 (l1Step P parents cache)
  pure (wordViewOn order l1)

/-- mmap.go:51-78 with the contents of the opened file -/
def memoryMapContentOn (order : ByteOrder) (content : List Byte) (lock : Bool) (o : MapEnv) : Go (Option (List U32)) :=
  if o.mapFails || content.length = 0 then .ok none
  else do
    let r ← forRangeE 0 dumpMagic.length () (magicStep (wordViewOn order content))
    match r with
    | .ret _ => return none
    | .cont _ => mapped (wordViewOn order content) lock o

/-- mmap.go:147-149: what is in the file of `n` bytes after it was filled -/
def fillContentOn (order : ByteOrder) (n : Nat) (generator : List U32 → Go (List U32)) : Go (List Byte) := do
  let zeros : List Byte := List.replicate n 0
  let buffer := wordViewOn order zeros
  let buffer := dumpMagic.take buffer.length ++ buffer.drop dumpMagic.length
  let data ← slc buffer dumpMagic.length buffer.length
  let data ← generator data
  return byteViewOn order (buffer.take dumpMagic.length ++ data) ++ zeros.drop (4 * buffer.length)

end Verif.Dag
