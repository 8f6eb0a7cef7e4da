import Verif.Model.InMem.Ethash
import Verif.Model.Octopus

/-! # Model of /repo/octopus/octopus.go with memory

As in `Verif.Model.Octopus`, but slices are references into a heap. -/

set_option autoImplicit false

namespace Verif.Octopus.InMem

open Go Siphash Crypto.InMem Convutil.InMem

/-- a `func(index uint32) []uint32` -/
abbrev Lookup := U32 → Mem (Slice .word)

/-- octopus.go:96-97, one iteration -/
def dataStep (d : Slice .word) (i : Nat) (j : Nat) (hasher : SipHasher) : Mem SipHasher := do
  let hasher := sipRound hasher
  Mem.upd d (j * powWarpSize + i) (((xorLanes hasher &&& 0xffffffff) % powMod).setWidth 32)
  pure hasher

/-- octopus.go:92-99 -/
def fill (v0 v1 v2 v3 warpID : U64) (d : Slice .word) : Mem Unit :=
  Mem.each 0 powWarpSize fun i => do
    let hasher := newSipHasher ⟨v0, v1, v2, v3⟩
    let hasher := hash24 hasher (warpID * BitVec.ofNat 64 powWarpSize + BitVec.ofNat 64 i)
    let _ ← Mem.forRange 0 powDataPerThread hasher (dataStep d i)
    pure ()

/-- octopus.go:121, one iteration -/
def hornerStep (d : Slice .word) (x : U64) (j : Nat) (pv : U64) : Mem U64 := do
  let c ← Mem.idx d (powN - j - 1)
  pure ((pv * x + BitVec.setWidth 64 (c : U32)) % powMod)

/-- octopus.go:117-129, one iteration; the state is `(wpow, w2pow, result)` -/
def evalStep (a b c wpowFull w2powFull : U64) (d resBuf : Slice .word) (i : Nat) (s : U64 × U64 × U64) : Mem (U64 × U64 × U64) := do
  let (wpow, w2pow, result) := s
  let x := (a * w2pow + b * wpow + c) % powMod
  let pv ← Mem.forRange 0 powN 0 (hornerStep d x)
  Mem.upd resBuf i (BitVec.setWidth 32 pv)
  let result := Crypto.fnv1Uint64 result pv
  if i + 1 < powDataPerThread then
    pure (wpow * wpowFull % powMod, w2pow * w2powFull % powMod, result)
  else
    pure (wpow, w2pow, result)

/-- octopus.go:101-130 -/
def evaluate (a b c w nonce : U64) (d : Slice .word) : Mem (U64 × Slice .word) := do
  let w2 := w * w % powMod
  let t := nonce % BitVec.ofNat 64 powWarpSize
  let pows ← Mem.lift (Go.forRange 0 t.toNat (1, 1) (powStep w w2))
  let full ← Mem.lift (Go.forRange t.toNat powWarpSize pows (powStep w w2))
  let resBuf ← Mem.make .word powDataPerThread
  let s ← Mem.forRange 0 powDataPerThread (pows.1, pows.2, 0) (evalStep a b c full.1 full.2 d resBuf)
  pure (s.2.2, resBuf)

/-- octopus.go:132-135 -/
def initHalfMix (P : Prims) (hash : Slice .byte) (result : U64) : Mem (Slice .byte) := do
  let halfMix ← Mem.make .byte nodeBytes
  Mem.copy halfMix hash
  Mem.putU64 .little halfMix hash.len result
  let data ← Mem.slc halfMix 0 (hash.len + 8)
  keccak512 P data

/-- octopus.go:150-156, one iteration; the `a` of the range is read when its iteration begins -/
def nodeStep (lookup : Lookup) (page : U32) (mix : Slice .word) (n : Nat) : Mem Unit := do
  let tmpNode ← lookup (page * BitVec.ofNat 32 mixNodes + BitVec.ofNat 32 n)
  let part ← Mem.slc mix (n * mixNodes * 4) ((n + 1) * mixNodes * 4)
  Mem.each 0 part.len fun l => do
    let a ← Mem.idx part l
    let t ← Mem.idx tmpNode l
    Mem.upd mix (n * mixNodes * 4 + l) (Crypto.fnv1 a t)

/-- octopus.go:148-157, one iteration -/
def accessStep (lookup : Lookup) (firstVal numFullPages : U32) (resBuf mix : Slice .word) (i : Nat) : Mem Unit := do
  let r ← Mem.idx resBuf i
  let m ← Mem.idx mix (i % mixWords)
  let page ← Mem.lift (umod (Crypto.fnv1 (firstVal ^^^ BitVec.ofNat 32 i ^^^ r) m) numFullPages)
  Mem.each 0 mixNodes (nodeStep lookup page mix)

/-- octopus.go:165-168 and 170-173 -/
def reduce4 (mix : Slice .word) (w : Nat) : Mem U32 := do
  let r ← Mem.idx mix (w + 0)
  let m ← Mem.idx mix (w + 1)
  let r : U32 := r * BitVec.ofNat 32 Crypto.fnvPrime ^^^ m
  let m ← Mem.idx mix (w + 2)
  let r : U32 := r * BitVec.ofNat 32 Crypto.fnvPrime ^^^ m
  let m ← Mem.idx mix (w + 3)
  pure ((r * BitVec.ofNat 32 Crypto.fnvPrime ^^^ m : U32))

/-- octopus.go:137-181: `append` may write into the array of `mix` -/
def mixing (P : Prims) (halfMix : Slice .byte) (resBuf : Slice .word) (datasetSize : U64) (lookup : Lookup) : Mem (Slice .byte) := do
  let mix ← Mem.lit .byte []
  let mix ← Mem.forRange 0 4 mix fun _ mix => Mem.append mix halfMix
  let pageSize := 4 * mixWords
  let numFullPages : U32 := (datasetSize / BitVec.ofNat 64 pageSize).setWidth 32
  let head ← Mem.slc halfMix 0 4
  let firstVal ← Mem.getU32 .little head
  let mixUWords ← bytesToUint32Array mix .little
  Mem.each 0 powAccesses (accessStep lookup firstVal numFullPages resBuf mixUWords)
  let compressWords ← Mem.make .word 8
  Mem.each 0 8 fun i => do
    let reduction ← reduce4 mixUWords (i * 4)
    let reduction2 ← reduce4 mixUWords ((8 + i) * 4)
    Mem.upd compressWords i (reduction * BitVec.ofNat 32 Crypto.fnvPrime ^^^ reduction2)
  let compressBytes ← uint32ArrayToBytes compressWords .little
  let front ← Mem.slc mix 0 nodeBytes
  let long ← Mem.append front compressBytes
  keccak256 P long

/-- octopus.go:79-182 `octopus` -/
def octopus (P : Prims) (fuel : Nat) (hash : Slice .byte) (nonce datasetSize : U64) (lookup : Lookup) : Mem (Slice .byte) := do
  let v0 ← Mem.slc hash 0 8 >>= Mem.getU64 .little
  let v1 ← Mem.slc hash 8 16 >>= Mem.getU64 .little
  let v2 ← Mem.slc hash 16 24 >>= Mem.getU64 .little
  let v3 ← Mem.slc hash 24 32 >>= Mem.getU64 .little
  let d ← Mem.make .word powN
  let a ← Mem.lift (remap fuel v0)
  let b ← Mem.lift (remap fuel v1)
  let c ← Mem.lift (computeC fuel a b v2)
  let w ← Mem.lift (remap fuel v3)
  let warpID := nonce / BitVec.ofNat 64 powWarpSize
  fill v0 v1 v2 v3 warpID d
  let (result, resBuf) ← evaluate a b c w nonce d
  let halfMix ← initHalfMix P hash result
  mixing P halfMix resBuf datasetSize lookup

end Verif.Octopus.InMem
