import Verif.Model.InMem.Ethash
import Verif.Model.Kawpow

/-! # Model of /repo/internal/progpow/algorithm.go, /repo/kawpow/kawpow.go, /repo/firopow/firopow.go and progpow094.go with memory

As in `Verif.Model.Progpow` and `Verif.Model.Kawpow`, but the slices of words and bytes are references into a heap: the rows of `mix`, the item,
`dsts`, `sels`, `laneHash`, `mixHash`, and the L1 cache. The outer slice of `mix` is a list of references; it is made in `initMix` and its entries
never change. The two sequences of a `mixRngState` are values: `initMixRngState` makes them and nothing else refers to them. Arrays
`[25]uint32` are values in Go too. -/

set_option autoImplicit false

namespace Verif.Progpow.InMem

open Go Crypto Convutil.InMem

/-- a `dag.LookupFunc` -/
abbrev Lookup := U32 → Mem (Slice .word)

/-- algorithm.go:36-44, one iteration -/
def laneInit (z w : U32) (numRegs : Nat) (lane : Nat) (mix : List (Slice .word)) : Mem (List (Slice .word)) := do
  let jsr := fnv1a w (BitVec.ofNat 32 lane)
  let jcong := fnv1a jsr (BitVec.ofNat 32 lane)
  let rng : Kiss99 := ⟨z, w, jsr, jcong⟩
  let row ← Mem.make .word numRegs
  let _ ← Mem.forRange 0 numRegs rng fun reg rng => do
    let (v, rng) := rng.next
    Mem.upd row reg v
    pure rng
  Mem.lift (Go.upd mix lane row)

/-- algorithm.go:30-48; a nil slice refers to no cell -/
def initMix (seed : U64) (numLanes numRegs : Nat) : Mem (List (Slice .word)) :=
  let z := fnv1a fnvOffsetBasis (seed.setWidth 32)
  let w := fnv1a z ((seed >>> 32).setWidth 32)
  Mem.forRange 0 numLanes (List.replicate numLanes ⟨0, 0, 0, 0⟩) (laneInit z w numRegs)

/-- `mix[l][dst] = randomMerge(mix[l][dst], data, sel)` (algorithm.go:67, 85 and 107) -/
def mergeAt (mix : List (Slice .word)) (l : Nat) (dst data sel : U32) : Mem Unit := do
  let row ← Mem.lift (Go.idx mix l)
  let a ← Mem.idx row dst.toNat
  Mem.upd row dst.toNat (randomMerge a data sel)

/-- algorithm.go:66-67, one iteration -/
def cacheLane (cfg : Config) (l1 : Slice .word) (src dst sel : U32) (mix : List (Slice .word)) (l : Nat) : Mem Unit := do
  let row ← Mem.lift (Go.idx mix l)
  let x ← Mem.idx row src.toNat
  let offset ← Mem.lift (umod x (cfg.cacheBytes / 4))
  let data ← Mem.idx l1 offset.toNat
  mergeAt mix l dst data sel

/-- algorithm.go:61-68 -/
def cacheOp (cfg : Config) (l1 : Slice .word) (mix : List (Slice .word)) (state : MixRngState) : Mem MixRngState := do
  let (src, state) ← Mem.lift state.nextSrc
  let (dst, state) ← Mem.lift state.nextDst
  let (sel, state) := state.nextRng
  Mem.each 0 cfg.laneCount (cacheLane cfg l1 src dst sel mix)
  pure state

/-- algorithm.go:84-85, one iteration -/
def mathLane (src1 src2 sel1 dst sel2 : U32) (mix : List (Slice .word)) (l : Nat) : Mem Unit := do
  let row ← Mem.lift (Go.idx mix l)
  let a ← Mem.idx row src1.toNat
  let b ← Mem.idx row src2.toNat
  mergeAt mix l dst (randomMath a b sel1) sel2

/-- algorithm.go:72-86 -/
def mathOp (cfg : Config) (mix : List (Slice .word)) (state : MixRngState) : Mem MixRngState := do
  let regs := BitVec.ofNat 32 cfg.registerCount
  let (v, state) := state.nextRng
  let srcRand ← Mem.lift (umod v (regs * BitVec.ofInt 32 ((cfg.registerCount : Int) - 1)))
  let src1 ← Mem.lift (umod srcRand regs)
  let src2 ← Mem.lift (udiv srcRand regs)
  let src2 := if src2 ≥ src1 then src2 + 1 else src2
  let (sel1, state) := state.nextRng
  let (dst, state) ← Mem.lift state.nextDst
  let (sel2, state) := state.nextRng
  Mem.each 0 cfg.laneCount (mathLane src1 src2 sel1 dst sel2 mix)
  pure state

/-- algorithm.go:59-88, one iteration -/
def opStep (cfg : Config) (l1 : Slice .word) (mix : List (Slice .word)) (i : Nat) (state : MixRngState) : Mem MixRngState := do
  let state ← if i < cfg.roundCacheAccesses then cacheOp cfg l1 mix state else pure state
  if i < cfg.roundMathOperations then mathOp cfg mix state else pure state

/-- algorithm.go:93-101, one iteration -/
def dagDraw (dsts sels : Slice .word) (i : Nat) (state : MixRngState) : Mem MixRngState := do
  let (dst, state) ← Mem.lift (dagDst i state)
  Mem.upd dsts i dst
  let (sel, state) := state.nextRng
  Mem.upd sels i sel
  pure state

/-- algorithm.go:106-107, one iteration -/
def dagWord (item dsts sels : Slice .word) (offset : U32) (mix : List (Slice .word)) (l : Nat) (i : Nat) : Mem Unit := do
  let word ← Mem.idx item (offset + BitVec.ofNat 32 i).toNat
  let dst ← Mem.idx dsts i
  let sel ← Mem.idx sels i
  mergeAt mix l dst word sel

/-- algorithm.go:104-108, one iteration -/
def dagLane (cfg : Config) (r : U32) (numWordsPerLane : Nat) (item dsts sels : Slice .word) (mix : List (Slice .word)) (l : Nat) : Mem Unit := do
  let q ← Mem.lift (umod (BitVec.ofNat 32 l ^^^ r) (BitVec.ofNat 32 cfg.laneCount))
  let offset := q * BitVec.ofNat 32 numWordsPerLane
  Mem.each 0 numWordsPerLane (dagWord item dsts sels offset mix l)

/-- algorithm.go:50-112; the returned slice is `mix` -/
def round (cfg : Config) (seed : U64) (r : U32) (mix : List (Slice .word)) (datasetSize : U64) (lookup : Lookup) (l1 : Slice .word) : Mem Unit := do
  let state ← Mem.lift (initMixRngState seed (BitVec.ofNat 32 cfg.registerCount))
  let numItems : U32 := (datasetSize / (2 * 128)).setWidth 32
  let lane ← Mem.lift (umod r (BitVec.ofNat 32 cfg.laneCount))
  let row ← Mem.lift (Go.idx mix lane.toNat)
  let x ← Mem.idx row 0
  let itemIndex ← Mem.lift (umod x numItems)
  let item ← lookup itemIndex
  Mem.lift (if cfg.laneCount = 0 then panic .divZero else pure ())
  let numWordsPerLane := item.len / cfg.laneCount
  let state ← Mem.forRange 0 (max cfg.roundCacheAccesses cfg.roundMathOperations) state (opStep cfg l1 mix)
  let dsts ← Mem.make .word numWordsPerLane
  let sels ← Mem.make .word numWordsPerLane
  let _ ← Mem.forRange 0 numWordsPerLane state (dagDraw dsts sels)
  Mem.each 0 cfg.laneCount (dagLane cfg r numWordsPerLane item dsts sels mix)

/-- algorithm.go:114-142 `Hash` -/
def hash (cfg : Config) (height seed datasetSize : U64) (lookup : Lookup) (l1 : Slice .word) : Mem (Slice .byte) := do
  let mix ← initMix seed cfg.laneCount cfg.registerCount
  let number ← Mem.lift (udiv height cfg.periodLength)
  Mem.each 0 cfg.roundCount fun i => round cfg number (BitVec.ofNat 32 i) mix datasetSize lookup l1
  let laneHash ← Mem.make .word cfg.laneCount
  Mem.each 0 cfg.laneCount fun l => do
    let row ← Mem.lift (Go.idx mix l)
    let h ← Mem.forRange 0 cfg.registerCount fnvOffsetBasis fun i (h : U32) => do
      let x ← Mem.idx row i
      pure (fnv1a h x)
    Mem.upd laneHash l h
  let mixHash ← Mem.lit .word (List.replicate 8 fnvOffsetBasis)
  Mem.each 0 cfg.laneCount fun l => do
    let h ← Mem.idx mixHash (l % 8)
    let x ← Mem.idx laneHash l
    Mem.upd mixHash (l % 8) (fnv1a h x)
  uint32ArrayToBytes mixHash .little

/-- kawpow.go:36, firopow.go:18, progpow094.go:28, one iteration -/
def hashWordStep (hash : Slice .byte) (i : Nat) (seed : List U32) : Mem (List U32) := do
  let b ← Mem.slc hash (i * 4) (i * 4 + 4)
  let w ← Mem.getU32 .little b
  Mem.lift (Go.upd seed i w)

/-- kawpow.go:56-57, firopow.go:36-37, progpow094.go:44-45, one iteration -/
def mixWordStep (seed : List U32) (mixHash : Slice .byte) (i : Nat) (state : List U32) : Mem (List U32) := do
  let s ← Mem.lift (Go.idx seed i)
  let state ← Mem.lift (Go.upd state i s)
  let b ← Mem.slc mixHash (i * 4) (i * 4 + 4)
  let w ← Mem.getU32 .little b
  Mem.lift (Go.upd state (i + 8) w)

/-- kawpow.go:66, firopow.go:45, progpow094.go:50: `convutil.Uint32ArrayToBytes(state[:8], binary.LittleEndian)` of a local array -/
def headBytes (state : List U32) : Mem (Slice .byte) := do
  let arr ← Mem.lit .word state
  let head ← Mem.slc arr 0 8
  uint32ArrayToBytes head .little

/-- kawpow.go:33-51 -/
def kawpowInitialize (hash : Slice .byte) (nonce : U64) : Mem (List U32 × U64) := do
  let seed ← Mem.forRange 0 8 (List.replicate 25 (0 : U32)) (hashWordStep hash)
  let seed ← Mem.lift (Go.upd seed 8 (nonce.setWidth 32))
  let seed ← Mem.lift (Go.upd seed 9 ((nonce >>> 32).setWidth 32))
  let seed ← Mem.lift (Go.forRange 10 25 seed (padStep 10))
  let seed ← Mem.lift (keccakF800 seed)
  let head ← Mem.lift (seedHead seed)
  pure (seed, head)

/-- kawpow.go:53-67 -/
def kawpowFinalize (seed : List U32) (mixHash : Slice .byte) : Mem (Slice .byte) := do
  let state ← Mem.forRange 0 8 (List.replicate 25 (0 : U32)) (mixWordStep seed mixHash)
  let state ← Mem.lift (Go.forRange 16 25 state (padStep 16))
  let state ← Mem.lift (keccakF800 state)
  headBytes state

/-- kawpow.go:69-86 -/
def kawpow (hash : Slice .byte) (height nonce datasetSize : U64) (lookup : Lookup) (l1 : Slice .word) : Mem (Slice .byte × Slice .byte) := do
  let (seed, head) ← kawpowInitialize hash nonce
  let mixHash ← InMem.hash kawpowCfg height head datasetSize lookup l1
  let digest ← kawpowFinalize seed mixHash
  pure (mixHash, digest)

/-- firopow.go:15-31 -/
def firopowInitialize (hash : Slice .byte) (nonce : U64) : Mem (List U32 × U64) := do
  let seed ← Mem.forRange 0 8 (List.replicate 25 (0 : U32)) (hashWordStep hash)
  let seed ← Mem.lift (Go.upd seed 8 (nonce.setWidth 32))
  let seed ← Mem.lift (Go.upd seed 9 ((nonce >>> 32).setWidth 32))
  let seed ← Mem.lift (Go.upd seed 10 0x00000001)
  let seed ← Mem.lift (Go.upd seed 18 0x80008081)
  let seed ← Mem.lift (keccakF800 seed)
  let head ← Mem.lift (seedHead seed)
  pure (seed, head)

/-- firopow.go:33-46 -/
def firopowFinalize (seed : List U32) (mixHash : Slice .byte) : Mem (Slice .byte) := do
  let state ← Mem.forRange 0 8 (List.replicate 25 (0 : U32)) (mixWordStep seed mixHash)
  let state ← Mem.lift (Go.upd state 17 0x00000001)
  let state ← Mem.lift (Go.upd state 24 0x80008081)
  let state ← Mem.lift (keccakF800 state)
  headBytes state

/-- firopow.go:48-65 -/
def firopow (hash : Slice .byte) (height nonce datasetSize : U64) (lookup : Lookup) (l1 : Slice .word) : Mem (Slice .byte × Slice .byte) := do
  let (seed, head) ← firopowInitialize hash nonce
  let mixHash ← InMem.hash firopowCfg height head datasetSize lookup l1
  let digest ← firopowFinalize seed mixHash
  pure (mixHash, digest)

/-- progpow094.go:25-39 -/
def progpow094Initialize (hash : Slice .byte) (nonce : U64) : Mem (List U32 × U64) := do
  let seed ← Mem.forRange 0 8 (List.replicate 25 (0 : U32)) (hashWordStep hash)
  let seed ← Mem.lift (Go.upd seed 8 (nonce.setWidth 32))
  let seed ← Mem.lift (Go.upd seed 9 ((nonce >>> 32).setWidth 32))
  let seed ← Mem.lift (keccakF800 seed)
  let head ← Mem.lift (seedHead seed)
  pure (seed, head)

/-- progpow094.go:41-51 -/
def progpow094Finalize (seed : List U32) (mixHash : Slice .byte) : Mem (Slice .byte) := do
  let state ← Mem.forRange 0 8 (List.replicate 25 (0 : U32)) (mixWordStep seed mixHash)
  let state ← Mem.lift (keccakF800 state)
  headBytes state

/-- progpow094.go:53-59 `compute` -/
def progpow094 (hash : Slice .byte) (height nonce datasetSize : U64) (lookup : Lookup) (l1 : Slice .word) : Mem (Slice .byte × Slice .byte) := do
  let (seed, head) ← progpow094Initialize hash nonce
  let mixHash ← InMem.hash progpow094Cfg height head datasetSize lookup l1
  let digest ← progpow094Finalize seed mixHash
  pure (mixHash, digest)

end Verif.Progpow.InMem
