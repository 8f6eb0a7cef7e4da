import Verif.Model.Convutil
import Verif.Model.Keccak

/-! # Model of /repo/internal/progpow

* The counts in `Config`, of type `int`, are natural numbers; those of any sign are in Model/ProgpowInt.lean.
* The rows of `mix` are distinct slices that nothing else refers to; a slice mutated in place is returned.
* A pointer to a `kiss99` or a `mixRngState` is a value threaded through.
* `bits.LeadingZeros32` and `bits.OnesCount32` are Go's standard library functions, written here from their documentation. -/

set_option autoImplicit false

namespace Verif.Progpow

open Go Crypto

/-- algorithm.go:16 -/
def fnvOffsetBasis : U32 := 0x811c9dc5

/-- algorithm.go:19-28 -/
structure Config where
  periodLength : U64
  dagLoads : Nat
  cacheBytes : U32
  laneCount : Nat
  registerCount : Nat
  roundCount : Nat
  roundCacheAccesses : Nat
  roundMathOperations : Nat

/-! ## kiss99.go -/

/-- kiss99.go:7-12 -/
structure Kiss99 where
  z : U32
  w : U32
  jsr : U32
  jcong : U32

/-- kiss99.go:18-29; the result and the new state -/
def Kiss99.next (k : Kiss99) : U32 × Kiss99 :=
  let z := (36969 : U32) * (k.z &&& (65535 : U32)) + (k.z >>> 16)
  let w := (18000 : U32) * (k.w &&& (65535 : U32)) + (k.w >>> 16)
  let jcong := 69069 * k.jcong + 1234567
  let jsr := k.jsr ^^^ (k.jsr <<< 17)
  let jsr := jsr ^^^ (jsr >>> 13)
  let jsr := jsr ^^^ (jsr <<< 5)
  ((((z <<< 16) + w) ^^^ jcong) + jsr, ⟨z, w, jsr, jcong⟩)

/-! ## math.go -/

/-- math.go:13-19 -/
def minUint32 (a b : U32) : U32 := if a > b then b else a

/-- math.go:31-33 -/
def rotl32 (a b : U32) : U32 := (a <<< (b &&& 31)) ||| (a >>> ((32 - b) &&& 31))

/-- math.go:35-37 -/
def rotr32 (a b : U32) : U32 := (a <<< ((32 - b) &&& 31)) ||| (a >>> (b &&& 31))

/-- `bits.LeadingZeros32`: 32 less the length of `a` in bits -/
def leadingZeros32 (a : U32) : Nat := 32 - (if a = 0 then 0 else a.toNat.log2 + 1)

/-- math.go:39-41 -/
def clz32 (a : U32) : U32 := BitVec.ofNat 32 (leadingZeros32 a)

/-- `bits.OnesCount32` -/
def onesCount32 (a : U32) : Nat := ((List.range 32).map fun i => a.toNat / 2 ^ i % 2).sum

/-- math.go:43-45 -/
def popcount32 (a : U32) : U32 := BitVec.ofNat 32 (onesCount32 a)

/-- math.go:47-49 -/
def mulHi32 (a b : U32) : U32 := ((a.setWidth 64 * b.setWidth 64 : U64) >>> 32).setWidth 32

/-- math.go:53-80 -/
def randomMath (a b selector : U32) : U32 :=
  match (selector % 11).toNat with
  | 0 => a + b
  | 1 => a * b
  | 2 => mulHi32 a b
  | 3 => minUint32 a b
  | 4 => rotl32 a b
  | 5 => rotr32 a b
  | 6 => a &&& b
  | 7 => a ||| b
  | 8 => a ^^^ b
  | 9 => clz32 a + clz32 b
  | 10 => popcount32 a + popcount32 b
  | _ => 0

/-- math.go:82-97 -/
def randomMerge (a b selector : U32) : U32 :=
  let x := ((selector >>> 16) % 31) + 1
  match (selector % 4).toNat with
  | 0 => (a * 33) + b
  | 1 => (a ^^^ b) * 33
  | 2 => rotl32 a x ^^^ b
  | 3 => rotr32 a x ^^^ b
  | _ => 0

/-! ## mixrng.go -/

/-- mixrng.go:11-18 -/
structure MixRngState where
  size : U32
  srcCounter : U32
  dstCounter : U32
  srcSequence : List U32
  dstSequence : List U32
  rng : Kiss99

/-- mixrng.go:20-25 -/
def MixRngState.nextSrc (s : MixRngState) : Go (U32 × MixRngState) := do
  let i ← umod s.srcCounter s.size
  let val ← idx s.srcSequence i.toNat
  return (val, { s with srcCounter := s.srcCounter + 1 })

/-- mixrng.go:27-32 -/
def MixRngState.nextDst (s : MixRngState) : Go (U32 × MixRngState) := do
  let i ← umod s.dstCounter s.size
  let val ← idx s.dstSequence i.toNat
  return (val, { s with dstCounter := s.dstCounter + 1 })

/-- mixrng.go:34-36 -/
def MixRngState.nextRng (s : MixRngState) : U32 × MixRngState :=
  let (v, rng) := s.rng.next
  (v, { s with rng := rng })

/-- mixrng.go:51-52, one iteration; the state is `(srcSeq, dstSeq)` -/
def seqStep (i : Nat) (s : List U32 × List U32) : Go (List U32 × List U32) := do
  let d ← upd s.2 i (BitVec.ofNat 32 i)
  let c ← upd s.1 i (BitVec.ofNat 32 i)
  return (c, d)

/-- `l[i], l[j] = l[j], l[i]`: both right-hand sides are evaluated before the assignments -/
def swap (l : List U32) (i j : Nat) : Go (List U32) := do
  let a ← idx l j
  let b ← idx l i
  let l ← upd l i a
  upd l j b

/-- mixrng.go:55-61: the iteration of the descending loop with `i = size - k`; the state is `(rng, srcSeq, dstSeq)` -/
def shuffleStep (size : U32) (k : Nat) (s : Kiss99 × List U32 × List U32) : Go (Kiss99 × List U32 × List U32) := do
  let (rng, srcSeq, dstSeq) := s
  let i := size - BitVec.ofNat 32 k
  let (v, rng) := rng.next
  let dstInd ← umod v i
  let dstSeq ← swap dstSeq (i - 1).toNat dstInd.toNat
  let (v, rng) := rng.next
  let srcInd ← umod v i
  let srcSeq ← swap srcSeq (i - 1).toNat srcInd.toNat
  return (rng, srcSeq, dstSeq)

/-- mixrng.go:41-46 -/
def seedRng (seed : U64) : Kiss99 :=
  let z := fnv1a fnvOffsetBasis (seed.setWidth 32)
  let w := fnv1a z ((seed >>> 32).setWidth 32)
  let jsr := fnv1a w (seed.setWidth 32)
  let jcong := fnv1a jsr ((seed >>> 32).setWidth 32)
  ⟨z, w, jsr, jcong⟩

/-- mixrng.go:38-73; the loop at line 55 runs for `i = size, …, 2` -/
def initMixRngState (seed : U64) (size : U32) : Go MixRngState := do
  let rng := seedRng seed
  let (srcSeq, dstSeq) ← forRange 0 size.toNat (List.replicate size.toNat 0, List.replicate size.toNat 0) seqStep
  let (rng, srcSeq, dstSeq) ← forRange 0 (size.toNat - 1) (rng, srcSeq, dstSeq) (shuffleStep size)
  return { size := size, srcCounter := 0, dstCounter := 0, srcSequence := srcSeq, dstSequence := dstSeq, rng := rng }

/-! ## algorithm.go -/

/-- algorithm.go:42-44, one iteration; the state is `(rng, mix[lane])` -/
def regStep (reg : Nat) (s : Kiss99 × List U32) : Go (Kiss99 × List U32) := do
  let (v, rng) := s.1.next
  let row ← upd s.2 reg v
  return (rng, row)

/-- algorithm.go:36-44, one iteration -/
def laneInit (z w : U32) (numRegs : Nat) (lane : Nat) (mix : List (List U32)) : Go (List (List U32)) := do
  let jsr := fnv1a w (BitVec.ofNat 32 lane)
  let jcong := fnv1a jsr (BitVec.ofNat 32 lane)
  let rng : Kiss99 := ⟨z, w, jsr, jcong⟩
  let (_, row) ← forRange 0 numRegs (rng, List.replicate numRegs 0) regStep
  upd mix lane row

/-- algorithm.go:30-48 -/
def initMix (seed : U64) (numLanes numRegs : Nat) : Go (List (List U32)) :=
  let z := fnv1a fnvOffsetBasis (seed.setWidth 32)
  let w := fnv1a z ((seed >>> 32).setWidth 32)
  forRange 0 numLanes (List.replicate numLanes []) (laneInit z w numRegs)

/-- `mix[l][dst] = randomMerge(mix[l][dst], data, sel)` (algorithm.go:67, 85 and 107) -/
def mergeAt (mix : List (List U32)) (l : Nat) (dst : U32) (data sel : U32) : Go (List (List U32)) := do
  let row ← idx mix l
  let a ← idx row dst.toNat
  let row ← upd row dst.toNat (randomMerge a data sel)
  upd mix l row

/-- algorithm.go:66-67, one iteration -/
def cacheLane (cfg : Config) (l1 : List U32) (src dst sel : U32) (l : Nat) (mix : List (List U32)) : Go (List (List U32)) := do
  let row ← idx mix l
  let x ← idx row src.toNat
  let offset ← umod x (cfg.cacheBytes / 4)
  let data ← idx l1 offset.toNat
  mergeAt mix l dst data sel

/-- algorithm.go:61-68; the state is `(state, mix)` -/
def cacheOp (cfg : Config) (l1 : List U32) (s : MixRngState × List (List U32)) : Go (MixRngState × List (List U32)) := do
  let (state, mix) := s
  let (src, state) ← state.nextSrc
  let (dst, state) ← state.nextDst
  let (sel, state) := state.nextRng
  let mix ← forRange 0 cfg.laneCount mix (cacheLane cfg l1 src dst sel)
  return (state, mix)

/-- algorithm.go:84-85, one iteration -/
def mathLane (src1 src2 sel1 dst sel2 : U32) (l : Nat) (mix : List (List U32)) : Go (List (List U32)) := do
  let row ← idx mix l
  let a ← idx row src1.toNat
  let b ← idx row src2.toNat
  mergeAt mix l dst (randomMath a b sel1) sel2

/-- algorithm.go:72-86 -/
def mathOp (cfg : Config) (s : MixRngState × List (List U32)) : Go (MixRngState × List (List U32)) := do
  let (state, mix) := s
  let regs := BitVec.ofNat 32 cfg.registerCount
  let (v, state) := state.nextRng
  let srcRand ← umod v (regs * BitVec.ofInt 32 ((cfg.registerCount : Int) - 1))
  let src1 ← umod srcRand regs
  let src2 ← udiv srcRand regs
  let src2 := if src2 ≥ src1 then src2 + 1 else src2
  let (sel1, state) := state.nextRng
  let (dst, state) ← state.nextDst
  let (sel2, state) := state.nextRng
  let mix ← forRange 0 cfg.laneCount mix (mathLane src1 src2 sel1 dst sel2)
  return (state, mix)

/-- algorithm.go:59-88, one iteration -/
def opStep (cfg : Config) (l1 : List U32) (i : Nat) (s : MixRngState × List (List U32)) : Go (MixRngState × List (List U32)) := do
  let s ← if i < cfg.roundCacheAccesses then cacheOp cfg l1 s else pure s
  if i < cfg.roundMathOperations then mathOp cfg s else pure s

/-- algorithm.go:94-98 -/
def dagDst (i : Nat) (state : MixRngState) : Go (U32 × MixRngState) := if i = 0 then .ok (0, state) else state.nextDst

/-- algorithm.go:93-101, one iteration; the state is `(state, dsts, sels)` -/
def dagDraw (i : Nat) (s : MixRngState × List U32 × List U32) : Go (MixRngState × List U32 × List U32) := do
  let (state, dsts, sels) := s
  let (dst, state) ← dagDst i state
  let dsts ← upd dsts i dst
  let (sel, state) := state.nextRng
  let sels ← upd sels i sel
  return (state, dsts, sels)

/-- algorithm.go:106-107, one iteration -/
def dagWord (item dsts sels : List U32) (offset : U32) (l : Nat) (i : Nat) (mix : List (List U32)) : Go (List (List U32)) := do
  let word ← idx item (offset + BitVec.ofNat 32 i).toNat
  let dst ← idx dsts i
  let sel ← idx sels i
  mergeAt mix l dst word sel

/-- algorithm.go:104-108, one iteration -/
def dagLane (cfg : Config) (r : U32) (numWordsPerLane : Nat) (item dsts sels : List U32) (l : Nat) (mix : List (List U32)) :
    Go (List (List U32)) := do
  let q ← umod (BitVec.ofNat 32 l ^^^ r) (BitVec.ofNat 32 cfg.laneCount)
  let offset := q * BitVec.ofNat 32 numWordsPerLane
  forRange 0 numWordsPerLane mix (dagWord item dsts sels offset l)

/-- a `dag.LookupFunc` -/
abbrev Lookup := U32 → Go (List U32)

/-- algorithm.go:50-112 -/
def round (cfg : Config) (seed : U64) (r : U32) (mix : List (List U32)) (datasetSize : U64) (lookup : Lookup) (l1 : List U32) :
    Go (List (List U32)) := do
  let state ← initMixRngState seed (BitVec.ofNat 32 cfg.registerCount)
  let numItems : U32 := (datasetSize / (2 * 128)).setWidth 32
  let lane ← umod r (BitVec.ofNat 32 cfg.laneCount)
  let row ← idx mix lane.toNat
  let x ← idx row 0
  let itemIndex ← umod x numItems
  let item ← lookup itemIndex
  if cfg.laneCount = 0 then panic .divZero
  let numWordsPerLane := item.length / cfg.laneCount
  let (state, mix) ← forRange 0 (max cfg.roundCacheAccesses cfg.roundMathOperations) (state, mix) (opStep cfg l1)
  let (_, dsts, sels) ← forRange 0 numWordsPerLane (state, List.replicate numWordsPerLane 0, List.replicate numWordsPerLane 0) dagDraw
  forRange 0 cfg.laneCount mix (dagLane cfg r numWordsPerLane item dsts sels)

/-- algorithm.go:119, one iteration -/
def hashRound (cfg : Config) (number datasetSize : U64) (lookup : Lookup) (l1 : List U32) (i : Nat) (mix : List (List U32)) :
    Go (List (List U32)) :=
  round cfg number (BitVec.ofNat 32 i) mix datasetSize lookup l1

/-- algorithm.go:127, one iteration -/
def laneHashReg (row : List U32) (i : Nat) (h : U32) : Go U32 := do
  let x ← idx row i
  return fnv1a h x

/-- algorithm.go:124-128, one iteration -/
def laneHashStep (cfg : Config) (mix : List (List U32)) (l : Nat) (laneHash : List U32) : Go (List U32) := do
  let row ← idx mix l
  let h ← forRange 0 cfg.registerCount fnvOffsetBasis (laneHashReg row)
  upd laneHash l h

/-- algorithm.go:138, one iteration -/
def mixHashStep (laneHash : List U32) (l : Nat) (mixHash : List U32) : Go (List U32) := do
  let h ← idx mixHash (l % 8)
  let x ← idx laneHash l
  upd mixHash (l % 8) (fnv1a h x)

/-- algorithm.go:114-142 `Hash`; the loop at lines 133-135 fills `mixHash` -/
def hash (cfg : Config) (height seed datasetSize : U64) (lookup : Lookup) (l1 : List U32) : Go (List Byte) := do
  let mix ← initMix seed cfg.laneCount cfg.registerCount
  let number ← udiv height cfg.periodLength
  let mix ← forRange 0 cfg.roundCount mix (hashRound cfg number datasetSize lookup l1)
  let laneHash ← forRange 0 cfg.laneCount (List.replicate cfg.laneCount 0) (laneHashStep cfg mix)
  let mixHash ← forRange 0 cfg.laneCount (List.replicate 8 fnvOffsetBasis) (mixHashStep laneHash)
  Convutil.uint32ArrayToBytes mixHash .little

end Verif.Progpow
