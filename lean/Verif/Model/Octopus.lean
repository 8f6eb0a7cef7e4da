import Verif.Model.Convutil
import Verif.Model.Siphash

/-! # Model of /repo/octopus/octopus.go

Loops whose number of iterations is not evident carry a `fuel` argument. A slice mutated in place is returned. -/

set_option autoImplicit false

namespace Verif.Octopus

open Go Crypto Siphash

/-- octopus.go:15 -/
def powMixBytes : Nat := 256

/-- octopus.go:16 -/
def powAccesses : Nat := 32

/-- octopus.go:18 -/
def powMod : U64 := 1032193

/-- octopus.go:19 -/
def powModB : U64 := 11

/-- octopus.go:20-21 -/
def powN : Nat := 1 <<< 10

/-- octopus.go:22 -/
def powWarpSize : Nat := 32

/-- octopus.go:23 -/
def powDataPerThread : Nat := powN / powWarpSize

/-- octopus.go:25 -/
def nodeBytes : Nat := 64

/-- octopus.go:26 -/
def nodeWords : Nat := nodeBytes / 4

/-- octopus.go:29 -/
def mixWords : Nat := powMixBytes / 4

/-- octopus.go:30 -/
def mixNodes : Nat := mixWords / nodeWords

/-- octopus.go:35-42, the condition and the body of the loop; the state is `(result, a, n)` -/
def powerModStep (s : U64 × U64 × U64) : Go (Step (U64 × U64 × U64) U64) :=
  let (result, a, n) := s
  if n > 0 then
    let result := if n % 2 = 1 then result * a % powMod else result
    let a := a * a % powMod
    let n := n >>> 1
    .ok (.cont (result, a, n))
  else .ok (.ret result)

/-- octopus.go:33-45 -/
def powerMod (fuel : Nat) (a n : U64) : Go U64 := forever fuel (1, a, n) powerModStep

/-- octopus.go:47-53 -/
def gcd (a b : U64) : U64 :=
  if _h : b = 0 then a else gcd b (a % b)
termination_by b.toNat
decreasing_by
  have : 0 < b.toNat := Nat.pos_of_ne_zero fun h0 => _h (BitVec.eq_of_toNat_eq h0)
  rw [BitVec.toNat_umod]
  exact Nat.mod_lt _ this

/-- octopus.go:57-64, the body of the loop -/
def remapStep (e : U64) : Go (Step U64 U64) :=
  let g := gcd e (powMod - 1)
  if g = 1 then .ok (.ret e)
  else do
    let e ← udiv e g
    .ok (.cont e)

/-- octopus.go:55-67 -/
def remap (fuel : Nat) (num : U64) : Go U64 := do
  let e := num % (powMod - 2) + 1
  let e ← forever fuel e remapStep
  powerMod fuel powModB e

/-- octopus.go:70-76, the body of the loop -/
def computeCStep (fuel : Nat) (a b : U64) (h : U64) : Go (Step U64 U64) := do
  let c ← remap fuel h
  if b * b % powMod ≠ 4 * a * c % powMod then .ok (.ret c) else .ok (.cont (h + 1))

/-- octopus.go:69-77 -/
def computeC (fuel : Nat) (a b h : U64) : Go U64 := forever fuel h (computeCStep fuel a b)

/-- octopus.go:96-97, one iteration; the state is `(hasher, d)` -/
def dataStep (i : Nat) (j : Nat) (s : SipHasher × List U32) : Go (SipHasher × List U32) := do
  let hasher := sipRound s.1
  let d ← upd s.2 (j * powWarpSize + i) (((xorLanes hasher &&& 0xffffffff) % powMod).setWidth 32)
  return (hasher, d)

/-- octopus.go:93-98, one iteration -/
def warpStep (v0 v1 v2 v3 warpID : U64) (i : Nat) (d : List U32) : Go (List U32) := do
  let hasher := newSipHasher ⟨v0, v1, v2, v3⟩
  let hasher := hash24 hasher (warpID * BitVec.ofNat 64 powWarpSize + BitVec.ofNat 64 i)
  let s ← forRange 0 powDataPerThread (hasher, d) (dataStep i)
  return s.2

/-- octopus.go:104-105 and 110-111, one iteration; the state is a pair of powers -/
def powStep (w w2 : U64) (_ : Nat) (s : U64 × U64) : Go (U64 × U64) := .ok (s.1 * w % powMod, s.2 * w2 % powMod)

/-- octopus.go:121, one iteration -/
def hornerStep (d : List U32) (x : U64) (j : Nat) (pv : U64) : Go U64 := do
  let c ← idx d (powN - j - 1)
  return (pv * x + c.setWidth 64) % powMod

/-- the variables of the loop at octopus.go:116 -/
structure EvalState where
  wpow : U64
  w2pow : U64
  result : U64
  resBuf : List U32

/-- octopus.go:117-129, one iteration -/
def evalStep (a b c wpowFull w2powFull : U64) (d : List U32) (i : Nat) (s : EvalState) : Go EvalState := do
  let x := (a * s.w2pow + b * s.wpow + c) % powMod
  let pv ← forRange 0 powN 0 (hornerStep d x)
  let resBuf ← upd s.resBuf i (pv.setWidth 32)
  let result := fnv1Uint64 s.result pv
  if i + 1 < powDataPerThread then
    return { wpow := s.wpow * wpowFull % powMod, w2pow := s.w2pow * w2powFull % powMod, result := result, resBuf := resBuf }
  return { s with result := result, resBuf := resBuf }

/-- octopus.go:139, one iteration -/
def repeatStep (halfMix : List Byte) (_ : Nat) (mix : List Byte) : Go (List Byte) := .ok (mix ++ halfMix)

/-- a `func(index uint32) []uint32` -/
abbrev Lookup := U32 → Go (List U32)

/-- octopus.go:153-156, one iteration; the ranged slice is the part of `mixUWords` that is written -/
def nodeWordStep (tmpNode : List U32) (n : Nat) (l : Nat) (mix : List U32) : Go (List U32) := do
  let a ← idx mix (n * mixNodes * 4 + l)
  let t ← idx tmpNode l
  upd mix (n * mixNodes * 4 + l) (fnv1 a t)

/-- octopus.go:150-156, one iteration -/
def nodeStep (lookup : Lookup) (page : U32) (n : Nat) (mix : List U32) : Go (List U32) := do
  let tmpNode ← lookup (page * BitVec.ofNat 32 mixNodes + BitVec.ofNat 32 n)
  let part ← slc mix (n * mixNodes * 4) ((n + 1) * mixNodes * 4)
  forRange 0 part.length mix (nodeWordStep tmpNode n)

/-- octopus.go:148-157, one iteration -/
def accessStep (lookup : Lookup) (firstVal numFullPages : U32) (resBuf : List U32) (i : Nat) (mix : List U32) : Go (List U32) := do
  let r ← idx resBuf i
  let m ← idx mix (i % mixWords)
  let page ← umod (fnv1 (firstVal ^^^ BitVec.ofNat 32 i ^^^ r) m) numFullPages
  forRange 0 mixNodes mix (nodeStep lookup page)

/-- octopus.go:165-168 and 170-173 -/
def reduce4 (mix : List U32) (w : Nat) : Go U32 := do
  let r ← idx mix (w + 0)
  let m ← idx mix (w + 1)
  let r := r * BitVec.ofNat 32 fnvPrime ^^^ m
  let m ← idx mix (w + 2)
  let r := r * BitVec.ofNat 32 fnvPrime ^^^ m
  let m ← idx mix (w + 3)
  return r * BitVec.ofNat 32 fnvPrime ^^^ m

/-- octopus.go:162-175, one iteration -/
def compressStep (mix : List U32) (i : Nat) (words : List U32) : Go (List U32) := do
  let reduction ← reduce4 mix (i * 4)
  let reduction2 ← reduce4 mix ((8 + i) * 4)
  upd words i (reduction * BitVec.ofNat 32 fnvPrime ^^^ reduction2)

/-- octopus.go:101-130: the evaluation of the polynomial `d` for the thread of `nonce`; `result` and `resBuf` -/
def evaluate (a b c w nonce : U64) (d : List U32) : Go (U64 × List U32) := do
  let w2 := w * w % powMod
  let t := nonce % BitVec.ofNat 64 powWarpSize
  let (wpow, w2pow) ← forRange 0 t.toNat (1, 1) (powStep w w2)
  let (wpowFull, w2powFull) ← forRange t.toNat powWarpSize (wpow, w2pow) (powStep w w2)
  let s ← forRange 0 powDataPerThread ⟨wpow, w2pow, 0, List.replicate powDataPerThread 0⟩ (evalStep a b c wpowFull w2powFull d)
  return (s.result, s.resBuf)

/-- octopus.go:132-135 -/
def initHalfMix (P : Prims) (hash : List Byte) (result : U64) : Go (List Byte) := do
  let halfMix ← copyAt (List.replicate nodeBytes 0) 0 hash
  let halfMix ← putU64 .little halfMix hash.length result
  let data ← slc halfMix 0 (hash.length + 8)
  return P.keccak512 data

/-- octopus.go:137-181; `append(mix[:nodeBytes], …)` overwrites bytes of `mix` that are not used any more -/
def mixing (P : Prims) (halfMix : List Byte) (resBuf : List U32) (datasetSize : U64) (lookup : Lookup) : Go (List Byte) := do
  let mix ← forRange 0 4 [] (repeatStep halfMix)
  let pageSize := 4 * mixWords
  let numFullPages : U32 := (datasetSize / BitVec.ofNat 64 pageSize).setWidth 32
  let head ← slc halfMix 0 4
  let firstVal ← getU32 .little head
  let mixUWords ← Convutil.bytesToUint32Array mix .little
  let mixUWords ← forRange 0 powAccesses mixUWords (accessStep lookup firstVal numFullPages resBuf)
  let compressWords ← forRange 0 8 (List.replicate 8 0) (compressStep mixUWords)
  let compressBytes ← Convutil.uint32ArrayToBytes compressWords .little
  let front ← slc mix 0 nodeBytes
  return P.keccak256 (front ++ compressBytes)

/-- octopus.go:79-182 -/
def octopus (P : Prims) (fuel : Nat) (hash : List Byte) (nonce datasetSize : U64) (lookup : Lookup) : Go (List Byte) := do
  let v0 ← slc hash 0 8 >>= getU64 .little
  let v1 ← slc hash 8 16 >>= getU64 .little
  let v2 ← slc hash 16 24 >>= getU64 .little
  let v3 ← slc hash 24 32 >>= getU64 .little
  let a ← remap fuel v0
  let b ← remap fuel v1
  let c ← computeC fuel a b v2
  let w ← remap fuel v3
  let warpID := nonce / BitVec.ofNat 64 powWarpSize
  let d ← forRange 0 powWarpSize (List.replicate powN 0) (warpStep v0 v1 v2 v3 warpID)
  let (result, resBuf) ← evaluate a b c w nonce d
  let halfMix ← initHalfMix P hash result
  mixing P halfMix resBuf datasetSize lookup

end Verif.Octopus
