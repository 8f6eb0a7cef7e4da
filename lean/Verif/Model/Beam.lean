import Verif.Model.Convutil
import Verif.Model.Siphash
import Verif.Model.Pairing

/-! # Model of /repo/beamhashiii/{client,beamhashiii}.go

A `*big.Int` is never negative here and is a natural number; `uint32` quantities are 32-bit words. -/

set_option autoImplicit false

namespace Verif.Beam

open Go Crypto

/-- the errors returned by the package -/
inductive Err where
  | headerLen | solnLen | collision | order | duplicate
  deriving DecidableEq, Repr

/-- beamhashiii.go:14-18 -/
def workBitsSize : U32 := 448
/-- beamhashiii.go:14-18 -/
def collisionBitsSize : U32 := 24
/-- beamhashiii.go:14-18 -/
def numRounds : U32 := 5

/-- beamhashiii.go:21 -/
def indexMask : Nat := 0x1ffffff
/-- beamhashiii.go:22 -/
def collisionMask : Nat := 0xffffff
/-- beamhashiii.go:23 -/
def mixMask : Nat := 0xffffffffffffffff

/-- beamhashiii.go:26-28 -/
def rotl (a b : U64) : U64 := (a <<< b) ||| (a >>> (64 - b))

/-- beamhashiii.go:34-36, iteration `i`, where `j = len(_b)-1-i`: swap -/
def swapStep (i : Nat) (b : List Byte) : Go (List Byte) := do
  let x ← idx b i
  let y ← idx b (b.length - 1 - i)
  let b ← upd b i y
  upd b (b.length - 1 - i) x

/-- beamhashiii.go:30-38; `i < j` with `i + j = len - 1` holds for exactly the `i < len/2` -/
def reverseBytes (b : List Byte) : Go (List Byte) := forRange 0 (b.length / 2) b swapStep

/-- beamhashiii.go:44-47, one iteration; the state is `streamBig` and `indices` -/
def indexStep (i : Nat) (s : Nat × List U32) : Go (Nat × List U32) := do
  let indices ← upd s.2 i (BitVec.ofNat 32 (s.1 &&& indexMask))
  pure (s.1 >>> 25, indices)

/-- beamhashiii.go:40-50 -/
def indicesFromMinimal (soln : List Byte) : Go (List U32) := do
  let head ← slc soln 0 100
  let rev ← reverseBytes head
  let s ← forRange 0 32 (beNat rev, List.replicate 32 (0 : U32)) indexStep
  pure s.2

/-- beamhashiii.go:52-55 -/
structure Node where
  bitset : Nat
  indices : List U32
  deriving Repr

/-- beamhashiii.go:59-67, one iteration (`i = 6 - t`) -/
def wordStep (prePow : List U64) (ix : U32) (t : Nat) (bitset : Nat) : Go Nat := do
  let bitset := bitset <<< 64
  let k0 ← idx prePow 0
  let k1 ← idx prePow 1
  let k2 ← idx prePow 2
  let k3 ← idx prePow 3
  let hasher := Siphash.newSipHasher ⟨k0, k1, k2, k3⟩
  let hasher := Siphash.hash24 hasher ((ix.setWidth 64) <<< 3 + BitVec.ofNat 64 (6 - t))
  let value := Siphash.xorLanes hasher
  pure (bitset ||| value.toNat)

/-- beamhashiii.go:57-73 -/
def newNode (prePow : List U64) (ix : U32) : Go Node := do
  let bitset ← forRange 0 7 0 (wordStep prePow ix)
  pure ⟨bitset, [ix]⟩

/-- beamhashiii.go:75-103 -/
def newNodeFromChildrenRef (a b : Node) (remLen : U32) : Go Node := do
  let workBits := a.bitset ^^^ b.bitset
  let workBits := workBits >>> 24
  let rawMask := List.replicate 56 (0xFF : Byte)
  let maskBig := beNat rawMask
  let maskBig := maskBig >>> (workBitsSize - remLen).toNat
  let workBits := workBits &&& maskBig
  let a0 ← idx a.indices 0
  let b0 ← idx b.indices 0
  let indices := if a0 < b0 then a.indices ++ b.indices else b.indices ++ a.indices
  pure ⟨workBits, indices⟩

/-- beamhashiii.go:105-129; the parameters `n`, `k` are not used by the function -/
def validateSubtrees (a b : Node) : Go (Option Err) := do
  let maskedA := a.bitset &&& collisionMask
  let maskedB := b.bitset &&& collisionMask
  if maskedA ≠ maskedB then pure (some .collision)
  else do
    let b0 ← idx b.indices 0
    let a0 ← idx a.indices 0
    if b0 < a0 then pure (some .order)
    else if a.indices.any (fun i => b.indices.any (fun j => i == j)) then pure (some .duplicate)
    else pure none

/-- beamhashiii.go:139-143, one iteration -/
def padStep (indices : List U32) (remLen : U32) (i : Nat) (tempBits : Nat) : Go Nat := do
  let v ← idx indices i
  pure (tempBits ||| (v.toNat <<< (remLen + BitVec.ofNat 32 i * 25).toNat))

/-- beamhashiii.go:146-150, one iteration; the state is `tempBits` and `result` -/
def mixStep (i : Nat) (s : Nat × U64) : Go (Nat × U64) :=
  let tmp := BitVec.ofNat 64 (s.1 &&& mixMask)
  pure (s.1 >>> 64, s.2 + rotl tmp ((29 * (BitVec.ofNat 64 i + 1)) &&& 0x3F))

/-- beamhashiii.go:131-157; the receiver, mutated in place, is returned -/
def applyMix (n : Node) (remLen : U32) : Go Node := do
  let padNum := ((512 - remLen) + collisionBitsSize).udiv (collisionBitsSize + 1)
  let len : U32 := BitVec.ofNat 32 n.indices.length
  let padNum := if len < padNum then len else padNum
  let tempBits ← forRange 0 padNum.toNat n.bitset (padStep n.indices remLen)
  let s ← forRange 0 8 (tempBits, (0 : U64)) mixStep
  let resultBig := (rotl s.2 24).toNat
  let bitset := n.bitset >>> 64
  let bitset := bitset <<< 64
  let bitset := bitset ||| resultBig
  pure { n with bitset }

/-- beamhashiii.go:159-180 -/
def initializePrePow (P : Prims) (personal header soln : List Byte) : Go (List U64) := do
  let personalState := List.replicate (personal.length + 8) (0 : Byte)
  let personalState ← copyAt personalState 0 personal
  let personalState ← putU32 .little personalState personal.length workBitsSize
  let personalState ← putU32 .little personalState (personal.length + 4) numRounds
  let state := List.replicate (header.length + 4) (0 : Byte)
  let state ← copyAt state 0 header
  let tail ← slc soln 100 soln.length
  let nonce ← getU32 .little tail
  let state ← putU32 .little state header.length nonce
  let hash ← blake2b P state personalState 32
  let k0 ← getU64 .little (← slc hash 0 8)
  let k1 ← getU64 .little (← slc hash 8 16)
  let k2 ← getU64 .little (← slc hash 16 24)
  let k3 ← getU64 .little (← slc hash 24 32)
  pure [k0, k1, k2, k3]

/-- beamhashiii.go:186-188, one iteration: `rows[i] = newNode(prePow, indices[i])` -/
def rowStep (prePow : List U64) (indices : List U32) (i : Nat) (rows : List Node) : Go (List Node) := do
  let ix ← idx indices i
  let nd ← newNode prePow ix
  pure (rows ++ [nd])

/-- beamhashiii.go:194-197: bits before the mixing step of a round -/
def remBefore (round : U32) : U32 :=
  let remLen := workBitsSize - (round - 1) * collisionBitsSize
  if round = 5 then remLen - 64 else remLen

/-- beamhashiii.go:207-212: bits after a round -/
def remAfter (round : U32) : U32 :=
  let remLen := workBitsSize - round * collisionBitsSize
  if round = 4 then remLen - 64
  else if round = 5 then collisionBitsSize
  else remLen

/-- beamhashiii.go:194-216, the body of the pairing loop. `applyMix` changes `rows[i]` and `rows[i+1]` in place; neither is
read again after this iteration. -/
def combine (round : U32) (a b : Node) : Go (Except Err Node) := do
  let a ← applyMix a (remBefore round)
  let b ← applyMix b (remBefore round)
  match ← validateSubtrees a b with
  | some e => pure (.error e)
  | none => do
    let row ← newNodeFromChildrenRef a b (remAfter round)
    pure (.ok row)

/-- beamhashiii.go:182-224; `n`, `k` are passed on to `validateSubtrees` only -/
def verify (P : Prims) (fuel : Nat) (personal header soln : List Byte) : Go (Bool × Option Err) := do
  let prePow ← initializePrePow P personal header soln
  let indices ← indicesFromMinimal soln
  let rows ← forRange 0 indices.length [] (rowStep prePow indices)
  match ← Pairing.rounds (fun round => combine (BitVec.ofNat 32 round)) fuel 1 rows with
  | .error e => pure (false, some e)
  | .ok rows => do
    let top ← idx rows 0
    if top.bitset ≠ 0 then pure (false, none) else pure (true, none)

/-- client.go:7-11 -/
structure Client where
  n : U32
  k : U32
  personal : List Byte

/-- client.go:23-25 -/
def newBeam : Client := ⟨150, 5, "Beam-PoW".toList.map fun ch => BitVec.ofNat 8 ch.toNat⟩

/-- client.go:27-35 -/
def Client.verify (P : Prims) (fuel : Nat) (c : Client) (header soln : List Byte) : Go (Bool × Option Err) :=
  if header.length ≠ 40 then pure (false, some .headerLen)
  else if soln.length ≠ 104 then pure (false, some .solnLen)
  else Beam.verify P fuel c.personal header soln

end Verif.Beam
