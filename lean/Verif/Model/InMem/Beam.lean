import Verif.Model.InMem.Equihash
import Verif.Model.Beam

/-! # Model of /repo/beamhashiii/beamhashiii.go with memory

As in `Verif.Model.Beam`, but slices and `*big.Int` are references into a heap: a `*big.Int` is a slice with one cell. The methods of `big.Int` read
their arguments and then overwrite the receiver, which may be one of the arguments. The three masks are package variables, and `applyMix` overwrites
the `bitset` of a node in place. A `*node` is never reassigned a field and is the pair of its fields. -/

set_option autoImplicit false

namespace Verif.Beam.InMem

open Go Convutil.InMem Crypto.InMem

/-- a `*big.Int` -/
abbrev Big := Slice .big

/-- the value of a `big.Int` -/
def val (x : Big) : Mem Nat := Mem.idx x 0

/-- overwrite a `big.Int` -/
def set (z : Big) (v : Nat) : Mem Unit := Mem.upd z 0 v

/-- `new(big.Int)` -/
def new (v : Nat) : Mem Big := Mem.lit .big [v]

/-- `z.And(x, y)` -/
def and (z x y : Big) : Mem Unit := do
  let a ← val x
  let b ← val y
  set z (a &&& b)

/-- `z.Or(x, y)` -/
def or (z x y : Big) : Mem Unit := do
  let a ← val x
  let b ← val y
  set z (a ||| b)

/-- `z.Xor(x, y)` -/
def xor (z x y : Big) : Mem Unit := do
  let a ← val x
  let b ← val y
  set z (a ^^^ b)

/-- `z.Rsh(x, n)` -/
def rsh (z x : Big) (n : Nat) : Mem Unit := do
  let a ← val x
  set z (a >>> n)

/-- `z.Lsh(x, n)` -/
def lsh (z x : Big) (n : Nat) : Mem Unit := do
  let a ← val x
  set z (a <<< n)

/-- beamhashiii.go:20-24, the package variables -/
structure Globals where
  indexMask : Big
  collisionMask : Big
  mixMask : Big

/-- beamhashiii.go:30-38 -/
def reverseBytes (b : Slice .byte) : Mem (Slice .byte) := do
  let c ← Mem.make .byte b.len
  Mem.copy c b
  Mem.each 0 (c.len / 2) fun i => do
    let x ← Mem.idx c i
    let y ← Mem.idx c (c.len - 1 - i)
    Mem.upd c i y
    Mem.upd c (c.len - 1 - i) x
  pure c

/-- beamhashiii.go:40-50 -/
def indicesFromMinimal (G : Globals) (soln : Slice .byte) : Mem (Slice .word) := do
  let head ← Mem.slc soln 0 100
  let rev ← reverseBytes head
  let bytes ← Mem.contents rev
  let streamBig ← new (beNat bytes)
  let indices ← Mem.make .word 32
  Mem.each 0 32 fun i => do
    let t ← new 0
    and t streamBig G.indexMask
    let v ← val t
    Mem.upd indices i (BitVec.ofNat 32 v)
    rsh streamBig streamBig 25
  pure indices

/-- beamhashiii.go:52-55 -/
structure Node where
  bitset : Big
  indices : Slice .word

/-- beamhashiii.go:59-67, one iteration (`i = 6 - t`) -/
def wordStep (prePow : Slice .dword) (ix : U32) (bitset : Big) (t : Nat) : Mem Unit := do
  lsh bitset bitset 64
  let k0 ← Mem.idx prePow 0
  let k1 ← Mem.idx prePow 1
  let k2 ← Mem.idx prePow 2
  let k3 ← Mem.idx prePow 3
  let hasher := Siphash.newSipHasher ⟨k0, k1, k2, k3⟩
  let hasher := Siphash.hash24 hasher ((ix.setWidth 64) <<< 3 + BitVec.ofNat 64 (6 - t))
  let v ← new (Siphash.xorLanes hasher).toNat
  or bitset bitset v

/-- beamhashiii.go:57-73 -/
def newNode (prePow : Slice .dword) (ix : U32) : Mem Node := do
  let bitset ← new 0
  Mem.each 0 7 (wordStep prePow ix bitset)
  let indices ← Mem.lit .word [ix]
  pure ⟨bitset, indices⟩

/-- beamhashiii.go:75-103 -/
def newNodeFromChildrenRef (a b : Node) (remLen : U32) : Mem Node := do
  let workBits ← new 0
  xor workBits a.bitset b.bitset
  rsh workBits workBits 24
  let rawMask ← Mem.make .byte 56
  Mem.each 0 rawMask.len fun i => Mem.upd rawMask i (0xFF : Byte)
  let bytes ← Mem.contents rawMask
  let maskBig ← new (beNat bytes)
  rsh maskBig maskBig (workBitsSize - remLen).toNat
  and workBits workBits maskBig
  let indices ← Mem.make .word 0
  let a0 ← Mem.idx a.indices 0
  let b0 ← Mem.idx b.indices 0
  if (a0 : U32) < b0 then do
    let indices ← Mem.append indices a.indices
    let indices ← Mem.append indices b.indices
    pure ⟨workBits, indices⟩
  else do
    let indices ← Mem.append indices b.indices
    let indices ← Mem.append indices a.indices
    pure ⟨workBits, indices⟩

/-- beamhashiii.go:105-129 -/
def validateSubtrees (G : Globals) (a b : Node) : Mem (Option Err) := do
  let maskedA ← new 0
  and maskedA a.bitset G.collisionMask
  let maskedB ← new 0
  and maskedB b.bitset G.collisionMask
  let x ← val maskedA
  let y ← val maskedB
  if x ≠ y then pure (some .collision)
  else do
    let b0 ← Mem.idx b.indices 0
    let a0 ← Mem.idx a.indices 0
    if (b0 : U32) < a0 then pure (some .order)
    else do
      let as ← Mem.contents a.indices
      let bs ← Mem.contents b.indices
      if List.any as (fun i => List.any bs (fun (j : U32) => (i : U32) == j)) then pure (some .duplicate) else pure none

/-- beamhashiii.go:139-143, one iteration -/
def padStep (indices : Slice .word) (remLen : U32) (tempBits : Big) (i : Nat) : Mem Unit := do
  let v ← Mem.idx indices i
  let tmp ← new (BitVec.toNat (v : U32))
  lsh tmp tmp (remLen + BitVec.ofNat 32 i * 25).toNat
  or tempBits tempBits tmp

/-- beamhashiii.go:146-150, one iteration; the state is `result` -/
def mixStep (G : Globals) (tempBits : Big) (i : Nat) (result : U64) : Mem U64 := do
  let t ← new 0
  and t tempBits G.mixMask
  let tmp ← val t
  rsh tempBits tempBits 64
  pure (result + rotl (BitVec.ofNat 64 tmp) ((29 * (BitVec.ofNat 64 i + 1)) &&& 0x3F))

/-- beamhashiii.go:131-157; the node's `bitset` is overwritten -/
def applyMix (G : Globals) (n : Node) (remLen : U32) : Mem Unit := do
  let tempBits ← new 0
  let v ← val n.bitset
  set tempBits v
  let padNum := ((512 - remLen) + collisionBitsSize).udiv (collisionBitsSize + 1)
  let len : U32 := BitVec.ofNat 32 n.indices.len
  let padNum := if len < padNum then len else padNum
  Mem.each 0 padNum.toNat (padStep n.indices remLen tempBits)
  let result ← Mem.forRange 0 8 (0 : U64) (mixStep G tempBits)
  let resultBig ← new (rotl result 24).toNat
  rsh n.bitset n.bitset 64
  lsh n.bitset n.bitset 64
  or n.bitset n.bitset resultBig

/-- beamhashiii.go:159-180 -/
def initializePrePow (P : Prims) (personal header soln : Slice .byte) : Mem (Slice .dword) := do
  let personalState ← Mem.make .byte (personal.len + 8)
  Mem.copy personalState personal
  Mem.putU32 .little personalState personal.len workBitsSize
  Mem.putU32 .little personalState (personal.len + 4) numRounds
  let state ← Mem.make .byte (header.len + 4)
  Mem.copy state header
  let tail ← Mem.slc soln 100 soln.len
  let nonce ← Mem.getU32 .little tail
  Mem.putU32 .little state header.len nonce
  let hash ← blake2b P state personalState 32
  let r ← Mem.slc hash 0 8
  let k0 ← Mem.getU64 .little r
  let r ← Mem.slc hash 8 16
  let k1 ← Mem.getU64 .little r
  let r ← Mem.slc hash 16 24
  let k2 ← Mem.getU64 .little r
  let r ← Mem.slc hash 24 32
  let k3 ← Mem.getU64 .little r
  Mem.lit .dword [k0, k1, k2, k3]

/-- beamhashiii.go:186-188, one iteration: `rows[i] = newNode(prePow, indices[i])` -/
def rowStep (prePow : Slice .dword) (indices : Slice .word) (i : Nat) (rows : List Node) : Mem (List Node) := do
  let ix ← Mem.idx indices i
  let nd ← newNode prePow ix
  pure (rows ++ [nd])

/-- beamhashiii.go:194-216, the body of the pairing loop -/
def combine (G : Globals) (round : U32) (a b : Node) : Mem (Except Err Node) := do
  applyMix G a (remBefore round)
  applyMix G b (remBefore round)
  match ← validateSubtrees G a b with
  | some e => pure (.error e)
  | none => do
    let row ← newNodeFromChildrenRef a b (remAfter round)
    pure (.ok row)

/-- beamhashiii.go:182-224 -/
def verify (P : Prims) (fuel : Nat) (G : Globals) (personal header soln : Slice .byte) : Mem (Bool × Option Err) := do
  let prePow ← initializePrePow P personal header soln
  let indices ← indicesFromMinimal G soln
  let rows ← Mem.forRange 0 indices.len [] (rowStep prePow indices)
  match ← Pairing.InMem.rounds (fun round => combine G (BitVec.ofNat 32 round)) fuel 1 rows with
  | .error e => pure (false, some e)
  | .ok rows => do
    let top ← Mem.lift (Go.idx rows 0)
    let zero ← new 0
    let x ← val zero
    let y ← val top.bitset
    if y ≠ x then pure (false, none) else pure (true, none)

/-- client.go:27-35 `Verify`; `personal` is a slice that the client holds -/
def clientVerify (P : Prims) (fuel : Nat) (G : Globals) (personal header soln : Slice .byte) : Mem (Bool × Option Err) :=
  if header.len ≠ 40 then pure (false, some .headerLen)
  else if soln.len ≠ 104 then pure (false, some .solnLen)
  else verify P fuel G personal header soln

end Verif.Beam.InMem
