import Verif.Model.InMem.Ethash
import Verif.Model.Equihash

/-! # Models of /repo/equihash/equihash.go and of the row-halving loop with memory

As in `Verif.Model.Equihash` and `Verif.Model.Pairing`, but slices are references into a heap. A `*node` is never reassigned a field and is the pair
of its fields here; `rows` and `curRows` are slices that `verify` makes itself and does not share, and are lists of nodes. -/

set_option autoImplicit false

namespace Verif

open Go

namespace Pairing.InMem

variable {N E : Type}

/-- one iteration of the inner loop (`i = 2 t`): combine `rows[i]` and `rows[i+1]` and append the result -/
def pairStep (pair : N → N → Mem (Except E N)) (rows : List N) (t : Nat) (cur : List N) : Mem (Step (List N) E) := do
  let a ← Mem.lift (Go.idx rows (2 * t))
  let b ← Mem.lift (Go.idx rows (2 * t + 1))
  match ← pair a b with
  | .error e => pure (.ret e)
  | .ok c => pure (.cont (cur ++ [c]))

/-- `for i := 0; i < len(rows); i += 2 { … }` -/
def pairLoop (pair : N → N → Mem (Except E N)) (rows : List N) : Mem (Step (List N) E) :=
  Mem.forRangeE 0 ((rows.length + 1) / 2) [] (pairStep pair rows)

/-- one iteration of `for len(rows) > 1 { … }`; the state is the round number and the rows -/
def roundStep (pair : Nat → N → N → Mem (Except E N)) (s : Nat × List N) : Mem (Step (Nat × List N) (Except E (List N))) :=
  if 1 < s.2.length then do
    match ← pairLoop (pair s.1) s.2 with
    | .ret e => pure (.ret (.error e))
    | .cont rows' => pure (.cont (s.1 + 1, rows'))
  else pure (.ret (.ok s.2))

/-- the whole loop -/
def rounds (pair : Nat → N → N → Mem (Except E N)) (fuel : Nat) (start : Nat) (rows : List N) : Mem (Except E (List N)) :=
  Mem.forever fuel (start, rows) (roundStep pair)

end Pairing.InMem

namespace Crypto.InMem

/-- blake.go:7-23 `Blake2b`: `Sum(nil)` returns a new slice -/
def blake2b (P : Prims) (data personal : Slice .byte) (size : Nat) : Mem (Slice .byte) := do
  let xs ← Mem.contents data
  let ps ← Mem.contents personal
  let out ← Mem.lift (Crypto.blake2b P xs ps size)
  Mem.fresh .byte out

end Crypto.InMem

namespace Equihash.InMem

open Convutil.InMem Crypto.InMem

/-- loop state of `expandArray` other than `output` -/
structure ExpState where
  accBits : Nat
  accValue : U32
  j : Nat

/-- equihash.go:58-72, one iteration of the outer loop -/
def expandStep (input output : Slice .byte) (bitLen bytePad outputWidth : Nat) (bitLenMask : U32) (i : Nat) (s : ExpState) : Mem ExpState := do
  let b ← Mem.idx input i
  let accValue := (s.accValue <<< 8) ||| BitVec.setWidth 32 (b : Byte)
  let accBits := u32 (s.accBits + 8)
  if bitLen ≤ accBits then do
    let accBits := accBits - bitLen
    Mem.each bytePad outputWidth fun x =>
      let p1 := accValue >>> (accBits + 8 * (outputWidth - x - 1))
      let p2 := (bitLenMask >>> (8 * (outputWidth - x - 1))) &&& 0xFF
      Mem.upd output (u32 (s.j + x)) (BitVec.setWidth 8 (p1 &&& p2))
    pure ⟨accBits, accValue, u32 (s.j + outputWidth)⟩
  else pure ⟨accBits, accValue, s.j⟩

/-- equihash.go:39-75 `expandArray`; the result may be `input` itself -/
def expandArray (input : Slice .byte) (bitLen bytePad : Nat) : Mem (Except Err (Slice .byte)) :=
  if bitLen < 8 then pure (.error .bitLenSmall)
  else if 32 < bitLen then pure (.error .bitLenLarge)
  else
    let inputLen := u32 input.len
    let outputWidth := u32 (u32 (bitLen + 7) / 8 + bytePad)
    let outputLen := u32 (u32 (8 * outputWidth) * inputLen) / bitLen
    if outputLen = inputLen then pure (.ok input)
    else do
      let output ← Mem.make .byte outputLen
      let _ ← Mem.forRange 0 input.len ⟨0, 0, 0⟩ (expandStep input output bitLen bytePad outputWidth (((1 : U32) <<< bitLen) - 1))
      pure (.ok output)

/-- equihash.go:77-94 `indicesFromMinimal` -/
def indicesFromMinimal (n k : Nat) (minimal : Slice .byte) : Mem (Except Err (Slice .word)) := do
  let cBitLen ← Mem.lift (collisionBitLength n k)
  let minimalLen := u32 minimal.len
  if minimalLen ≠ u32 (u32 (2 ^ k) * u32 (cBitLen + 1)) / 8 then pure (.error .minimalLen)
  else if 4 < u32 (u32 (cBitLen + 1) + 7) / 8 then pure (.error .params)
  else
    let bytePad := 4 - u32 (u32 (cBitLen + 1) + 7) / 8
    match ← expandArray minimal (u32 (cBitLen + 1)) bytePad with
    | .error e => pure (.error e)
    | .ok indices => do
      let a ← bytesToUint32Array indices .big
      pure (.ok a)

/-- equihash.go:96-102 `hashBlakeWithOffset` -/
def hashBlakeWithOffset (P : Prims) (initialState personalState : Slice .byte) (offset : U32) (hashLength : Nat) : Mem (Slice .byte) := do
  let newState ← Mem.make .byte (initialState.len + 4)
  Mem.copy newState initialState
  Mem.putU32 .little newState initialState.len offset
  blake2b P newState personalState hashLength

/-- equihash.go:111-116, one iteration of `for g2 := startIndex; g2 <= g; g2++` -/
def twistStep (P : Prims) (initialState personalState : Slice .byte) (myHash : Slice .word) (g : U32) (hashLength : Nat) (g2 : U32) : Mem (Step U32 Unit) :=
  if g2 ≤ g then do
    let tmpHash ← hashBlakeWithOffset P initialState personalState g2 hashLength
    Mem.each 0 16 fun i => do
      let b ← Mem.slc tmpHash (i * 4) ((i + 1) * 4)
      let v ← Mem.getU32 .little b
      let m ← Mem.idx myHash i
      Mem.upd myHash i ((m : U32) + v)
    pure (.cont (g2 + 1))
  else pure (.ret ())

/-- equihash.go:104-124 `generateHash` -/
def generateHash (P : Prims) (fuel : Nat) (initialState personalState : Slice .byte) (g : U32) (hashLength : Nat) (twist : Bool) : Mem (Slice .byte) :=
  if !twist then hashBlakeWithOffset P initialState personalState g hashLength
  else do
    let myHash ← Mem.make .word 16
    Mem.forever fuel (g &&& 0xFFFFFFF0) (twistStep P initialState personalState myHash g hashLength)
    let hash ← uint32ArrayToBytes myHash .little
    Mem.each 0 (hashLength / 16) fun t => do
      let b ← Mem.idx hash (15 + 16 * t)
      Mem.upd hash (15 + 16 * t) ((b : Byte) &&& 0xF8)
    pure hash

/-- equihash.go:126-129 -/
structure Node where
  hash : Slice .byte
  indices : Slice .word

/-- equihash.go:131-147 `newNode`; the hash may be a part of what `generateHash` returned -/
def newNode (P : Prims) (fuel : Nat) (n k : Nat) (personalState : Slice .byte) (twist : Bool) (state : Slice .byte) (i : U32) : Mem (Except Err Node) := do
  let per ← Mem.lift (indicesPerHashOutput n)
  let g ← Mem.lift (divN i.toNat per)
  let size ← Mem.lift (hashOutput n)
  let hash ← generateHash P fuel state personalState (BitVec.ofNat 32 g) size twist
  let start := u32 ((i.toNat % per) * (u32 (n + 7) / 8))
  let end_ := u32 (start + u32 (n + 7) / 8)
  let part ← Mem.slc hash start end_
  let c ← Mem.lift (collisionBitLength n k)
  match ← expandArray part c 0 with
  | .error e => pure (.error e)
  | .ok minimalHash => do
    let indices ← Mem.lit .word [i]
    pure (.ok ⟨minimalHash, indices⟩)

/-- equihash.go:149-171 `newNodeFromChildrenRef` -/
def newNodeFromChildrenRef (a b : Node) (trim : Nat) : Mem Node := do
  let len := u32 a.hash.len
  let hash ← Mem.make .byte (u32 (len + 2 ^ 32 - trim))
  Mem.each 0 (len - trim) fun t => do
    let x ← Mem.idx a.hash (trim + t)
    let y ← Mem.idx b.hash (trim + t)
    Mem.upd hash t ((x : Byte) ^^^ y)
  let indices ← Mem.make .word 0
  let a0 ← Mem.idx a.indices 0
  let b0 ← Mem.idx b.indices 0
  if (a0 : U32) < b0 then do
    let indices ← Mem.append indices a.indices
    let indices ← Mem.append indices b.indices
    pure ⟨hash, indices⟩
  else do
    let indices ← Mem.append indices b.indices
    let indices ← Mem.append indices a.indices
    pure ⟨hash, indices⟩

/-- equihash.go:175-179, one iteration -/
def collideStep (a b : Node) (i : Nat) (_ : Unit) : Mem (Step Unit Err) := do
  let x ← Mem.idx a.hash i
  let y ← Mem.idx b.hash i
  if (x : Byte) ≠ y then pure (.ret .collision) else pure (.cont ())

/-- equihash.go:173-196 `validateSubtrees` -/
def validateSubtrees (n k : Nat) (a b : Node) : Mem (Option Err) := do
  let cbl ← Mem.lift (collisionByteLength n k)
  match ← Mem.forRangeE 0 cbl () (collideStep a b) with
  | .ret e => pure (some e)
  | .cont () => do
    let b0 ← Mem.idx b.indices 0
    let a0 ← Mem.idx a.indices 0
    if (b0 : U32) < a0 then pure (some .order)
    else do
      let as ← Mem.contents a.indices
      let bs ← Mem.contents b.indices
      if List.any as (fun i => List.any bs (fun (j : U32) => (i : U32) == j)) then pure (some .duplicate) else pure none

/-- equihash.go:220-226, the body of the pairing loop -/
def combine (n k : Nat) (a b : Node) : Mem (Except Err Node) := do
  match ← validateSubtrees n k a b with
  | some e => pure (.error e)
  | none => do
    let trim ← Mem.lift (collisionByteLength n k)
    let row ← newNodeFromChildrenRef a b trim
    pure (.ok row)

/-- equihash.go:209-215, one iteration: `rows[i], err = newNode(…)` -/
def rowStep (P : Prims) (fuel : Nat) (n k : Nat) (personalState : Slice .byte) (twist : Bool) (header : Slice .byte) (indices : Slice .word) (i : Nat)
    (rows : List Node) : Mem (Step (List Node) Err) := do
  let ix ← Mem.idx indices i
  match ← newNode P fuel n k personalState twist header ix with
  | .error e => pure (.ret e)
  | .ok nd => pure (.cont (rows ++ [nd]))

/-- equihash.go:198-239 `verify` -/
def verify (P : Prims) (fuel : Nat) (n k : Nat) (personal header soln : Slice .byte) (twist : Bool) : Mem (Bool × Option Err) := do
  let personalState ← Mem.make .byte (personal.len + 8)
  Mem.copy personalState personal
  Mem.putU32 .little personalState personal.len (BitVec.ofNat 32 n)
  Mem.putU32 .little personalState (personal.len + 4) (BitVec.ofNat 32 k)
  match ← indicesFromMinimal n k soln with
  | .error e => pure (false, some e)
  | .ok indices => do
    match ← Mem.forRangeE 0 indices.len [] (rowStep P fuel n k personalState twist header indices) with
    | .ret e => pure (false, some e)
    | .cont rows => do
      match ← Pairing.InMem.rounds (fun _ => combine n k) fuel 0 rows with
      | .error e => pure (false, some e)
      | .ok rows => do
        let top ← Mem.lift (Go.idx rows 0)
        let hash ← Mem.contents top.hash
        if List.any hash (fun (v : Byte) => v != 0) then pure (false, none) else pure (true, none)

/-- client.go:41-43 `Verify`; `personal` is a slice that the client holds -/
def clientVerify (P : Prims) (fuel : Nat) (n k : U32) (personal : Slice .byte) (twist : Bool) (header soln : Slice .byte) : Mem (Bool × Option Err) :=
  verify P fuel n.toNat k.toNat personal header soln twist

end Equihash.InMem

end Verif
