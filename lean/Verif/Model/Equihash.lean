import Verif.Model.Convutil
import Verif.Model.Pairing

/-! # Model of /repo/equihash/{client,equihash}.go

`uint32` quantities that are sizes or counters are natural numbers reduced explicitly (`u32`) wherever the Go
expression could wrap; `accValue` and the stored indices are 32-bit words. The external BLAKE2b is `Prims`. -/

set_option autoImplicit false

namespace Verif.Equihash

open Go Convutil Crypto

/-- the errors returned by the package -/
inductive Err where
  | bitLenSmall | bitLenLarge | minimalLen | params | collision | order | duplicate
  deriving DecidableEq, Repr

/-- reduction of a `uint32` expression -/
def u32 (n : Nat) : Nat := n % 2 ^ 32

/-- unsigned division, panicking on a zero divisor -/
def divN (a b : Nat) : Go Nat := if b = 0 then panic .divZero else .ok (a / b)

/-- equihash.go:19-21 -/
def collisionBitLength (n k : Nat) : Go Nat := divN n (u32 (k + 1))

/-- equihash.go:23-25 -/
def collisionByteLength (n k : Nat) : Go Nat := do
  let c ← collisionBitLength n k
  pure (u32 (c + 7) / 8)

/-- equihash.go:27-29 -/
def indicesPerHashOutput (n : Nat) : Go Nat := divN 512 n

/-- equihash.go:31-33 -/
def hashOutput (n : Nat) : Go Nat := do
  let per ← indicesPerHashOutput n
  pure (u32 (per * (u32 (n + 7) / 8)))

/-- loop state of `expandArray` -/
structure ExpState where
  accBits : Nat
  accValue : U32
  j : Nat
  output : List Byte

/-- equihash.go:64-68, one iteration of the inner loop: output byte `x` of the current group -/
def expandByte (bitLenMask : U32) (outputWidth accBits : Nat) (accValue : U32) (j x : Nat) (output : List Byte) : Go (List Byte) :=
  let p1 := accValue >>> (accBits + 8 * (outputWidth - x - 1))
  let p2 := (bitLenMask >>> (8 * (outputWidth - x - 1))) &&& 0xFF
  upd output (u32 (j + x)) ((p1 &&& p2).setWidth 8)

/-- equihash.go:58-72, one iteration of the outer loop -/
def expandStep (input : List Byte) (bitLen bytePad outputWidth : Nat) (bitLenMask : U32) (i : Nat) (s : ExpState) : Go ExpState := do
  let b ← idx input i
  let accValue := (s.accValue <<< 8) ||| b.setWidth 32
  let accBits := u32 (s.accBits + 8)
  if bitLen ≤ accBits then
    let accBits := accBits - bitLen
    let output ← forRange bytePad outputWidth s.output (expandByte bitLenMask outputWidth accBits accValue s.j)
    pure ⟨accBits, accValue, u32 (s.j + outputWidth), output⟩
  else pure ⟨accBits, accValue, s.j, s.output⟩

/-- equihash.go:39-75 `expandArray`. In `(1 << bitLen) - 1` the untyped constant is a `uint32`, so for `bitLen = 32` the
shift gives 0 and the mask is all ones. -/
def expandArray (input : List Byte) (bitLen bytePad : Nat) : Go (Except Err (List Byte)) :=
  if bitLen < 8 then pure (.error .bitLenSmall)
  else if 32 < bitLen then pure (.error .bitLenLarge)
  else
    let inputLen := u32 input.length
    let outputWidth := u32 (u32 (bitLen + 7) / 8 + bytePad)
    let outputLen := u32 (u32 (8 * outputWidth) * inputLen) / bitLen
    if outputLen = inputLen then pure (.ok input)
    else do
      let bitLenMask : U32 := ((1 : U32) <<< bitLen) - 1
      let s ← forRange 0 input.length ⟨0, 0, 0, List.replicate outputLen 0⟩
        (expandStep input bitLen bytePad outputWidth bitLenMask)
      pure (.ok s.output)

/-- equihash.go:77-94 `indicesFromMinimal`; `1<<k` is a `uint32` -/
def indicesFromMinimal (n k : Nat) (minimal : List Byte) : Go (Except Err (List U32)) := do
  let cBitLen ← collisionBitLength n k
  let minimalLen := u32 minimal.length
  if minimalLen ≠ u32 (u32 (2 ^ k) * u32 (cBitLen + 1)) / 8 then pure (.error .minimalLen)
  else if 4 < u32 (u32 (cBitLen + 1) + 7) / 8 then pure (.error .params)
  else
    let bytePad := 4 - u32 (u32 (cBitLen + 1) + 7) / 8
    match ← expandArray minimal (u32 (cBitLen + 1)) bytePad with
    | .error e => pure (.error e)
    | .ok indices => do
      let a ← bytesToUint32Array indices .big
      pure (.ok a)

/-- equihash.go:96-102 `hashBlakeWithOffset` -/
def hashBlakeWithOffset (P : Prims) (initialState personalState : List Byte) (offset : U32) (hashLength : Nat) : Go (List Byte) := do
  let newState := List.replicate (initialState.length + 4) (0 : Byte)
  let newState ← copyAt newState 0 initialState
  let newState ← putU32 .little newState initialState.length offset
  blake2b P newState personalState hashLength

/-- equihash.go:114, one iteration: `myHash[i] += binary.LittleEndian.Uint32(tmpHash[i*4 : (i+1)*4])`.  Slicing is checked against
the length; Go checks the capacity of what `Sum(nil)` returned, which may exceed the length.  The two differ only with the twist and a digest
below 64 bytes (no shipped client), about which no theorem says anything. -/
def laneStep (tmpHash : List Byte) (i : Nat) (myHash : List U32) : Go (List U32) := do
  let b ← slc tmpHash (i * 4) ((i + 1) * 4)
  let v ← getU32 .little b
  let m ← idx myHash i
  upd myHash i (m + v)

/-- equihash.go:111-116, one iteration of `for g2 := startIndex; g2 <= g; g2++` (32-bit counter) -/
def twistStep (P : Prims) (initialState personalState : List Byte) (g : U32) (hashLength : Nat) (s : U32 × List U32) :
    Go (Step (U32 × List U32) (List U32)) :=
  if s.1 ≤ g then do
    let tmpHash ← hashBlakeWithOffset P initialState personalState s.1 hashLength
    let myHash ← forRange 0 16 s.2 (laneStep tmpHash)
    pure (.cont (s.1 + 1, myHash))
  else pure (.ret s.2)

/-- equihash.go:120, one iteration (`j = 15 + 16 t`): `hash[j] &= 0xF8` -/
def maskStep (t : Nat) (hash : List Byte) : Go (List Byte) := do
  let b ← idx hash (15 + 16 * t)
  upd hash (15 + 16 * t) (b &&& 0xF8)

/-- equihash.go:104-124 `generateHash` -/
def generateHash (P : Prims) (fuel : Nat) (initialState personalState : List Byte) (g : U32) (hashLength : Nat) (twist : Bool) :
    Go (List Byte) :=
  if !twist then hashBlakeWithOffset P initialState personalState g hashLength
  else do
    let startIndex := g &&& 0xFFFFFFF0
    let myHash ← forever fuel (startIndex, List.replicate 16 (0 : U32)) (twistStep P initialState personalState g hashLength)
    let hash ← uint32ArrayToBytes myHash .little
    -- `for j := 15; j < int(hashLength); j += 16` runs for t = 0 .. hashLength/16 - 1
    forRange 0 (hashLength / 16) hash maskStep

/-- equihash.go:126-129 -/
structure Node where
  hash : List Byte
  indices : List U32
  deriving Repr

/-- equihash.go:131-147 `newNode` -/
def newNode (P : Prims) (fuel : Nat) (n k : Nat) (personalState : List Byte) (twist : Bool) (state : List Byte) (i : U32) :
    Go (Except Err Node) := do
  let per ← indicesPerHashOutput n
  let g ← divN i.toNat per
  let size ← hashOutput n
  let hash ← generateHash P fuel state personalState (BitVec.ofNat 32 g) size twist
  let start := u32 ((i.toNat % per) * (u32 (n + 7) / 8))
  let end_ := u32 (start + u32 (n + 7) / 8)
  let part ← slc hash start end_
  let c ← collisionBitLength n k
  match ← expandArray part c 0 with
  | .error e => pure (.error e)
  | .ok minimalHash => pure (.ok ⟨minimalHash, [i]⟩)

/-- equihash.go:153, one iteration (`i = trim + t`): `hash[i-trim] = a.hash[i] ^ b.hash[i]` -/
def xorStep (a b : Node) (trim t : Nat) (hash : List Byte) : Go (List Byte) := do
  let x ← idx a.hash (trim + t)
  let y ← idx b.hash (trim + t)
  upd hash t (x ^^^ y)

/-- equihash.go:149-171 `newNodeFromChildrenRef` -/
def newNodeFromChildrenRef (a b : Node) (trim : Nat) : Go Node := do
  let len := u32 a.hash.length
  let hash ← forRange 0 (len - trim) (List.replicate (u32 (len + 2 ^ 32 - trim)) 0) (xorStep a b trim)
  let a0 ← idx a.indices 0
  let b0 ← idx b.indices 0
  let indices := if a0 < b0 then a.indices ++ b.indices else b.indices ++ a.indices
  pure ⟨hash, indices⟩

/-- equihash.go:175-179, one iteration: `if a.hash[i] != b.hash[i] { return error }` -/
def collideStep (a b : Node) (i : Nat) (_ : Unit) : Go (Step Unit Err) := do
  let x ← idx a.hash i
  let y ← idx b.hash i
  if x ≠ y then pure (.ret .collision) else pure (.cont ())

/-- equihash.go:173-196 `validateSubtrees`. The two nested range loops at 187-193 compare all pairs and have no other
effect. -/
def validateSubtrees (n k : Nat) (a b : Node) : Go (Option Err) := do
  let cbl ← collisionByteLength n k
  match ← forRangeE 0 cbl () (collideStep a b) with
  | .ret e => pure (some e)
  | .cont () => do
    let b0 ← idx b.indices 0
    let a0 ← idx a.indices 0
    if b0 < a0 then pure (some .order)
    else if a.indices.any (fun i => b.indices.any (fun j => i == j)) then pure (some .duplicate)
    else pure none

/-- equihash.go:220-226, the body of the pairing loop -/
def combine (n k : Nat) (a b : Node) : Go (Except Err Node) := do
  match ← validateSubtrees n k a b with
  | some e => pure (.error e)
  | none => do
    let trim ← collisionByteLength n k
    let row ← newNodeFromChildrenRef a b trim
    pure (.ok row)

/-- equihash.go:209-215, one iteration: `rows[i], err = newNode(…)` -/
def rowStep (P : Prims) (fuel : Nat) (n k : Nat) (personalState : List Byte) (twist : Bool) (header : List Byte)
    (indices : List U32) (i : Nat) (rows : List Node) : Go (Step (List Node) Err) := do
  let ix ← idx indices i
  match ← newNode P fuel n k personalState twist header ix with
  | .error e => pure (.ret e)
  | .ok nd => pure (.cont (rows ++ [nd]))

/-- equihash.go:198-239 `verify` -/
def verify (P : Prims) (fuel : Nat) (n k : Nat) (personal header soln : List Byte) (twist : Bool) : Go (Bool × Option Err) := do
  let personalState := List.replicate (personal.length + 8) (0 : Byte)
  let personalState ← copyAt personalState 0 personal
  let personalState ← putU32 .little personalState personal.length (BitVec.ofNat 32 n)
  let personalState ← putU32 .little personalState (personal.length + 4) (BitVec.ofNat 32 k)
  match ← indicesFromMinimal n k soln with
  | .error e => pure (false, some e)
  | .ok indices => do
    match ← forRangeE 0 indices.length [] (rowStep P fuel n k personalState twist header indices) with
    | .ret e => pure (false, some e)
    | .cont rows => do
      match ← Pairing.rounds (fun _ => combine n k) fuel 0 rows with
      | .error e => pure (false, some e)
      | .ok rows => do
        let top ← idx rows 0
        if top.hash.any (fun v => v != 0) then pure (false, none) else pure (true, none)

/-- client.go:3-8; `n`, `k` are `uint32` -/
structure Client where
  n : U32
  k : U32
  personal : List Byte
  twist : Bool

/-- ASCII bytes of a Go string constant -/
def ascii (s : String) : List Byte := s.toList.map fun ch => BitVec.ofNat 8 ch.toNat

/-- client.go:21-23 -/
def newFlux : Client := ⟨125, 4, ascii "ZelProof", true⟩
/-- client.go:25-27 -/
def newBitcoinGold : Client := ⟨144, 5, ascii "BgoldPoW", false⟩
/-- client.go:29-31 -/
def newZClassic : Client := ⟨192, 7, ascii "ZcashPoW", false⟩
/-- client.go:33-35 -/
def newZCash : Client := ⟨200, 9, ascii "ZcashPoW", false⟩
/-- client.go:37-39 -/
def newAion : Client := ⟨210, 9, ascii "AION0PoW", false⟩

/-- client.go:41-43 `(*Client).Verify` -/
def Client.verify (P : Prims) (fuel : Nat) (c : Client) (header soln : List Byte) : Go (Bool × Option Err) :=
  Equihash.verify P fuel c.n.toNat c.k.toNat c.personal header soln c.twist

end Verif.Equihash
