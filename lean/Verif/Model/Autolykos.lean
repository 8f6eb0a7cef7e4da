import Verif.Go.Basic
import Verif.Model.Convutil

/-! # Model of /repo/autolykos2/{client,autolykos2}.go

`*big.Int` values are natural numbers (none is negative here). -/

set_option autoImplicit false

namespace Verif.Autolykos

open Go

/-- `big.Int.Bytes()` (math/big): the absolute value as a big-endian byte slice without leading zeros -/
def bigBytes (v : Nat) : List Byte :=
  let n := if v = 0 then 0 else v.log2 / 8 + 1
  (List.range n).map fun i => BitVec.ofNat 8 (v >>> (8 * (n - 1 - i)))

/-- `x.Mod(x, y)` (math/big): panics for `y = 0` -/
def bigMod (x y : Nat) : Go Nat := if y = 0 then panic .divZero else pure (x % y)

/-- autolykos2.go:17-23 `concatBytes` -/
def concatBytes (a b : List Byte) : List Byte := a ++ b

/-- autolykos2.go:27-29, one iteration -/
def mStep (i : Nat) (m : List Byte) : Go (List Byte) := do
  let _ ← slc m (i * 8) (i * 8 + 8)
  putU64 .big m (i * 8) (BitVec.ofNat 64 i)

/-- autolykos2.go:25-32 `generateM`, for a size below 2^61 -/
def generateM (size : Nat) : Go (List Byte) := forRange 0 size (List.replicate (size * 8) 0) mStep

/-- autolykos2.go:12 -/
def increaseStart : U64 := 600 * 1024

/-- autolykos2.go:13 -/
def increasePeriodForN : U64 := 50 * 1024

/-- autolykos2.go:14 -/
def nIncreasementHeightMax : U64 := 4198400

/-- autolykos2.go:42-44, one iteration -/
def nStep (_ : Nat) (n : U32) : Go U32 := pure ((n / 100) * 105)

/-- autolykos2.go:34-48 `calcN`; in the second branch `(height-increaseStart)/increasePeriodForN + 1` is at most 71, so the conversion to
`int` changes nothing -/
def calcN (nBase : U32) (height : U64) : Go U32 :=
  if height > nIncreasementHeightMax then pure 2143944600
  else if height ≥ increaseStart then
    forRange 0 ((height - increaseStart) / increasePeriodForN + 1).toNat nBase nStep
  else pure nBase

/-- autolykos2.go:55-57, one iteration -/
def indexStep (extendedHash : List Byte) (n : U32) (i : Nat) (indexes : List U32) : Go (List U32) := do
  let b ← slc extendedHash i (i + 4)
  let v ← getU32 .big b
  let r ← umod v n
  upd indexes i r

/-- autolykos2.go:50-60 `genIndexes` -/
def genIndexes (P : Prims) (seed : List Byte) (k n : U32) : Go (List U32) :=
  let hash := P.blake2b256 seed
  let extendedHash := hash ++ hash
  forRange 0 k.toNat (List.replicate k.toNat 0) (indexStep extendedHash n)

/-- autolykos2.go:81-85, one iteration -/
def sumStep (P : Prims) (h m : List Byte) (indexes : List U32) (j : Nat) (f2 : Nat) : Go Nat := do
  let index ← idx indexes j
  let ib ← Convutil.uint32ToBytes index .big
  let elem := concatBytes ib (concatBytes h m)
  let hash := P.blake2b256 elem
  let elemHash ← slc hash 1 hash.length
  pure (f2 + beNat elemHash)

/-- autolykos2.go:62-90 `compute` -/
def compute (P : Prims) (k nBase : U32) (msg : List Byte) (nonce height : U64) : Go (List Byte) := do
  let m ← generateM 1024
  let h ← Convutil.uint32ToBytes (height.setWidth 32) .big
  let nonceBytes ← Convutil.uint64ToBytes nonce .big
  let n ← calcN nBase height
  let bigN := (n.setWidth 64 : U64).toNat
  let fullMsg := concatBytes msg nonceBytes
  let msgHash := P.blake2b256 fullMsg
  let tail ← slc msgHash 24 32
  let prei8 := beNat tail
  let r ← bigMod prei8 bigN
  let i ← Convutil.uint32ToBytes ((BitVec.ofNat 64 r : U64).setWidth 32) .big
  let f ← slc (P.blake2b256 (concatBytes i (concatBytes h m))) 1 32
  let seed := concatBytes f (concatBytes msg nonceBytes)
  let indexes ← genIndexes P seed k n
  let f2 ← forRange 0 indexes.length 0 (sumStep P h m indexes)
  pure (P.blake2b256 (bigBytes f2))

/-- client.go:7-11 -/
structure Client where
  k : U32
  n : U32
  nBase : U32

/-- client.go:13-21 `New`; `1 << n` is a `uint32` shift, zero for `n ≥ 32` -/
def new (k n : U32) : Client := ⟨k, n, (1 : U32) <<< n.toNat⟩

/-- client.go:23-25 `NewErgo` -/
def newErgo : Client := new 32 26

/-- client.go:27-33 `Compute`; `none` is the error result -/
def Client.compute (P : Prims) (c : Client) (msg : List Byte) (height nonce : U64) : Go (Option (List Byte)) :=
  if msg.length ≠ 32 then pure none
  else do
    let d ← Autolykos.compute P c.k c.nBase msg nonce height
    pure (some d)

end Verif.Autolykos
