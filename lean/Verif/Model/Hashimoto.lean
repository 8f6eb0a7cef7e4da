import Verif.Go.Basic
import Verif.Model.Convutil

/-! # Model of /repo/ethash/ethash.go -/

set_option autoImplicit false

namespace Verif.Ethash

open Go

/-- ethash.go:26 -/
def mixBytes : Nat := 128

/-- ethash.go:27 -/
def hashBytes : Nat := 64

/-- ethash.go:28 -/
def hashWords : Nat := 16

/-- ethash.go:31 -/
def hashimotoRounds : Nat := 64

/-- a `func(index uint32) []uint32` -/
abbrev Lookup := U32 → Go (List U32)

/-- ethash.go:51 -/
def mixStep (seed : List Byte) (i : Nat) (mix : List U32) : Go (List U32) := do
  let tail ← slc seed (i % 16 * 4) seed.length
  let w ← getU32 .little tail
  upd mix i w

/-- ethash.go:59 -/
def lookupStep (lookup : Lookup) (parent : U32) (j : Nat) (temp : List U32) : Go (List U32) := do
  let item ← lookup (2 * parent + BitVec.ofNat 32 j)
  copyAt temp (j * hashWords) item

/-- ethash.go:57-61; the state is `(mix, temp)` -/
def hashimotoStep (lookup : Lookup) (rows seedHead : U32) (i : Nat) (st : List U32 × List U32) : Go (List U32 × List U32) := do
  let (mix, temp) := st
  let m ← idx mix (i % mix.length)
  let parent ← umod (Crypto.fnv1 (BitVec.ofNat 32 i ^^^ seedHead) m) rows
  let temp ← forRange 0 (mixBytes / hashBytes) temp (lookupStep lookup parent)
  let mix ← Crypto.fnvHash mix temp
  pure (mix, temp)

/-- ethash.go:66, the iteration with `i = 4 k` -/
def compressStep (k : Nat) (mix : List U32) : Go (List U32) := do
  let i := 4 * k
  let a ← idx mix i
  let b ← idx mix (i + 1)
  let c ← idx mix (i + 2)
  let d ← idx mix (i + 3)
  upd mix (i / 4) (Crypto.fnv1 (Crypto.fnv1 (Crypto.fnv1 a b) c) d)

/-- ethash.go:72 -/
def digestStep (mix : List U32) (i : Nat) (digest : List Byte) : Go (List Byte) := do
  let v ← idx mix i
  putU32 .little digest (i * 4) v

/-- ethash.go:36-76 `hashimoto`. `mix[i%len(mix)]` with a non-empty `mix`. -/
def hashimoto (P : Prims) (hash : List Byte) (nonce datasetSize : U64) (lookup : Lookup) : Go (List Byte × List Byte) := do
  let rows : U32 := (datasetSize / BitVec.ofNat 64 mixBytes).setWidth 32
  let seed ← copyAt (List.replicate 40 0) 0 hash
  let seed ← putU64 .little seed 32 nonce
  let seed := P.keccak512 seed
  let seedHead ← getU32 .little seed
  let mix ← forRange 0 (mixBytes / 4) (List.replicate (mixBytes / 4) 0) (mixStep seed)
  let temp := List.replicate mix.length 0
  let st ← forRange 0 hashimotoRounds (mix, temp) (hashimotoStep lookup rows seedHead)
  let mix ← forRange 0 (st.1.length / 4) st.1 compressStep
  let mix ← slc mix 0 (mix.length / 4)
  let digest ← forRange 0 mix.length (List.replicate 32 0) (digestStep mix)
  pure (digest, P.keccak256 (seed ++ digest))

end Verif.Ethash
