import Verif.Model.Progpow

/-! # Model of /repo/kawpow/kawpow.go, /repo/firopow/firopow.go and /repo/internal/progpow/progpow094.go

The three files share the loops over the hash and the mix; an array `[25]uint32` is a list of length 25. -/

set_option autoImplicit false

namespace Verif.Progpow

open Go Crypto

/-- kawpow.go:36, firopow.go:18, progpow094.go:28, one iteration -/
def hashWordStep (hash : List Byte) (i : Nat) (seed : List U32) : Go (List U32) := do
  let b ← slc hash (i * 4) (i * 4 + 4)
  let w ← getU32 .little b
  upd seed i w

/-- kawpow.go:56-57, firopow.go:36-37, progpow094.go:44-45, one iteration -/
def mixWordStep (seed : List U32) (mixHash : List Byte) (i : Nat) (state : List U32) : Go (List U32) := do
  let s ← idx seed i
  let state ← upd state i s
  let b ← slc mixHash (i * 4) (i * 4 + 4)
  let w ← getU32 .little b
  upd state (i + 8) w

/-- `uint64(seed[0]) + (uint64(seed[1]) << 32)` -/
def seedHead (seed : List U32) : Go U64 := do
  let a ← idx seed 0
  let b ← idx seed 1
  return a.setWidth 64 + ((b.setWidth 64 : U64) <<< 32)

/-- kawpow.go:15-31 -/
def ravencoinKawpow : List U32 :=
  [0x00000072, 0x00000041, 0x00000056, 0x00000045, 0x0000004E, 0x00000043, 0x0000004F, 0x00000049, 0x0000004E, 0x0000004B, 0x00000041,
    0x00000057, 0x00000050, 0x0000004F, 0x00000057]

/-- kawpow.go:43 and 61: one iteration of the loops that copy the padding to the words from `from_` on -/
def padStep (from_ : Nat) (i : Nat) (seed : List U32) : Go (List U32) := do
  let w ← idx ravencoinKawpow (i - from_)
  upd seed i w

/-- kawpow.go:33-51 -/
def kawpowInitialize (hash : List Byte) (nonce : U64) : Go (List U32 × U64) := do
  let seed ← forRange 0 8 (List.replicate 25 (0 : U32)) (hashWordStep hash)
  let seed ← upd seed 8 (nonce.setWidth 32)
  let seed ← upd seed 9 ((nonce >>> 32).setWidth 32)
  let seed ← forRange 10 25 seed (padStep 10)
  let seed ← keccakF800 seed
  let head ← seedHead seed
  return (seed, head)

/-- kawpow.go:53-67 -/
def kawpowFinalize (seed : List U32) (mixHash : List Byte) : Go (List Byte) := do
  let state ← forRange 0 8 (List.replicate 25 (0 : U32)) (mixWordStep seed mixHash)
  let state ← forRange 16 25 state (padStep 16)
  let state ← keccakF800 state
  let head ← slc state 0 8
  Convutil.uint32ArrayToBytes head .little

/-- kawpow.go:70-79 -/
def kawpowCfg : Config where
  periodLength := 3
  dagLoads := 4
  cacheBytes := 16 * 1024
  laneCount := 16
  registerCount := 32
  roundCount := 64
  roundCacheAccesses := 11
  roundMathOperations := 18

/-- kawpow.go:69-86 -/
def kawpow (hash : List Byte) (height nonce datasetSize : U64) (lookup : Lookup) (l1 : List U32) : Go (List Byte × List Byte) := do
  let (seed, head) ← kawpowInitialize hash nonce
  let mixHash ← Progpow.hash kawpowCfg height head datasetSize lookup l1
  let digest ← kawpowFinalize seed mixHash
  return (mixHash, digest)

/-- firopow.go:15-31 -/
def firopowInitialize (hash : List Byte) (nonce : U64) : Go (List U32 × U64) := do
  let seed ← forRange 0 8 (List.replicate 25 (0 : U32)) (hashWordStep hash)
  let seed ← upd seed 8 (nonce.setWidth 32)
  let seed ← upd seed 9 ((nonce >>> 32).setWidth 32)
  let seed ← upd seed 10 0x00000001
  let seed ← upd seed 18 0x80008081
  let seed ← keccakF800 seed
  let head ← seedHead seed
  return (seed, head)

/-- firopow.go:33-46 -/
def firopowFinalize (seed : List U32) (mixHash : List Byte) : Go (List Byte) := do
  let state ← forRange 0 8 (List.replicate 25 (0 : U32)) (mixWordStep seed mixHash)
  let state ← upd state 17 0x00000001
  let state ← upd state 24 0x80008081
  let state ← keccakF800 state
  let head ← slc state 0 8
  Convutil.uint32ArrayToBytes head .little

/-- firopow.go:49-58 -/
def firopowCfg : Config where
  periodLength := 1
  dagLoads := 4
  cacheBytes := 16 * 1024
  laneCount := 16
  registerCount := 32
  roundCount := 64
  roundCacheAccesses := 11
  roundMathOperations := 18

/-- firopow.go:48-65 -/
def firopow (hash : List Byte) (height nonce datasetSize : U64) (lookup : Lookup) (l1 : List U32) : Go (List Byte × List Byte) := do
  let (seed, head) ← firopowInitialize hash nonce
  let mixHash ← Progpow.hash firopowCfg height head datasetSize lookup l1
  let digest ← firopowFinalize seed mixHash
  return (mixHash, digest)

/-- progpow094.go:14-23 -/
def progpow094Cfg : Config where
  periodLength := 10
  dagLoads := 4
  cacheBytes := 16 * 1024
  laneCount := 16
  registerCount := 32
  roundCount := 64
  roundCacheAccesses := 11
  roundMathOperations := 18

/-- progpow094.go:25-39 -/
def progpow094Initialize (hash : List Byte) (nonce : U64) : Go (List U32 × U64) := do
  let seed ← forRange 0 8 (List.replicate 25 (0 : U32)) (hashWordStep hash)
  let seed ← upd seed 8 (nonce.setWidth 32)
  let seed ← upd seed 9 ((nonce >>> 32).setWidth 32)
  let seed ← keccakF800 seed
  let head ← seedHead seed
  return (seed, head)

/-- progpow094.go:41-51 -/
def progpow094Finalize (seed : List U32) (mixHash : List Byte) : Go (List Byte) := do
  let state ← forRange 0 8 (List.replicate 25 (0 : U32)) (mixWordStep seed mixHash)
  let state ← keccakF800 state
  let head ← slc state 0 8
  Convutil.uint32ArrayToBytes head .little

/-- progpow094.go:53-59 `compute` -/
def progpow094 (hash : List Byte) (height nonce datasetSize : U64) (lookup : Lookup) (l1 : List U32) : Go (List Byte × List Byte) := do
  let (seed, head) ← progpow094Initialize hash nonce
  let mixHash ← Progpow.hash progpow094Cfg height head datasetSize lookup l1
  let digest ← progpow094Finalize seed mixHash
  return (mixHash, digest)

end Verif.Progpow
