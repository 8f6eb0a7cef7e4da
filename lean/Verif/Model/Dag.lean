import Verif.Model.Generate
import Mathlib.Data.Nat.Prime.Defs

/-! # Model of /repo/internal/dag/config.go and the calculations of /repo/internal/dag/dag.go:46-119

`big.Int.ProbablyPrime(1)` is taken to be exact below 2^64, as its documentation says and as the comment at dag.go:102 relies on:
it is modelled by `Nat.Prime`. Loops whose number of iterations is not evident carry a `fuel` argument. -/

set_option autoImplicit false

namespace Verif.Dag

open Go

/-- config.go:24-27 -/
structure LookupTable where
  maxEpoch : U64
  table : List U64

/-- config.go:29-36 -/
def newLookupTable (table : List U64) (maxEpoch : U64) : LookupTable := { maxEpoch := maxEpoch, table := table }

/-- config.go:38-68; the default values are Go's zero values; a nil pointer is `none`; `uint` is 64 bits wide -/
structure Config where
  name : String := ""
  revision : Int := 0
  storageDir : String := ""
  datasetInitBytes : U64 := 0
  datasetGrowthBytes : U64 := 0
  cacheInitBytes : U64 := 0
  cacheGrowthBytes : U64 := 0
  datasetSizes : Option LookupTable := none
  cacheSizes : Option LookupTable := none
  mixBytes : U64 := 0
  datasetParents : U32 := 0
  epochLength : U64 := 0
  seedEpochLength : U64 := 0
  cacheRounds : Int := 0
  cachesCount : Int := 0
  cachesLockMmap : Bool := false
  l1Enabled : Bool := false
  l1CacheSize : U64 := 0
  l1CacheNumItems : U64 := 0

/-- dag.go:63-67 -/
def calcEpoch (d : Config) (height : U64) : Go U64 := udiv height d.epochLength

/-- dag.go:76-78, one iteration -/
def seedHashStep (P : Prims) (_ : Nat) (seed : List Byte) : Go (List Byte) := keccak256At P seed seed

/-- dag.go:69-81 -/
def seedHash (P : Prims) (d : Config) (height : U64) : Go (List Byte) := do
  let seed := List.replicate 32 (0 : Byte)
  if height < d.seedEpochLength then return seed
  let n ← udiv height d.seedEpochLength
  forRange 0 n.toInt.toNat seed (seedHashStep P)

/-- `new(big.Int).SetUint64(n).ProbablyPrime(1)` -/
def probablyPrime (n : U64) : Bool := decide n.toNat.Prime

/-- dag.go:103-105, the condition and the body of the loop -/
def cacheSizeStep (size : U64) : Go (Step U64 U64) :=
  if probablyPrime (size / BitVec.ofNat 64 hashBytes) then .ok (.ret size) else .ok (.cont (size - 2 * BitVec.ofNat 64 hashBytes))

/-- dag.go:99-108 -/
def calcCacheSize (fuel : Nat) (d : Config) (epoch : U64) : Go U64 :=
  let size := d.cacheInitBytes + d.cacheGrowthBytes * epoch - BitVec.ofNat 64 hashBytes
  forever fuel size cacheSizeStep

/-- dag.go:114-116, the condition and the body of the loop -/
def datasetSizeStep (d : Config) (size : U64) : Go (Step U64 U64) := do
  let n ← udiv size d.mixBytes
  if probablyPrime n then .ok (.ret size) else .ok (.cont (size - 2 * d.mixBytes))

/-- dag.go:110-119 -/
def calcDatasetSize (fuel : Nat) (d : Config) (epoch : U64) : Go U64 :=
  let size := d.datasetInitBytes + d.datasetGrowthBytes * epoch - d.mixBytes
  forever fuel size (datasetSizeStep d)

/-- dag.go:83-89 -/
def cacheSize (fuel : Nat) (d : Config) (epoch : U64) : Go U64 :=
  match d.cacheSizes with
  | some t => if epoch < t.maxEpoch then idx t.table epoch.toNat else calcCacheSize fuel d epoch
  | none => calcCacheSize fuel d epoch

/-- dag.go:91-97 -/
def datasetSize (fuel : Nat) (d : Config) (epoch : U64) : Go U64 :=
  match d.datasetSizes with
  | some t => if epoch < t.maxEpoch then idx t.table epoch.toNat else calcDatasetSize fuel d epoch
  | none => calcDatasetSize fuel d epoch

end Verif.Dag
