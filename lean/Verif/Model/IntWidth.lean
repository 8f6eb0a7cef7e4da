import Verif.Model.Autolykos
import Verif.Model.Disk
import Verif.Model.Eaglesong
import Verif.Model.Equihash

/-! # The code on machines whose `int` has `w` bits

Go's `int` has 64 bits on the machines of the other model files and 32 bits on 386, arm and mips. The repository has no build constraint that rules
these out. Here are the functions whose `int` values are not bounded by the length of a slice that exists:

* dag.go:76 `int(height/d.SeedEpochLength)`, cache.go:103 `int(c.epoch) - cfg.CachesCount`, generate.go:43, 79 and 127 `int(size)`,
  autolykos2.go:41 `int(…)`, equihash.go:101 and 119 `int(hashLength)`;
* eaglesong.go:45 `(len(input)+1)*8+rate-1`.

Everything else is as in the files imported. Below, `i*rate` in eaglesong.go:49-51 is at most the sum of line 45, and in line 67 at most sixteen
times the capacity, which is taken to be below 2^27. Byte offsets into caches do not overflow because caches of 2^31 bytes are left out here (on a
32-bit machine they can hardly be allocated: `make` or `mmap` fails). -/

set_option autoImplicit false

namespace Verif.IntWidth

open Go Dag

/-- the conversion to an `int` of `w` bits of an exact value (or of a value of a wider type) -/
def toInt (w : Nat) (x : Int) : Int := (x + 2 ^ (w - 1)) % 2 ^ w - 2 ^ (w - 1)

/-- dag.go:69-81 -/
def seedHash (w : Nat) (P : Prims) (d : Config) (height : U64) : Go (List Byte) := do
  let seed := List.replicate 32 (0 : Byte)
  if height < d.seedEpochLength then return seed
  let n ← udiv height d.seedEpochLength
  forRange 0 (toInt w n.toNat).toNat seed (seedHashStep P)

/-- generate.go:42-67 -/
def generateCacheBytes (w : Nat) (P : Prims) (cacheRounds : Int) (cache seed : List Byte) : Go (List Byte) := do
  let size := cache.length
  let rows := ((toInt w size).tdiv hashBytes).toNat
  let cache ← keccak512At P cache 0 seed
  let cache ← forRange 1 ((size + hashBytes - 1) / hashBytes) cache (chainStep P)
  let st ← forRange 0 cacheRounds.toNat (cache, List.replicate hashBytes 0) (memoPass P rows)
  pure st.1

/-- generate.go:34-68 -/
def generateCache (w : Nat) (P : Prims) (cacheRounds : Int) (dest : List U32) (seed : List Byte) : Go (List U32) := do
  let cache ← generateCacheBytes w P cacheRounds (byteView dest) seed
  pure (wordView cache)

/-- generate.go:70-85 -/
def generateL1Cache (w : Nat) (P : Prims) (parents : U32) (dest cache : List U32) : Go (List U32) := do
  let l1 := byteView dest
  let size := l1.length
  let rows := ((toInt w size).tdiv hashBytes).toNat
  let l1 ← forRange 0 rows l1 (l1Step P parents cache)
  pure (wordView l1)

/-- generate.go:125-136 -/
def generateDatasetItemUint (w : Nat) (P : Prims) (parents : U32) (cache : List U32) (index size : U32) : Go (List U32) :=
  forRange 0 (toInt w size.toNat).toNat (List.replicate (BitVec.ofNat 32 hashWords * size).toNat 0) (itemStep P parents cache index size)

/-- cache.go:50-57 and 96-97 -/
def memoryL1 (w : Nat) (P : Prims) (d : Config) (cache : List U32) : Go (List U32) :=
  generateL1Cache w P d.datasetParents (List.replicate d.l1CacheNumItems.toNat 0) cache

/-- cache.go:49-59 -/
def generateInMemory (w : Nat) (P : Prims) (d : Config) (size : U64) (seed : List Byte) : Go Loaded := do
  let cache ← generateCache w P d.cacheRounds (freshCache size) seed
  if d.l1Enabled then do
    let l1 ← memoryL1 w P d cache
    return ⟨cache, l1⟩
  else return ⟨cache, []⟩

/-- cache.go:82-89 -/
def provideCache (w : Nat) (P : Prims) (d : Config) (size : U64) (seed : List Byte) (path : String) (fs : FS) (o : WriteEnv) :
    Go (List U32 × FS) := do
  let (df, fs) ← memoryMapAndGenerate fs path size d.cachesLockMmap (fun buffer => generateCache w P d.cacheRounds buffer seed) o
  match df with
  | some data => return (data, fs)
  | none => do
    let cache ← generateCache w P d.cacheRounds (freshCache size) seed
    return (cache, fs)

/-- cache.go:91-98 -/
def provideL1 (w : Nat) (P : Prims) (d : Config) (cache : List U32) (path : String) (fs : FS) (o : WriteEnv) : Go (List U32 × FS) := do
  let (df, fs) ← memoryMapAndGenerate fs path d.l1CacheSize d.cachesLockMmap
    (fun buffer => generateL1Cache w P d.datasetParents buffer cache) o
  match df with
  | some data => return (data, fs)
  | none => do
    let l1 ← memoryL1 w P d cache
    return (l1, fs)

/-- cache.go:103-109, one iteration: the `i`-th value of `ep` is `start - i`, converted to a `uint64` -/
def cleanupStep (w : Nat) (P : Prims) (d : Config) (fails : String → Bool) (start : Int) (i : Nat) (fs : FS) : Go FS := do
  let ep : U64 := BitVec.ofInt 64 (start - i)
  let seed ← seedHash w P d (ep * d.epochLength + 1)
  let seed ← slc seed 0 8
  let fs := removeFile fails fs (cacheStorageLocation d seed)
  return removeFile fails fs (l1StorageLocation d seed)

/-- cache.go:102-110 -/
def cleanup (w : Nat) (P : Prims) (d : Config) (epoch : U64) (fails : String → Bool) (fs : FS) : Go FS :=
  let start := toInt w (toInt w epoch.toNat - d.cachesCount)
  forRange 0 (start + 1).toNat fs (cleanupStep w P d fails start)

/-- cache.go:82-89 if the cache is needed -/
def ensureCache (w : Nat) (P : Prims) (d : Config) (size : U64) (seed : List Byte) (path : String) (old : Option (List U32)) (fs : FS)
    (o : WriteEnv) : Go (List U32 × FS) :=
  match old with
  | some data => .ok (data, fs)
  | none => provideCache w P d size seed path fs o

/-- cache.go:91-98 if the L1 cache is needed -/
def ensureL1 (w : Nat) (P : Prims) (d : Config) (cache : List U32) (path : String) (old : Option (List U32)) (fs : FS)
    (o : WriteEnv) : Go (List U32 × FS) :=
  match old with
  | some data => .ok (data, fs)
  | none => provideL1 w P d cache path fs o

/-- cache.go:61-110 -/
def generateOnDisk (w : Nat) (P : Prims) (d : Config) (epoch size : U64) (seed : List Byte) (fs : FS) (o : GenEnv) : Go (Loaded × FS) := do
  let key ← slc seed 0 8
  let cachePath := cacheStorageLocation d key
  let l1Path := l1StorageLocation d key
  let oldCache ← memoryMap fs cachePath d.cachesLockMmap o.cacheRead
  let oldL1 ← tryL1 d fs l1Path o.l1Read
  match oldCache, oldL1 with
  | some cache, some l1 => return (⟨cache, l1⟩, fs)
  | _, _ => do
    let (cache, fs) ← ensureCache w P d size seed cachePath oldCache fs o.cacheWrite
    let (l1, fs) ← ensureL1 w P d cache l1Path oldL1 fs o.l1Write
    let fs ← cleanup w P d epoch o.removeFails fs
    return (⟨cache, l1⟩, fs)

/-- cache.go:42-112 -/
def generate (w : Nat) (P : Prims) (fuel : Nat) (d : Config) (epoch : U64) (fs : FS) (o : GenEnv) : Go (Loaded × FS) := do
  let size ← cacheSize fuel d epoch
  let seed ← seedHash w P d (epoch * d.epochLength + 1)
  if d.storageDir = "" then do
    let l ← generateInMemory w P d size seed
    return (l, fs)
  else generateOnDisk w P d epoch size seed fs o

/-- autolykos2.go:36-50 -/
def calcN (w : Nat) (nBase : U32) (height : U64) : Go U32 :=
  if height > Autolykos.nIncreasementHeightMax then pure 2143944600
  else if height ≥ Autolykos.increaseStart then
    forRange 0 (toInt w ((height - Autolykos.increaseStart) / Autolykos.increasePeriodForN + 1).toNat).toNat nBase Autolykos.nStep
  else pure nBase

/-- eaglesong.go:42-75 -/
def eaglesong (w : Nat) (rounds capacity rate : Int) (delim : Byte) (input : List Byte) : Go (List Byte) := do
  let state := List.replicate 16 (0 : U32)
  if rate = 0 then panic .divZero
  else do
    let state ← forRange 0 ((toInt w (((input.length : Int) + 1) * 8 + rate - 1)).tdiv rate).toNat state
      (Eaglesong.blockStep rounds.toNat rate.toNat delim input)
    if capacity < 0 then panic .explicit
    else if rate.tdiv 8 = 0 then panic .divZero
    else do
      let s ← forRange 0 (capacity.tdiv (rate.tdiv 8)).toNat (List.replicate capacity.toNat (0 : Byte), state)
        (Eaglesong.squeezeStep rounds.toNat rate.toNat)
      pure s.1

/-- eaglesong/client.go:27-29 -/
def compute (w : Nat) (c : Eaglesong.Client) (input : List Byte) : Go (List Byte) := eaglesong w c.rounds c.capacity c.rate c.delim input

end Verif.IntWidth
