import Verif.Model.Configs

/-! # Model of /repo/internal/dag/mmap.go and /repo/internal/dag/cache.go, one goroutine at a time

* The file system is a function from paths to contents; files are those of one directory. `filepath.Join(dir, name)` is `dir/name`
  (cleaning the path is left out).
* Every call to the operating system may fail: the outcomes are the fields of `MapEnv`, `WriteEnv` and `GenEnv`, about which the
  theorems assume nothing. Opening a file that does not exist and mapping an empty file always fail.
* The error values are not distinguished: an `error` other than nil is `none`.
* The `[]uint32` view of a mapped file (mmap.go:95-100) is the list of its little-endian words: the host is little-endian. What is
  written to the view of a writable mapping is in the file when it is unmapped.
* File handles, `Unmap`, the finalizer (cache.go:115-127) and the difference between a mapping and a copy are left out here; what
  happens to a file while it is mapped is the subject of `Verif.Model.Files`. -/

set_option autoImplicit false

namespace Verif.Dag

open Go

/-- the files of a directory -/
abbrev FS := String → Option (List Byte)

/-- create or replace a file -/
def FS.write (fs : FS) (path : String) (c : List Byte) : FS := fun p => if p = path then some c else fs p

/-- remove a file -/
def FS.remove (fs : FS) (path : String) : FS := fun p => if p = path then none else fs p

/-- the digits of `%x` -/
def hexDigit (n : Nat) : Char := if n < 10 then Char.ofNat (48 + n) else Char.ofNat (87 + n)

/-- `fmt.Sprintf("%x", b)` -/
def hexString (b : List Byte) : String := String.ofList (b.flatMap fun x => [hexDigit (x.toNat / 16), hexDigit (x.toNat % 16)])

/-- dag.go:47-52 -/
def cacheStorageLocation (d : Config) (seed : List Byte) : String :=
  d.storageDir ++ "/" ++ ("cache-" ++ d.name ++ "-R" ++ toString d.revision ++ "-" ++ hexString seed)

/-- dag.go:54-59 -/
def l1StorageLocation (d : Config) (seed : List Byte) : String :=
  d.storageDir ++ "/" ++ ("l1-" ++ d.name ++ "-R" ++ toString d.revision ++ "-" ++ hexString seed)

/-- mmap.go:32 -/
def dumpMagic : List U32 := [0xbaddcafe, 0xfee1dead]

/-- the outcomes of the system calls of `memoryMap` -/
structure MapEnv where
  openFails : Bool
  mapFails : Bool
  lockFails : Bool

/-- mmap.go:57-61, one iteration; leaving the function is `ret` -/
def magicStep (buffer : List U32) (i : Nat) (_ : Unit) : Go (Step Unit Unit) := do
  let magic ← idx dumpMagic i
  let w ← idx buffer i
  if w ≠ magic then return .ret () else return .cont ()

/-- mmap.go:65-78, after the magic was found to be right -/
def mapped (buffer : List U32) (lock : Bool) (o : MapEnv) : Go (Option (List U32)) :=
  if lock && o.lockFails then .ok none
  else do
    let data ← slc buffer dumpMagic.length buffer.length
    return some data

/-- mmap.go:51-78 with the contents of the opened file -/
def memoryMapContent (content : List Byte) (lock : Bool) (o : MapEnv) : Go (Option (List U32)) :=
  if o.mapFails || content.length = 0 then .ok none
  else do
    let r ← forRangeE 0 dumpMagic.length () (magicStep (wordView content))
    match r with
    | .ret _ => return none
    | .cont _ => mapped (wordView content) lock o

/-- mmap.go:42-79 `memoryMap` -/
def memoryMap (fs : FS) (path : String) (lock : Bool) (o : MapEnv) : Go (Option (List U32)) :=
  if o.openFails then .ok none
  else match fs path with
    | none => .ok none
    | some content => memoryMapContent content lock o

/-- the outcomes of the system calls of `memoryMapAndGenerate` and the random number of the temporary name -/
structure WriteEnv where
  mkdirFails : Bool
  suffix : Nat
  createFails : Bool
  truncateFails : Bool
  mapFails : Bool
  unmapFails : Bool
  closeFails : Bool
  renameFails : Bool
  removeFails : Bool
  reading : MapEnv

/-- mmap.go:127 -/
def tempPath (path : String) (suffix : Nat) : String := path ++ "." ++ toString suffix

/-- mmap.go:147-149: what is in the file of `n` bytes after it was filled -/
def fillContent (n : Nat) (generator : List U32 → Go (List U32)) : Go (List Byte) := do
  let zeros : List Byte := List.replicate n 0
  let buffer := wordView zeros
  let buffer := dumpMagic.take buffer.length ++ buffer.drop dumpMagic.length
  let data ← slc buffer dumpMagic.length buffer.length
  let data ← generator data
  return byteView (buffer.take dumpMagic.length ++ data) ++ zeros.drop (4 * buffer.length)

/-- mmap.go:147-163 -/
def fillAndRename (fs : FS) (path temp : String) (n : Nat) (lock : Bool) (generator : List U32 → Go (List U32)) (o : WriteEnv) :
    Go (Option (List U32) × FS) := do
  let content ← fillContent n generator
  let fs := fs.write temp content
  if o.unmapFails || o.closeFails || o.renameFails then return (none, fs)
  let fs := (fs.remove temp).write path content
  let df ← memoryMap fs path lock o.reading
  return (df, fs)

/-- mmap.go:134-136 and 142-144: the temporary file, with its contents so far, is removed; the error of `os.Remove` is ignored -/
def giveUp (fs : FS) (temp : String) (content : List Byte) (o : WriteEnv) : FS :=
  if o.removeFails then fs.write temp content else fs.remove temp

/-- mmap.go:118-164 `memoryMapAndGenerate`; the length is an `int64`, which `Truncate` rejects when negative -/
def memoryMapAndGenerate (fs : FS) (path : String) (size : U64) (lock : Bool) (generator : List U32 → Go (List U32)) (o : WriteEnv) :
    Go (Option (List U32) × FS) :=
  let temp := tempPath path o.suffix
  let n := (8 + size : U64).toInt
  if o.mkdirFails then .ok (none, fs)
  else if o.createFails then .ok (none, fs)
  else if o.truncateFails || decide (n < 0) then .ok (none, giveUp fs temp [] o)
  else if o.mapFails || decide (n = 0) then .ok (none, giveUp fs temp (List.replicate n.toNat 0) o)
  else fillAndRename fs path temp n.toNat lock generator o

/-- the outcomes of all system calls of `generate` -/
structure GenEnv where
  cacheRead : MapEnv
  l1Read : MapEnv
  cacheWrite : WriteEnv
  l1Write : WriteEnv
  removeFails : String → Bool

/-- the contents of a `cache` (cache.go:26-32) -/
structure Loaded where
  cache : List U32
  l1 : List U32

/-- cache.go:45: `make([]uint32, size/4)` -/
def freshCache (size : U64) : List U32 := List.replicate (size / 4).toNat 0

/-- cache.go:50-57 and 96-97: the L1 cache in memory -/
def memoryL1 (P : Prims) (d : Config) (cache : List U32) : Go (List U32) :=
  generateL1Cache P d.datasetParents (List.replicate d.l1CacheNumItems.toNat 0) cache

/-- cache.go:49-59 -/
def generateInMemory (P : Prims) (d : Config) (size : U64) (seed : List Byte) : Go Loaded := do
  let cache ← generateCache P d.cacheRounds (freshCache size) seed
  if d.l1Enabled then do
    let l1 ← memoryL1 P d cache
    return ⟨cache, l1⟩
  else return ⟨cache, []⟩

/-- cache.go:82-89 -/
def provideCache (P : Prims) (d : Config) (size : U64) (seed : List Byte) (path : String) (fs : FS) (o : WriteEnv) :
    Go (List U32 × FS) := do
  let (df, fs) ← memoryMapAndGenerate fs path size d.cachesLockMmap (fun buffer => generateCache P d.cacheRounds buffer seed) o
  match df with
  | some data => return (data, fs)
  | none => do
    let cache ← generateCache P d.cacheRounds (freshCache size) seed
    return (cache, fs)

/-- cache.go:91-98 -/
def provideL1 (P : Prims) (d : Config) (cache : List U32) (path : String) (fs : FS) (o : WriteEnv) : Go (List U32 × FS) := do
  let (df, fs) ← memoryMapAndGenerate fs path d.l1CacheSize d.cachesLockMmap
    (fun buffer => generateL1Cache P d.datasetParents buffer cache) o
  match df with
  | some data => return (data, fs)
  | none => do
    let l1 ← memoryL1 P d cache
    return (l1, fs)

/-- `os.Remove`, whose error is ignored -/
def removeFile (fails : String → Bool) (fs : FS) (path : String) : FS := if fails path then fs else fs.remove path

/-- cache.go:103-109, one iteration: the `i`-th value of `ep` is `start - i` -/
def cleanupStep (P : Prims) (d : Config) (fails : String → Bool) (start : Int) (i : Nat) (fs : FS) : Go FS := do
  let ep : U64 := BitVec.ofInt 64 (start - i)
  let seed ← seedHash P d (ep * d.epochLength + 1)
  let seed ← slc seed 0 8
  let fs := removeFile fails fs (cacheStorageLocation d seed)
  return removeFile fails fs (l1StorageLocation d seed)

/-- cache.go:102-110; `int(c.epoch) - cfg.CachesCount` is computed in 64 bits -/
def cleanup (P : Prims) (d : Config) (epoch : U64) (fails : String → Bool) (fs : FS) : Go FS :=
  let start := (BitVec.ofInt 64 (epoch.toInt - d.cachesCount)).toInt
  forRange 0 (start + 1).toNat fs (cleanupStep P d fails start)

/-- cache.go:73-76 -/
def tryL1 (d : Config) (fs : FS) (path : String) (o : MapEnv) : Go (Option (List U32)) :=
  if d.l1Enabled then memoryMap fs path d.cachesLockMmap o else .ok (some [])

/-- cache.go:82-89 if the cache is needed -/
def ensureCache (P : Prims) (d : Config) (size : U64) (seed : List Byte) (path : String) (old : Option (List U32)) (fs : FS)
    (o : WriteEnv) : Go (List U32 × FS) :=
  match old with
  | some data => .ok (data, fs)
  | none => provideCache P d size seed path fs o

/-- cache.go:91-98 if the L1 cache is needed -/
def ensureL1 (P : Prims) (d : Config) (cache : List U32) (path : String) (old : Option (List U32)) (fs : FS)
    (o : WriteEnv) : Go (List U32 × FS) :=
  match old with
  | some data => .ok (data, fs)
  | none => provideL1 P d cache path fs o

/-- cache.go:61-110 -/
def generateOnDisk (P : Prims) (d : Config) (epoch size : U64) (seed : List Byte) (fs : FS) (o : GenEnv) : Go (Loaded × FS) := do
  let key ← slc seed 0 8
  let cachePath := cacheStorageLocation d key
  let l1Path := l1StorageLocation d key
  let oldCache ← memoryMap fs cachePath d.cachesLockMmap o.cacheRead
  let oldL1 ← tryL1 d fs l1Path o.l1Read
  match oldCache, oldL1 with
  | some cache, some l1 => return (⟨cache, l1⟩, fs)
  | _, _ => do
    let (cache, fs) ← ensureCache P d size seed cachePath oldCache fs o.cacheWrite
    let (l1, fs) ← ensureL1 P d cache l1Path oldL1 fs o.l1Write
    let fs ← cleanup P d epoch o.removeFails fs
    return (⟨cache, l1⟩, fs)

/-- cache.go:42-112 `generate`, the body of `once.Do` -/
def generate (P : Prims) (fuel : Nat) (d : Config) (epoch : U64) (fs : FS) (o : GenEnv) : Go (Loaded × FS) := do
  let size ← cacheSize fuel d epoch
  let seed ← seedHash P d (epoch * d.epochLength + 1)
  if d.storageDir = "" then do
    let l ← generateInMemory P d size seed
    return (l, fs)
  else generateOnDisk P d epoch size seed fs o

end Verif.Dag
