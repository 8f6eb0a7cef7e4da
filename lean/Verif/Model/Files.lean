import Verif.Model.Disk

/-! # Model of /repo/internal/dag/mmap.go and /repo/internal/dag/cache.go with several processes on one directory

`Verif.Model.Disk` runs one `generate` at a time. Here `generate` is a program of system calls, and the calls of any number of
goroutines and processes on the same directory are interleaved in any order.

* A directory maps names to files (inodes); a file lives on, with its contents, when its name is removed or renamed over. Opening a file
  for creation empties the file of that name if there is one. Renaming is atomic.
* A mapped file is shared: what `read` sees is what the file holds at that moment.
* Writing through a mapping is not atomic: until `store` has been completed the range may hold anything. This covers every order in which
  the generator writes its words, and overapproximates what others can see meanwhile.
* Every call may fail, except for `store` and `read`, which are memory accesses. (Access beyond the end of a file that was truncated after
  it had been mapped, which ends the process with SIGBUS, is left out: stores there have no effect.)
* A goroutine may stop at any point (the process is killed); the names and files stay as they are. Loss of the page cache with the
  machine is left out: nothing in the code calls `fsync`.
* Anybody may remove any file at any time.
* `rand.Int()` gives any number; whether different running writers draw different ones is a parameter.
* The finalizer (cache.go:115-127), which unmaps the files of unreachable caches, is left out: it changes no file. It is in
  `Model/Handles.lean`. -/

set_option autoImplicit false

namespace Verif.Files

open Go Dag

/-- the system calls -/
inductive Call
  | mkdirAll (path : String)
  | random
  | create (path : String)
  | open (path : String)
  | truncate (file : Nat) (size : Int)
  | map (file : Nat)
  | read (file : Nat)
  | store (file off : Nat) (bytes : List Byte)
  | lock (file : Nat)
  | unmap (file : Nat)
  | close (file : Nat)
  | rename (source target : String)
  | remove (path : String)

/-- their results: a number for `rand.Int()`, a file or nothing for the calls that open one, the contents for `read`, and whether it
succeeded for the others -/
def Call.Reply : Call → Type
  | .mkdirAll _ => Bool
  | .random => Nat
  | .create _ => Option Nat
  | .open _ => Option Nat
  | .truncate _ _ => Bool
  | .map _ => Bool
  | .read _ => List Byte
  | .store _ _ _ => Unit
  | .lock _ => Bool
  | .unmap _ => Bool
  | .close _ => Bool
  | .rename _ _ => Bool
  | .remove _ => Bool

/-- a program: it ends with a value, panics, or makes a call and goes on with its result -/
inductive Prog (α : Type) : Type
  | ret (a : α)
  | stop (s : Stop)
  | call (c : Call) (k : c.Reply → Prog α)

/-- sequencing -/
def Prog.bind {α β : Type} : Prog α → (α → Prog β) → Prog β
  | .ret a, f => f a
  | .stop s, _ => .stop s
  | .call c k, f => .call c fun r => (k r).bind f

instance : Monad Prog where
  pure := .ret
  bind := .bind

/-- a computation without calls -/
def lift {α : Type} : Go α → Prog α
  | .ok a => .ret a
  | .error s => .stop s

def mkdirAll (path : String) : Prog Bool := .call (.mkdirAll path) .ret
def random : Prog Nat := .call .random .ret
def create (path : String) : Prog (Option Nat) := .call (.create path) .ret
def openFile (path : String) : Prog (Option Nat) := .call (.open path) .ret
def truncate (file : Nat) (size : Int) : Prog Bool := .call (.truncate file size) .ret
def map (file : Nat) : Prog Bool := .call (.map file) .ret
def read (file : Nat) : Prog (List Byte) := .call (.read file) .ret
def store (file off : Nat) (bytes : List Byte) : Prog Unit := .call (.store file off bytes) .ret
def lock (file : Nat) : Prog Bool := .call (.lock file) .ret
def unmap (file : Nat) : Prog Bool := .call (.unmap file) .ret
def close (file : Nat) : Prog Bool := .call (.close file) .ret
def rename (source target : String) : Prog Bool := .call (.rename source target) .ret
def remove (path : String) : Prog Bool := .call (.remove path) .ret

/-- mmap.go:65-78; the slice of line 76 is checked against the length of the mapping -/
def mapped (file : Nat) (buffer : List U32) (lck : Bool) : Prog (Option Nat) := do
  let locked ← if lck then lock file else .ret true
  if !locked then do
    let _ ← unmap file
    let _ ← close file
    .ret none
  else do
    let _ ← lift (slc buffer dumpMagic.length buffer.length)
    .ret (some file)

/-- mmap.go:57-63 -/
def checkMagic (file : Nat) (lck : Bool) : Prog (Option Nat) := do
  let content ← read file
  let r ← lift (forRangeE 0 dumpMagic.length () (magicStep (wordView content)))
  match r with
  | .ret _ => do
    let _ ← unmap file
    let _ ← close file
    .ret none
  | .cont _ => mapped file (wordView content) lck

/-- mmap.go:42-79 `memoryMap`; the result is the mapped file -/
def memoryMap (path : String) (lck : Bool) : Prog (Option Nat) := do
  let file ← openFile path
  match file with
  | none => .ret none
  | some file => do
    let ok ← map file
    if ok then checkMagic file lck
    else do
      let _ ← close file
      .ret none

/-- mmap.go:148-149 -/
def fillData (file : Nat) (generator : List U32 → Prog (List U32)) : Prog Unit := do
  let content ← read file
  let data ← lift (slc (wordView content) dumpMagic.length (wordView content).length)
  let data ← generator data
  store file (4 * dumpMagic.length) (byteView data)

/-- mmap.go:147-149 -/
def fill (file : Nat) (generator : List U32 → Prog (List U32)) : Prog Unit := do
  let content ← read file
  store file 0 (byteView (dumpMagic.take (wordView content).length))
  fillData file generator

/-- mmap.go:159-163 -/
def publish (temp path : String) (lck : Bool) : Prog (Option Nat) := do
  let ok ← rename temp path
  if !ok then .ret none
  else memoryMap path lck

/-- mmap.go:151-163 -/
def finish (file : Nat) (temp path : String) (lck : Bool) : Prog (Option Nat) := do
  let ok ← unmap file
  if !ok then .ret none
  else do
    let ok ← close file
    if !ok then .ret none
    else publish temp path lck

/-- mmap.go:134-136 and 142-144: closing and removing the temporary file -/
def giveUp (file : Nat) (temp : String) : Prog (Option Nat) := do
  let _ ← close file
  let _ ← remove temp
  .ret none

/-- mmap.go:133-163 -/
def writeTo (file : Nat) (temp path : String) (size : U64) (lck : Bool) (generator : List U32 → Prog (List U32)) : Prog (Option Nat) := do
  let ok ← truncate file (8 + size : U64).toInt
  if !ok then giveUp file temp
  else do
    let ok ← map file
    if !ok then giveUp file temp
    else do
      fill file generator
      finish file temp path lck

/-- mmap.go:127-163 -/
def createTemp (path : String) (size : U64) (lck : Bool) (generator : List U32 → Prog (List U32)) (suffix : Nat) : Prog (Option Nat) := do
  let file ← create (tempPath path suffix)
  match file with
  | none => .ret none
  | some file => writeTo file (tempPath path suffix) path size lck generator

/-- mmap.go:118-164 `memoryMapAndGenerate` -/
def memoryMapAndGenerate (path : String) (size : U64) (lck : Bool) (generator : List U32 → Prog (List U32)) : Prog (Option Nat) := do
  let ok ← mkdirAll path
  if !ok then .ret none
  else do
    let suffix ← random
    createTemp path size lck generator suffix

/-- the `[]uint32` of a `dataFile` (mmap.go:35-39): in memory, or the words after the magic of a mapped file -/
inductive Buffer
  | mem (words : List U32)
  | file (file : Nat)

/-- the two buffers of a `cache` (cache.go:26-32) -/
structure Buffers where
  cache : Buffer
  l1 : Buffer

/-- the words after the magic -/
def dataOf (content : List Byte) : List U32 := (wordView content).drop dumpMagic.length

/-- reading all of a buffer -/
def load : Buffer → Prog (List U32)
  | .mem words => .ret words
  | .file f => do
    let content ← read f
    .ret (dataOf content)

/-- cache.go:82-89 -/
def provideCache (P : Prims) (d : Config) (size : U64) (seed : List Byte) (path : String) : Prog Buffer := do
  let df ← memoryMapAndGenerate path size d.cachesLockMmap fun buffer => lift (generateCache P d.cacheRounds buffer seed)
  match df with
  | some f => .ret (.file f)
  | none => do
    let words ← lift (generateCache P d.cacheRounds (freshCache size) seed)
    .ret (.mem words)

/-- cache.go:91-98 -/
def provideL1 (P : Prims) (d : Config) (cache : Buffer) (path : String) : Prog Buffer := do
  let df ← memoryMapAndGenerate path d.l1CacheSize d.cachesLockMmap fun buffer => do
    let cache ← load cache
    lift (generateL1Cache P d.datasetParents buffer cache)
  match df with
  | some f => .ret (.file f)
  | none => do
    let cache ← load cache
    let words ← lift (memoryL1 P d cache)
    .ret (.mem words)

/-- cache.go:102-110 from the `i`-th iteration on; the value of `ep` is `start - i` -/
def cleanupLoop (P : Prims) (d : Config) (start : Int) : Nat → Nat → Prog Unit
  | _, 0 => .ret ()
  | i, n + 1 => do
    let seed ← lift (seedHash P d ((BitVec.ofInt 64 (start - i) : U64) * d.epochLength + 1))
    let seed ← lift (slc seed 0 8)
    let _ ← remove (cacheStorageLocation d seed)
    let _ ← remove (l1StorageLocation d seed)
    cleanupLoop P d start (i + 1) n

/-- cache.go:102-110 -/
def cleanup (P : Prims) (d : Config) (epoch : U64) : Prog Unit :=
  let start := (BitVec.ofInt 64 (epoch.toInt - d.cachesCount)).toInt
  cleanupLoop P d start 0 (start + 1).toNat

/-- cache.go:73-76 -/
def tryL1 (d : Config) (path : String) : Prog (Option Buffer) :=
  if d.l1Enabled then do
    let f ← memoryMap path d.cachesLockMmap
    .ret (f.map .file)
  else .ret (some (.mem []))

/-- cache.go:82-89 if the cache is needed -/
def ensureCache (P : Prims) (d : Config) (size : U64) (seed : List Byte) (path : String) : Option Nat → Prog Buffer
  | some f => .ret (.file f)
  | none => provideCache P d size seed path

/-- cache.go:91-98 if the L1 cache is needed -/
def ensureL1 (P : Prims) (d : Config) (cache : Buffer) (path : String) : Option Buffer → Prog Buffer
  | some b => .ret b
  | none => provideL1 P d cache path

/-- cache.go:81-110 -/
def produce (P : Prims) (d : Config) (epoch size : U64) (seed : List Byte) (cachePath l1Path : String) (oldCache : Option Nat)
    (oldL1 : Option Buffer) : Prog Buffers := do
  let cache ← ensureCache P d size seed cachePath oldCache
  let l1 ← ensureL1 P d cache l1Path oldL1
  cleanup P d epoch
  .ret ⟨cache, l1⟩

/-- cache.go:77-110 -/
def complete (P : Prims) (d : Config) (epoch size : U64) (seed : List Byte) (cachePath l1Path : String) :
    Option Nat → Option Buffer → Prog Buffers
  | some cache, some l1 => .ret ⟨.file cache, l1⟩
  | oldCache, oldL1 => produce P d epoch size seed cachePath l1Path oldCache oldL1

/-- cache.go:61-110 -/
def generateOnDisk (P : Prims) (d : Config) (epoch size : U64) (seed : List Byte) : Prog Buffers := do
  let key ← lift (slc seed 0 8)
  let oldCache ← memoryMap (cacheStorageLocation d key) d.cachesLockMmap
  let oldL1 ← tryL1 d (l1StorageLocation d key)
  complete P d epoch size seed (cacheStorageLocation d key) (l1StorageLocation d key) oldCache oldL1

/-- cache.go:42-112 `generate`, the body of `once.Do` -/
def generate (P : Prims) (fuel : Nat) (d : Config) (epoch : U64) : Prog Buffers := do
  let size ← lift (cacheSize fuel d epoch)
  let seed ← lift (seedHash P d (epoch * d.epochLength + 1))
  if d.storageDir = "" then do
    let l ← lift (generateInMemory P d size seed)
    .ret ⟨.mem l.cache, .mem l.l1⟩
  else generateOnDisk P d epoch size seed

/-! ## The directory and the processes -/

/-- names and files; files from `fresh` on do not exist yet -/
structure Disk where
  names : String → Option Nat
  data : Nat → List Byte
  fresh : Nat

/-- what is seen through the names -/
def Disk.view (s : Disk) : FS := fun p => (s.names p).map s.data

/-- a name for a file -/
def Disk.bind (s : Disk) (path : String) (f : Option Nat) : Disk := { s with names := fun p => if p = path then f else s.names p }

/-- new contents of a file -/
def Disk.put (s : Disk) (f : Nat) (c : List Byte) : Disk := { s with data := fun i => if i = f then c else s.data i }

/-- the contents after writing `bytes` at `off`, within the size of the file -/
def splice (content : List Byte) (off : Nat) (bytes : List Byte) : List Byte :=
  (content.take off ++ bytes ++ content.drop (off + bytes.length)).take content.length

/-- the contents after `Truncate(n)` -/
def resize (content : List Byte) (n : Nat) : List Byte := content.take n ++ List.replicate (n - content.length) 0

/-- what a call does to the directory, with its possible results -/
inductive Exec : (c : Call) → Disk → c.Reply → Disk → Prop
  | mkdirAll (path : String) (s : Disk) (ok : Bool) : Exec (.mkdirAll path) s ok s
  | random (s : Disk) (n : Nat) : Exec .random s n s
  | createFails (path : String) (s : Disk) : Exec (.create path) s none s
  | createNew (path : String) (s : Disk) : s.names path = none →
      Exec (.create path) s (some s.fresh) { (s.bind path (some s.fresh)).put s.fresh [] with fresh := s.fresh + 1 }
  | createOld (path : String) (s : Disk) (f : Nat) : s.names path = some f → Exec (.create path) s (some f) (s.put f [])
  | openFails (path : String) (s : Disk) : Exec (.open path) s none s
  | open (path : String) (s : Disk) (f : Nat) : s.names path = some f → Exec (.open path) s (some f) s
  | truncateFails (f : Nat) (n : Int) (s : Disk) : Exec (.truncate f n) s false s
  | truncate (f : Nat) (n : Int) (s : Disk) : 0 ≤ n → Exec (.truncate f n) s true (s.put f (resize (s.data f) n.toNat))
  | mapFails (f : Nat) (s : Disk) : Exec (.map f) s false s
  | map (f : Nat) (s : Disk) : s.data f ≠ [] → Exec (.map f) s true s
  | read (f : Nat) (s : Disk) : Exec (.read f) s (s.data f) s
  | store (f off : Nat) (bytes : List Byte) (s : Disk) : Exec (.store f off bytes) s () (s.put f (splice (s.data f) off bytes))
  | lock (f : Nat) (s : Disk) (ok : Bool) : Exec (.lock f) s ok s
  | unmap (f : Nat) (s : Disk) (ok : Bool) : Exec (.unmap f) s ok s
  | close (f : Nat) (s : Disk) (ok : Bool) : Exec (.close f) s ok s
  | renameFails (source target : String) (s : Disk) : Exec (.rename source target) s false s
  | rename (source target : String) (s : Disk) (f : Nat) : s.names source = some f →
      Exec (.rename source target) s true ((s.bind source none).bind target (some f))
  | removeFails (path : String) (s : Disk) : Exec (.remove path) s false s
  | remove (path : String) (s : Disk) : Exec (.remove path) s true (s.bind path none)

/-- a goroutine in `generate`; `none` when its process was killed -/
structure Worker where
  config : Config
  epoch : U64
  prog : Option (Prog Buffers)

/-- the goroutine has a call to make -/
def Worker.running (w : Worker) : Prop := ∃ c k, w.prog = some (.call c k)

/-- the directory, the goroutines of all processes, and the numbers they drew -/
structure System where
  disk : Disk
  workers : List Worker
  drawn : List (Nat × Nat)

/-- no other running goroutine has drawn this number -/
def System.unshared (s : System) (t n : Nat) : Prop :=
  ∀ (t' : Nat) w, s.workers[t']? = some w → w.running → t' ≠ t → (t', n) ∉ s.drawn

/-- the numbers drawn after a call -/
def drawnAfter (t : Nat) (drawn : List (Nat × Nat)) : (c : Call) → c.Reply → List (Nat × Nat)
  | .random, n => (t, n) :: drawn
  | _, _ => drawn

/-- one step of the system; `Job` says which caches may be asked for, and `exclusive` whether the numbers of running writers differ -/
inductive Step (P : Prims) (fuel : Nat) (Job : Config → U64 → Prop) (exclusive : Prop) : System → System → Prop
  | begin (s : System) (d : Config) (e : U64) : Job d e →
      Step P fuel Job exclusive s { s with workers := s.workers ++ [⟨d, e, some (generate P fuel d e)⟩] }
  | call (s : System) (t : Nat) (d : Config) (e : U64) (c : Call) (k : c.Reply → Prog Buffers) (r : c.Reply) (disk : Disk) :
      s.workers[t]? = some ⟨d, e, some (.call c k)⟩ → Exec c s.disk r disk →
      (exclusive → ∀ n, drawnAfter t s.drawn c r = (t, n) :: s.drawn → s.unshared t n) →
      Step P fuel Job exclusive s
        { s with disk := disk, workers := s.workers.set t ⟨d, e, some (k r)⟩, drawn := drawnAfter t s.drawn c r }
  | storing (s : System) (t : Nat) (d : Config) (e : U64) (f off : Nat) (bytes : List Byte) (k : Unit → Prog Buffers) (c : List Byte) :
      s.workers[t]? = some ⟨d, e, some (.call (.store f off bytes) k)⟩ → c.length = bytes.length →
      Step P fuel Job exclusive s { s with disk := s.disk.put f (splice (s.disk.data f) off c) }
  | kill (s : System) (t : Nat) (d : Config) (e : U64) (p : Prog Buffers) : s.workers[t]? = some ⟨d, e, some p⟩ →
      Step P fuel Job exclusive s { s with workers := s.workers.set t ⟨d, e, none⟩ }
  | removed (s : System) (path : String) : Step P fuel Job exclusive s { s with disk := s.disk.bind path none }

/-- any number of steps from a directory with the files `names`, `data` and no process -/
inductive Reach (P : Prims) (fuel : Nat) (Job : Config → U64 → Prop) (exclusive : Prop) (disk : Disk) : System → Prop
  | init : Reach P fuel Job exclusive disk ⟨disk, [], []⟩
  | step {s s' : System} : Reach P fuel Job exclusive disk s → Step P fuel Job exclusive s s' → Reach P fuel Job exclusive disk s'

/-- the words of a buffer -/
def Buffer.words (s : Disk) : Buffer → List U32
  | .mem w => w
  | .file f => dataOf (s.data f)

end Verif.Files
