# Formal model of sencha-dev/powkit in Lean 4

## Layout

| Directory | Contents |
| --- | --- |
| `lean/Verif/Go/` | the fragment of Go semantics the model uses: fixed-width words, slices as lists, run-time panics, loops; the parts of Go's `flag` and `strconv` used |
| `lean/Verif/Model/` | the model of the repository, function by function; every definition cites file and lines |
| `lean/Verif/Spec/` | small independent specifications (what the algorithm is *supposed* to be) that import no model file |
| `lean/Verif/Proof/` | helper lemmas |
| `lean/Verif/Props/` | the property theorems (`C01_…`), each with a non-vacuity `example`; nothing else |
| `lean/Verif/Test/` | conformance tests of the model against the repository's own test vectors (tests, not proofs) |

## How Go is modelled

* `uint8/16/32/64` are `BitVec 8/16/32/64`, so wrap-around, truncating conversions and shifts are those of Go.
  `int` values that only index or count are `Nat` (or `Int` where negative values matter). An `int` has 64 bits, except in
  `Model/IntWidth.lean` (C91), where the width is a parameter.
* In most models a slice is a `List`, and functions that mutate through a slice return the new list. That this loses nothing is proved
  for `Compute` and `Verify` (C83): in `Model/InMem/` the same code works on slices of arrays in a heap (`Go/Heap.lean`), which may be
  shared and overlap; `append` writes behind a slice with capacity and otherwise takes any capacity. In the generators aliasing is modelled
  where the code depends on it (in-place rows in generateCache).
* A computation that can fail at run time lives in `Go α := Except Stop α`; `Stop.panic` records index-out-of-range,
  slice-bounds, division-by-zero, nil-dereference and explicit `panic`; `Stop.fuel` means that a loop without syntactic bound was
  still running when its fuel argument ran out. "Terminates" is "for every sufficiently large fuel the
  result is not `Stop.fuel`"; "never returns" is "for every fuel the result is `Stop.fuel`".
* Go `error` results are ordinary values (`Option`/`Except` inside the result), never `Stop`.

## What is a parameter (trusted, not modelled)

* BLAKE2b (dchest/blake2b), legacy Keccak-256/512 and cSHAKE-256 (x/crypto/sha3): external modules, not in /repo. They are fields of a
  structure `Prims` of arbitrary functions on byte strings, whose only assumed property is the output length. All theorems hold for
  every such structure; a concrete structure shows the assumption is satisfiable.
  In C106, C107 and C108 the hash objects of x/crypto/sha3 are sponges (`Spec/Sponge.lean`) over an arbitrary permutation of 200 bytes, in some theorems
  of C107 and C108 over Keccak-f[1600].
* `math/big.Int.ProbablyPrime(1)` is modelled as exact primality (documented by Go to be exact below 2^64).
* float64 arithmetic in `heavyhash.calculateRank` is a structure of operations. Termination, totality and the panic analysis hold for all
  of them; that the routine computes the rank (C52) is proved for exact arithmetic in a field. `Go/Float64.lean` models IEEE 754 binary64,
  proved to round correctly (C81); the compiler's choice between rounding `x - p * c` once or twice is the choice between two structures.
* The host is little-endian (the byte views that dag makes of `[]uint32` with `reflect.SliceHeader`), except in C77, which says what
  happens on either kind of host.
* Operating system: the file system, mmap, atomicity of rename and death of a process are an explicit state machine (`Model/Disk.lean`
  for one process, `Model/Files.lean` for any number of processes). Every system call may fail. What a process
  has written stays, except in C88, which is about losses of power (`Model/Power.lean`); what the file system then leaves is a parameter.
* Go run time: one goroutine at a time has the mutex (that the section under it may be taken as one step is proved, C70), `sync.Once` is its documented behaviour, `time.Now` does not run backwards,
  goroutines interleave arbitrarily, the collector runs finalizers of unreachable objects at any time.

## Trusted base

1. Lean 4.33.0's kernel.
2. The axioms `propext`, `Classical.choice`, `Quot.sound` and no others. `AXIOMS.md` lists the axioms of each theorem of the manifest, as
   reported by `#print axioms` (tools/axioms.py). There is no `sorry`, `native_decide`, `bv_decide` or axiom of our own. Where
   `decide +kernel` is used the kernel evaluates.
3. The reading of /repo, that is, the files under `Model/`. Three things support it: the comments cite file and lines; the large
   tables and the unrolled Keccak rounds were transcribed by programs (tools/tables.py); the test files run the model on the repository's
   own vectors.
4. The specifications under `Spec/`, which say what the published algorithms are. The tests cover them indirectly: model and
   specification are proved equal, and the model is run on the vectors.

## What is modelled

| File in /repo | Model | Left out |
| --- | --- | --- |
| autolykos2/*.go | `Model/Autolykos.lean` | – |
| beamhashiii/*.go | `Model/Beam.lean`, `Model/Pairing.lean` | – |
| cuckoo/*.go | `Model/Cuckoo.lean` | error texts |
| eaglesong/*.go | `Model/Eaglesong.lean`, `Model/EaglesongConst.lean`, `Model/EaglesongGen.lean` (`generateInjectionConstants`) | failure of `make` for lack of memory; inputs of 2^59 bytes or more |
| equihash/*.go | `Model/Equihash.lean`, `Model/Pairing.lean` | error texts |
| heavyhash/*.go | `Model/Heavy.lean`, `Model/HeavyFloat.lean` with `Go/Float64.lean` | – |
| ethash/ethash.go | `Model/Hashimoto.lean` | – |
| kawpow/kawpow.go, firopow/firopow.go, internal/progpow/progpow094.go | `Model/Kawpow.lean` | – |
| octopus/octopus.go | `Model/Octopus.lean` | – |
| {ethash,kawpow,firopow,octopus}/client.go | `Model/Configs.lean` (configurations), `Model/Clients.lean` (`Compute`) | – |
| {ethash,kawpow,firopow,octopus}/*_lookup.go | `Model/Tables/` (all entries) | – |
| internal/progpow/{algorithm,kiss99,math,mixrng}.go | `Model/Progpow.lean`, `Model/ProgpowInt.lean` (negative counts in `Config`) | – |
| internal/dag/{config,dag}.go | `Model/Dag.lean` (sizes, seeds, paths), `Model/Manager.lean`, `Model/Mutex.lean` (`GetCache`), `Model/Race.lean` (its memory accesses) | – |
| internal/dag/generate.go, internal/crypto/hasher.go | `Model/Generate.lean`, `Model/HostOrder.lean`, `Model/Hasher.lean` (with the hash object) | the hash object of golang.org/x/crypto/sha3 is not in the repository: `Model/Hasher.lean` follows its documentation, with the permutation as a parameter |
| internal/dag/{cache,mmap}.go | `Model/Disk.lean` (one process), `Model/Files.lean` (several), `Model/Power.lean` (losses of power), `Model/Finalizer.lean`, `Model/Handles.lean` (descriptors and mappings, `finalizer`) | kinds of `error`, file permissions, `mlock` other than failing |
| internal/crypto/keccak.go | `Model/Keccak.lean`, `Model/CShake.lean` (`Keccak256`, `Keccak512` with the hash object) | elsewhere `Keccak256`, `Keccak512` are `Prims` |
| internal/crypto/siphash.go | `Model/Siphash.lean` | – |
| internal/crypto/{fnv,blake}.go, internal/common/convutil | `Model/Convutil.lean` | – |
| internal/crypto/{xoshiro256plusplus,shakehash}.go | `Model/Heavy.lean`, `Model/CShake.lean` (`CShake256` with the hash object) | `NewCShake256` is not in the repository and follows NIST SP 800-185 |
| internal/common/bitutil (Go, amd64 and arm64 assembly) | `Model/Bitutil.lean` | – |
| cmd/gen-lookup/main.go | `Model/GenLookup.lean`, `Model/CommandLine.lean` with `Go/Flag.lean` | messages on standard error; that `make` fails for want of memory |
| internal/common/filesystem.go | Model/Paths.lean | `DefaultDir`, with `filepath.Clean`, `Join` and `Dir` for slashes; elsewhere it is the parameter `dir`. The user lookup is a parameter. On Windows `filepath.Join` is a parameter |
| the `Compute` and `Verify` paths of all packages, with memory | `Model/InMem/*.lean` | that `*node` in BeamHash III is a pointer to a struct (its fields are never reassigned through another pointer); `GetCache` is a parameter that may allocate |
| `generateCache`, `generateL1Cache` and `generate` without a directory, with memory | `Model/InMem/Generate.lean` | the unsafe view of a `[]uint32` as bytes is a `View`, little-endian |
| processes with memory (`GetCache`, bodies of `once.Do`, `Compute`, the program that calls them) | `Model/InMem/Process.lean` | a body of `once.Do` and `Compute` after `GetCache` are one step each (justified by C79 and C85); no finalizers and no unmapping |
| the functions that convert to `int`, with its width as a parameter | `Model/IntWidth.lean` | conversions of lengths that exist in memory |
| internal/common/testutil, *_test.go | vectors in `Test/` | – |

Concurrency is in three layers, each a transition system over whose reachable states invariants are proved by induction: `Manager`
(goroutines in one process around the mutex and the `sync.Once` of each cache), `Files` (system calls of any number of processes and
goroutines on one directory, with crashes) and `Finalizer` (the manager together with running `Compute` calls and the collector).
`Model/Mutex.lean` refines the first: it executes the section under the mutex statement by statement (C70). `Model/Race.lean` adds the memory
accesses and synchronisation operations of each statement (C79); which accesses a statement makes is part of the model and is read off the code. `Props/System.lean` joins the first two: the body of `once.Do` in `Manager` gives what `Files` proves of `generate`.

## Conformance tests

`Test/` runs the model with `#guard` on the vectors of the repository's test files: all of the verifiers (`Test/Verify.lean`, with
BLAKE2b written from the RFC), Autolykos, HeavyHash, Eaglesong, ProgPoW, and one complete hash of Ethash, KAWPOW, FiroPoW and Octopus. For
the last four the dataset items come from tools/ref/ref.c, a C program written from the published algorithms and not from /repo, because
a whole cache is too large to evaluate in the kernel's interpreter. They are tests, not proofs.

## Test of the theorems

`seeded/LOG.jsonl` has a line for each wrong program: an edit of one definition of the model in a scratch copy, the claim it breaks and
the theorems that no longer build (tools/mutate.py). Where nothing failed though a claim was false, a theorem was tightened, and the line says which.

## Findings about the code

The theorems of the claims in parentheses state them.

* The size tables have 2045 entries, but 2048 epochs are registered: sizes of epochs 2045–2047 panic (C33); gen-lookup drops the last
  incomplete row (C35); a request for epoch 2044 generates 2045 in the background, which ends the process (C66).
* Ethereum Classic has no parameters for the fallback formula (`MixBytes` = 0): epochs from 2048 on divide by zero (C34).
* `HeavyHash` never returns for the all-zero hash (C49), and returns for every other hash (C93).
* The rank that HeavyHash computes with doubles is not the rank: there are matrices of nibbles of rank 64 that it refuses and matrices of rank
  63 that it takes, and a matrix that it refuses on machines that round `x - p * c` twice (amd64) and takes where the compiler fuses the two
  operations (arm64). Whether such a matrix is ever drawn is not known (C81).
* Cuckoo accepts any order of the nonces; `proofSize` 2 accepts a repeated edge; `proofSize` 0 panics (C03–C05). Which of the errors dead end,
  branch and short cycle is returned depends on the order; a client made without its hash function panics in `Verify`, not when made (C78).
* BeamHash III ignores the n and k of its client; a personalisation above eight bytes is accepted by `New` and panics in `Verify` (C80).
* Eaglesong does not separate inputs by length: trailing zero bytes after a multiple of four collide (C58).
* Eaglesong with a rate near 2^63 (accepted by `New`): the bound of the absorbing loop wraps around, so that long inputs give zero bytes and
  short ones panic (C76).
* Autolykos2 truncates the height to 32 bits (C55).
* `autolykos2.New` accepts parameters whose table becomes empty at height 614400 (n ≤ 6) or is empty from the start (n ≥ 32): `Compute` then
  divides by zero. Above height 4198400 the table size is the Ergo constant whatever `n` (C75).
* `eaglesong.New` accepts a capacity smaller than a block, a rate below one word or a negative rate: `Compute` then returns zero bytes for
  every input. A rate that is not a multiple of 8 can run past the output (C76).
* A mapped file is checked for the magic number only: its length and contents are believed (C46). Since files are renamed without being
  flushed, a loss of power can leave a file with the magic and without the rest, which is then used (C88).
* `CachesCount` ≤ 0 dereferences nil with the mutex held, after which every call blocks (C41).
* After a panic in `once.Do` the next call of the epoch returns a cache without contents (C40).
* Temporary files are left behind when unmapping, closing or renaming fails; their names depend on `rand.Int()` alone, and equal numbers in
  two processes let one publish a file that the other is still writing (C45).
* Files are removed only after something was generated, and only those of epochs three or more below: falling epochs fill the directory with a
  file each, and leftover temporary files are never removed (C89).
* The seed of epoch e is computed for height e·EpochLength + 1; for epochs whose number of seed steps reaches 2^63 the `int` loop does not run (C36).
* On machines with an `int` of 32 bits Eaglesong computes the number of blocks with overflow: all Nervos inputs from 2^28 - 32 to 2^29 - 1 bytes
  have the same digest (C91).
* `generateCache` computes offsets in `uint32`, so that caches of 2^26 rows or more are wrong or make it panic, and datasets of 256 GiB or
  more are not the published ones either: from epoch 32641 of Ethereum on (C37 states the bound, C92 what happens beyond it).
* expandArray accepts group sizes up to 32 bits, but loses bits for 27 and 29–31 (C12).
* After a request for a lower epoch the one after it is not generated ahead (C68).
* `equihash.New` checks nothing. Every solution of the right length makes `Verify` panic for n > 512, k = 2^32 - 1, 2^32 dividing 2^k (c+1),
  a personalisation above 8 bytes, or an n whose leaves do not fit 64 bytes (such as 100); with the twist and 32-bit indices a solution can
  keep it running forever (C72). With the twist and a digest below 64 bytes the code slices a digest beyond its length, which succeeds or
  panics depending on its capacity; the verdict does not depend on the bytes behind it (C90).
* The length check of Equihash solutions compares lengths modulo 2^32: 4 GiB plus the right length passes it, and `expandArray` then writes
  past its output, which it sized with the same 32-bit length: an index panic (C84).
* On a big-endian host (s390x, ppc64, mips) Ethash, KAWPOW, FiroPoW and Octopus compute wrong digests: go-ethereum swaps the bytes of the
  cache words there (`if !isLittleEndian() { swap(cache) }`), which is missing here (C77).
* `New` of the four DAG packages checks nothing. A growth of an odd number of rows gives every second epoch a cache (or dataset) of two rows,
  a growth formula four bytes or more off a whole number of rows makes `generateCache` panic, MixBytes ≥ 2^63 keeps `DatasetSize` running
  forever, and MixBytes, EpochLength or SeedEpochLength = 0 divide by zero (C95). None of the shipped configurations is affected, except that
  Ethereum Classic's has no MixBytes (C34). `L1CacheSize` sizes the L1 cache on disk and `L1CacheNumItems` the one in memory: with the former
  left at zero, KAWPOW and FiroPoW work without a directory and panic with one (C96).
* If `Unmap` fails in `memoryMapAndGenerate`, the package never closes the temporary file; this is the only call whose failure leaves a descriptor
  behind, apart from the finalizer of `os.File` itself, and its mapping stays (C94).
* The finalizer of a cache reads and writes the fields that `generate` writes after it has called `SetFinalizer`, without a lock. The run time
  orders only the call of `SetFinalizer` itself before the finalizer, and no later use; so these accesses race in the sense of the memory
  model, though the finalizer comes later in time (C79).
* A `Name` with slashes is not refused: `/../x` makes the cache file and the L1 file of each seed one file, so each write destroys the other
  table (the length and magic checks then decide), and `/../../x` leaves `StorageDir`. On Windows `DefaultDir` ignores its argument (C82).
* `genIndexes` of Autolykos2 slices `extendedHash[i:i+4]`, which for k ≥ 62 goes past its length but not necessarily past the capacity that
  `append` chose. The language does not fix that capacity. With the 64 bytes that the gc tool chain allocates it panics, as in the models on
  lists (C54, C75); with spare capacity it reads the cells behind the slice (C83).

## Plan per property

* **C01** Cuckoo: Verify accepts exactly the cycles — Model Verify/cuckoo with loops; walk = orbit of an injective partial map. Spec: `IsCycle` (edge ordering with alternating shared endpoints, all nodes distinct). Prove iff.
* **C02** Cuckaroo: Verify accepts exactly the cycles — Same core with the cuckaroo endpoint function.
* **C03** Cuckoo cycle walk always terminates — Injectivity of the step on visited positions bounds the orbit; no panic by index bounds.
* **C04** Cuckoo proofs are order malleable — Corollary of C01/C02 (IsCycle is permutation invariant) plus no ErrPowTooSmall result in any run.
* **C05** Accepted Cuckoo proofs have no repeated edge when proofSize > 2 — From IsCycle; concrete [e,e] acceptance for proofSize 2, for all functions and e.
* **C06** Sip node values are within the edge mask and the compression is the published SipRound — SipRound model vs published round; inverse exhibited.
* **C07** Equihash: Verify accepts exactly the Wagner solutions — expandArray refinement + generic level-reduction lemma (bottom-up pairing = top-down tree) instantiated.
* **C08** Equihash accepted solutions consist of 2^k distinct indices whose hashes XOR to zero — Corollary of C07.
* **C09** Equihash index encoding is a bijection — Base-2^(c+1) digit lemmas.
* **C10** Equihash solutions are canonical under sibling swaps — Corollary of C07 (ordering conditions contradict).
* **C11** Equihash Verify is total on the shipped clients — Every index bound discharged; fuel = number of rows; lengths above 4 GiB by C84.
* **C12** expandArray is big-endian bit unpacking — Loop invariant acc = prefix value mod 2^32; counterexample by decide.
* **C13** Twisted (ZelHash) leaf hashing — Loop unrolled to a spec sum.
* **C14** BeamHash III: Verify accepts exactly the valid solutions — Same generic tree lemma with round-dependent combine; big.Int as Nat.
* **C15** BeamHash III: accepted solutions have 32 distinct indices in canonical order — Corollary of C14.
* **C16** BeamHash III index decoding is a bijection — Base-2^25 digit lemmas.
* **C17** BeamHash III Verify is total — Index bounds; 32 rows halve five times.
* **C18** Octopus remap yields primitive roots — gcd/powmod refinement; 1032193 prime and 11 a primitive root by Lucas; termination by decreasing e.
* **C19** Octopus computeC terminates with non-zero discriminant — Two exponents e=1,5 reached within a window of p-2; at most one c is excluded.
* **C20** Octopus evaluates the degree-1023 polynomial at a w^(2t) + b w^t + c — Horner invariant; exponent bookkeeping in ZMod.
* **C21** Octopus dataset accesses stay in the dataset — Bounds through the loop; lookup calls recorded in a trace.
* **C22** Ethash Compute is hashimoto — Loop-by-loop refinement to the spec.
* **C23** Ethash dataset accesses stay in the dataset — Lookup calls recorded in a trace.
* **C24** KeccakF800 is Keccak-p[800,22] — Per-lane equality with theta/rho/pi/chi/iota spec; constants from the LFSR.
* **C25** KAWPOW / FiroPoW / ProgPoW seed and finalisation framing — Layout equality.
* **C26** ProgPoW mix never indexes out of range — Invariant on shapes through all loops; trace of lookups.
* **C27** ProgPoW register sequences are permutations — Fisher-Yates invariant: swap preserves Perm.
* **C28** ProgPoW depends on height only through the period — Congruence on height/period.
* **C29** ProgPoW merge loses no information — 33 invertible mod 2^32; rotations invertible.
* **C30** ProgPoW math matches its table — Case analysis.
* **C31** Cache and dataset sizes are the largest prime row counts — Loop invariant: no prime between; primality as predicate.
* **C32** Embedded size tables agree with the formula — Kernel evaluation over the whole table with gcd-with-factorial primality, lifted by lemma.
* **C33** Size lookup panics exactly for epochs 2045, 2046 and 2047 — Case analysis on the epoch, lengths of the tables.
* **C34** Ethereum Classic size fallback — Negation, universally for all epochs >= 2048.
* **C35** gen-lookup drops the remainder row — Model formatLookupTable at the level of emitted entries; prove = take (5*floor).
* **C36** Epoch and seed chain — Iterate lemma; arithmetic.
* **C37** generateCache is the published cache construction — Byte buffer model refined to row-list spec.
* **C38** Dataset items are the published construction and always in range — Refinement, bounds from % rows.
* **C39** 512/1024/2048-bit lookups and L1 agree — From C38.
* **C40** GetCache returns the cache of the requested epoch — State machine of manager, invariant over reachable states.
* **C41** The number of resident caches is bounded — Invariant.
* **C42** Eviction removes a least recently used epoch — Invariant on last-use times; nondeterministic map order as a choice.
* **C43** Each cache object is generated once and only used when complete — Small-step goroutine model of mutex + once.
* **C44** On-disk caches are crash safe — Filesystem state machine with inodes; invariant.
* **C45** Concurrent processes do not corrupt each other's cache files — Invariant that running writers with different numbers have different files; concrete bad trace for equal numbers.
* **C46** A mapped cache file is validated before use — Characterisation of memoryMap on all contents; witnesses.
* **C47** Disk and memory modes agree — Run of generate against all outcomes.
* **C48** Cleanup never deletes a recent epoch's file — Model of loop; set of removed paths.
* **C49** HeavyHash Compute terminates — All-fuel non-termination on zero hash; non-zero state invariance. Termination for the other hashes
  is C93.
* **C50** HeavyHash matrix product does not overflow — Nat bounds.
* **C51** xoshiro256++ step — Explicit inverse.
* **C52** HeavyHash rank routine computes the rank — Elimination invariant over a field; Mathlib rank.
* **C53** Autolykos2 table size schedule — Closed recurrence; monotone; kernel evaluation of 71 steps.
* **C54** Autolykos2 digest — Refinement.
* **C55** Autolykos2 heights above 2^32 alias — Congruence.
* **C56** Eaglesong permutation is bijective — Explicit inverses (bit matrix, circulant by Frobenius, ARX).
* **C57** Eaglesong output length and totality — Loop bounds.
* **C58** Eaglesong padding collisions — Word-level computation; injectivity at fixed length.
* **C59** XORBytes assembly is bytewise xor — Register-level model of both assembly loops; invariant.
* **C60** Word/byte conversions round-trip — LE/BE lemmas.
* **C61** Wrong-length inputs are rejected with an error — Guard analysis on each client.
* **C62** FNV mixing — FnvPrime odd, hence invertible.
* **C63** ProgPoW mix is the published lane-parallel computation — The program of a round is drawn once; exchange of the loops over lanes and instructions.
* **C64** Compute is the published proof of work of its chain — Composition of C22, C63, C20, C31–C39, C47 and C40/C44.
* **C65** Every GetCache call comes to an end — Measure of work; progress lemma.
* **C66** Asking for epoch 2044 brings the process down — Invariant: the generator of 2045 is pending or the process has crashed.
* **C67** No Compute reads an unmapped cache — Invariant: an unmapped cache is unreachable; steps create references only to reachable or new objects.
* **C68** The next epoch is generated ahead — Invariant: the future cache is that of the highest requested epoch plus one.
* **C69** KeccakF800 is a permutation — Each step is injective (theta: the column parities of a state with image zero satisfy p(x) = p(x-1) xor rot(p(x+1), 1); composing this with itself five times turns the rotation by 1 into one by 32, after which bits separate), and the set of states is finite.
* **C70** The section of GetCache under the mutex is atomic — Simulation: until the `go` statement the section has not happened, after it it has happened for every time the clock may still give; changes of a `sync.Once` commute with the statements.
* **C71** Digests bind the header hash — Partial-correctness inversion of the computations (no hypothesis on look-ups): a result has the form of the published short function; a collision is exhibited from lengths and injectivity of the encodings. Its two inputs are named: they are functions of the two computations (`C71_octopus_inputs`). That some collision exists would be no claim, since it holds for every function with values of one length.
* **C72** Equihash with parameters of one's own — Totality of every step (decoder, leaves, combining) under size conditions `Params.Fits` of the spec; the converse for five families of parameters, where the first leaf or `rows[0]` panics or the twist loop never ends.
* **C73** gen-lookup writes the lookup files — A reader for the whole file in the spec; the text of a table ends at its only brace, so the reader finds both tables.
* **C74** A process alone — `Sim` (Proof/FilesSeq): the set of complete runs of a program, seen through a function, equals a set of results; rules for each call, sequencing, then one lemma per function of mmap.go and cache.go up to `generate`. The two models of cache.go and mmap.go thereby check each other; it showed that `Model/Disk` had left out that removing the temporary file can fail.
* **C75** Autolykos2 with parameters of one's own — the recurrence in 32-bit arithmetic for every `n`; emptiness and exactness by kernel
  evaluation of the 32 × 71 sizes (n ≥ 32 by divisibility); the digest by C54's refinement, which is general in `k` and `N`.
* **C76** Eaglesong with parameters of one's own — the sponge for any rate: loops with a failing iteration (`forRange_err_at`), output described
  by its bytes (`IsOutput`, unique).
* **C77** Machines of either byte order — The views for `big` are the views for `little` composed with reversal of the bytes of each word; everything
  else is C37–C39 and the lemmas of C46.
* **C78** Which error Cuckoo returns — `Spec.PathAt` follows the path over the list of edges; it corresponds to the positions of the walk
  (`Orbit.Reached`), the outer loop is described step by step (`outer_exact`), and the cases exclude each other (`Result.unique`).
* **C79** No data races — `Spec/MemoryModel.lean` states happens-before; the invariant says for each access which later operations it happens
  before: those of the next holder of the mutex for the map, `future` and `used`, those of whoever was given the cache for its initial fields,
  those after `once.Do` for the words. Each step of the process lifts to a step with accesses and back (`C79_lift`, `C79_erase`), and each
  change of a field is among the recorded writes (`C79_writes`).
* **C80** Which error Equihash and BeamHash III return — `Spec/Faults.lean` says what the first faulty pair of sibling blocks is; the loop over
  the rows returns the error of that pair (`Pairing.rounds_spec`), and pairs below an exchanged pair are pairs of the original (`swap_pairs`).
* **C81** HeavyHash's rank in doubles — `Go/Float64.lean` against `Spec/Double.lean`: the nearest multiple of the last place is the nearest
  double, since doubles below the power of two are farther. The routine is first shown equal to a function of any size and arithmetic
  (`HeavyPure`); completing a block by units adds the number of units to its rank (`HeavyPad`), so that blocks of 9, 10 and 18 rows, which the
  kernel evaluates, give matrices of 64 rows.
* **C82** Paths — `Spec/Paths.lean` follows the elements of a path; `clean` is shown to be the text of the place (`clean_eq`, `place_render`),
  so equal texts are equal places. Hence the strings that stand for files in `Model/Disk.lean` (`StorageDir ++ "/" ++ name`) name different
  files exactly if they differ, and are the paths themselves for the shipped clients (`C82_faithful`, `C82_clients`).
* **C83** Memory — each function is modelled a second time on slices of a heap; a step-by-step simulation (`Runs`, `Builds`, `Writes` in
  `Proof/Heap.lean`) shows that the model on lists is what is found in memory, with a frame saying which arrays change. Properties that were
  proved of the models on lists thus hold of the code with memory. That `Compute` only reads the cache, which C79 assumes, is among the results.
* **C84** Equihash solutions of 4 GiB and more — the loop of `expandArray` writes exactly at the ends of the groups; the output is full after as
  many groups as the 32-bit length gives, and the next group, which a longer input has, is out of range (`Proof/EquihashLong.lean`).
* **C85** Isolation — a logic without hypotheses (`Spares` in `Proof/Isolation.lean`): every statement of the functions with memory either leaves the
  cells below a bound alone or writes to a slice above it; tactics follow the text of the functions. A computation
  that stops keeps the memory it had (`Mem` in `Go/Heap.lean`), so that calls that panic are included.
* **C86** Caches in memory, and callers that write — the generators run in place in a heap and are shown to patch exactly their slice
  (`patches_generateCache`); the invariant of `Process.Reach` says that the slices of a cache hold what `once.Do` was seen to give, outside of the
  arrays of the caller.
* **C87** How much is looked at — `DeterminedBy ask n f` (`Spec/Work.lean`): for every object there are at most `n` questions whose answers fix the value
  of `f`; rules for sequences, loops with invariants and functions of functions (`Proof/Work.lean`) follow the text of the models
  (`Proof/WorkHashes.lean`). The questions are chosen adaptively, and questions that are asked twice count twice. It is a bound on what the result
  depends on; the model has no notion of time.
* **C88** Losses of power — `Model/Power.lean` adds losses of power to the executions of C44: all processes end, and each final name has contents it
  once had, or what the parameter `lose` leaves of them. The invariant of C44 (`Proof/Files.lean`) is proved with a switch `junk` that admits
  rejected contents under final names; C44 is the case without, C88 the case with. The executions of the second half are built from the same
  pieces as those of C45.
* **C89** Numbers of files — `Spec/Growth.lean` says which epochs have files after a series of requests; the runs of `generate` (C47, C48) refine it,
  and the rest is about the specification. With failures only an upper bound can hold (`Rising`).
* **C90** The twist with short digests — In the model with memory (the model with lists takes the capacity to be the length) the bytes behind a
  digest are arbitrary. The low bytes of a sum of little-endian words depend on the low bytes of the words only, so the leaves are those of the
  specification; plain Equihash under hash functions chosen to give these leaves (`plainPrims`) then has the verdict, by the proof of C07.
  `Maybe` (Proof/InMem/Quiet.lean) is the refinement with the panic as the second outcome.
* **C91** Machines with an `int` of 32 bits — The functions that convert to `int` or compute with the length of an input, with the width as a
  parameter. `Holds w b`: values below `b` are exact; one proof serves both widths. For Eaglesong the number of absorbed blocks is computed
  exactly, and the state after `k` blocks depends on the first `32 k` bytes only.
* **C92** Caches of 4 GiB and datasets of 256 GiB, and larger ones — The lemmas about rows, accesses and items (`Proof/Generate.lean`,
  `Proof/Hashimoto.lean`, `Proof/Octopus.lean`) are stated for every size with remainders, and those of C20, C22 and C38 are special cases. The
  cache follows a partial function (`Spec/Large.lean`) step by step (`forRange_option`). The epochs follow from three primes just above 2^26,
  2^30 and 2^31.
* **C93** The cycle of xoshiro256++ and the termination of HeavyHash — The transition is an endomorphism `T` of the group of states under
  exclusive or. A polynomial of degree 256 vanishes at `T` (evaluated on the 256 unit vectors in the kernel), so powers of `T` are powers of
  `x` modulo it (`Proof/Gf2.lean`). `T^(2^256-1) = 1`, and for each of the eleven primes `q` dividing the exponent (`Proof/Pratt.lean`, with a
  certificate of primality for each) `T^((2^256-1)/q) - 1` has an inverse, so that it moves every state but zero. Counting gives the orbit.
  For the rank, `Proof/HeavyEval.lean` has an evaluator for the elimination with doubles as mantissa and exponent, which gives up when a
  result might differ from the model's; the kernel runs it on the 64 × 64 matrix drawn from the state 1, 0, 0, 0, once per way of rounding
  (a minute and a half each). In exact arithmetic an inverse modulo 5 is the certificate (`Proof/HeavyRegular.lean`).
* **C94** Descriptors and mappings — The programs of `Model/Files.lean`, with any result of any call; each call is translated into an event
  (`Model/Handles.lean`), and `Spec/Handles.lean` keeps per file the number of descriptors, mappings and failures of `Unmap`, with no successor
  for a mistake. A weakest precondition over all results (`Safe`), one lemma per function: the counts grow by those of the result.
  Interleavings: counts of goroutines add up, since events are monotone.
* **C95** DAG configurations of one's own — The two loops over sizes are one loop (`walkStep`); that it ends for every row size below 2^63
  and never for others is shown by following the 64-bit number downwards, or upwards where two rows wrap around (`Proof/DagParams.lean`).
  `generateCache` and `generateL1Cache` for arrays of any length, then `Compute` through C20, C22, C39 and C63.
* **C96** The same with a directory — The lemmas of C44 to C47 about `memoryMapAndGenerate`, with an L1 cache of the size in the file; the two
  sizes are told apart by runs without failures and without a directory. Sizes need not be multiples of four: the bytes left over stay zero and
  are dropped by the view of words. ProgPoW reads no word of the L1 cache beyond the first 4096.
* **C97** ProgPoW configurations of one's own — Invariants instead of values: every lane keeps its number of registers, and the two register
  sequences stay below it (`Proof/ProgpowParams.lean`). The product of consecutive register counts is not zero modulo 2^32. Failures show in the
  first round. For counts within 32 bits the values are the published ones, by the refinement of C63, which asks less of a configuration for it.
* **C98** The command line of gen-lookup — Go's `flag` and `strconv` with base 0 are modelled in `Go/Flag.lean` from their documentation. Induction
  over the settings; decimal digits are read back by `parseUint`, and the tables are those of C73 with the sizes of C95.
* **C99** The cycles of KISS99 — A step that multiplies with carry is a division by `2^16` modulo `m * 2^16 - 1`, a prime whose half is prime too, so the
  order of `2^16` is that half. The congruential generator is handled by the multiplicity of 2 in `69069^d - 1`, the shift register by a polynomial of
  degree 32 that vanishes on it, with the tools of C93. The four distances are joined by coprimality. The seeds follow from the inverse of the FNV prime.
* **C100** What a round keeps of an item — The destinations taken in a round are the first 32 of a permutation (C63), word 0 apart (`program_targets`).
  Merging is injective and onto in the merged word (C29), so loads into distinct registers are injective, and a second load into register 0 can make up
  for a change of the first. The parts of an item go to the lanes by exclusive or with the round number, which permutes them.
* **C101** One wrong word — Both FNV functions are injective in each argument, and so is the merge of a register with a word (C29). Lists that differ in
  one place are followed through the last access and the reductions (`Proof/LastItem.lean`). That no other access reads the same place is an assumption,
  evaluated for examples, since nothing is known about the order of accesses. The same for a word of the cache and an item of the dataset (`C101_item`).
* **C102** Points of Octopus — The difference of two polynomials is a power of `X` times a polynomial of degree below `m`. Composed with the quadratic
  polynomial of the points it has degree `2 m` at most, and distinct exponents give distinct powers of the generator (`Proof/OctopusPoints.lean`).
* **C103** Low bits — FNV is multiplication by an odd number and exclusive or, so it commutes with taking the lowest bits and keeps the lowest bit in
  which two words differ (`Proof/LowBits.lean`).
* **C104** Indexes of Autolykos2 — A window is 256 times the one before, minus `2 ^ 32` times the byte dropped, plus the byte added. For each of the 72
  sizes of the table a multiple of `2 ^ 32` by a difference of bytes is congruent to no difference of bytes but zero (checked by the kernel for all
  72 sizes and 256 bytes), so each pair of neighbouring indexes fixes a byte (`Proof/AutolykosIndex.lean`).
  The 32 windows go around the digest once, so a rotation of the digest rotates the indexes, and the sum does not change.
* **C105** Matrix of HeavyHash — A sum of 64 products of nibbles, 10 bits of which are dropped: bounds by the sum of the nibbles, and a change of one factor
  by less than `2 ^ 10` (`Props/HeavyMatrix.lean`). The matrix of `C105_not_injective` is not claimed to be drawn for some hash.
* **C106** Reused hashers — The hash object is a state, the functions run in a state monad over it; each equals its stateless form because a call gives the
  same from every state (`Proof/Hasher.lean`: absorbing and squeezing byte by byte against the sponge on blocks in `Spec/Sponge.lean`;
  `Proof/HasherUse.lean`). Calls at the same time
  are series of operations on one object, each operation a step (`C106_operations`). `Test/Hasher.lean` compares the sponge with
  Keccak-f[1600] to published digests.
* **C107** What is absorbed — `left_encode` puts the number of bytes before a number and `encode_string` the length before a string, so neither is the front
  of another, and the padding of the sponge can be read off from the end (`Proof/CShake.lean`). The standard is in `Spec/CShake.lean`, the model uses
  its string before the input and `Test/CShake.lean` compares with the standard's sample. That different blocks give different digests is not claimed.
  `Proof/KeccakFBij.lean`: Keccak-f[1600] is one-to-one, by the argument of C69.
* **C108** Constants of Eaglesong — `Model/EaglesongGen.lean` has `generateInjectionConstants` with the hash object. Keccak-f[1600] is written out in
  `Spec/KeccakF.lean`; `Proof/ShakeStates.lean` has the 23 states that SHAKE256 goes through for the phrase, each proved by the kernel's evaluation to
  be the permutation of the one before, and `Proof/EaglesongGen.lean` reads the table off them.
