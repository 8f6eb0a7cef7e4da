#!/usr/bin/env python3
"""Writes /verif/properties.jsonl. Each tuple: id, title, statement, quantifier, why_tests_cant, anchors."""
import json
P = []
def p(title, statement, quant, why, anchors):
    P.append(dict(id="C%02d" % (len(P) + 1), title=title, statement=statement, quantifier=quant, why_tests_cant=why, anchors=anchors))

# ---- cuckoo
p("Cuckoo: Verify accepts exactly the cycles",
  "cuckoo.Client.Verify on a Cuckoo-variant client returns (true, nil) if and only if the supplied edge indices are all at most the edge mask and the edges they denote (with endpoints given by the siphash node function under the keys derived from the header) can be arranged into one simple cycle of length proofSize in the bipartite graph; in every other case it returns false with a non-nil error.",
  "every header, every edge list, every node function, every proofSize >= 1 and every edgeBits",
  "tests try six known-good proofs; soundness quantifies over all 2^1218 bad proofs, and completeness over all good ones",
  ["cuckoo/client.go:Client.Verify", "cuckoo/cuckoo.go:Client.cuckoo", "internal/crypto/siphash.go:SipNode24Legacy"])
p("Cuckaroo: Verify accepts exactly the cycles",
  "cuckoo.Client.Verify on a Cuckaroo-variant client returns (true, nil) if and only if every edge index is at most the edge mask and the edges, with endpoints the low and high halves of the siphash block value masked by the edge mask, can be arranged into one simple cycle of length proofSize; otherwise it returns false with an error.",
  "every header, every edge list, every block function, every proofSize >= 1 and every edgeBits",
  "same reason as C01: a finite list of samples cannot exclude a false accept",
  ["cuckoo/cuckaroo.go:Client.cuckaroo", "cuckoo/client.go:NewCortex", "internal/crypto/siphash.go:SipBlock48"])
p("Cuckoo cycle walk always terminates",
  "For every input, cuckoo.Client.Verify on a Cuckoo or Cuckaroo client with proofSize >= 1 returns after at most 2*proofSize outer iterations and never panics, even on adversarial edge lists containing branches, dead ends, duplicate edges and rho-shaped walks.",
  "every header, every edge list (including adversarial ones), every proofSize >= 1",
  "the walk has no explicit bound in the code; only an argument over all graphs shows it cannot run forever",
  ["cuckoo/cuckoo.go:Client.cuckoo", "cuckoo/cuckaroo.go:Client.cuckaroo"])
p("Cuckoo proofs are order malleable",
  "The verdict of Verify does not depend on the order in which the edges are listed: any permutation of an accepted proof is accepted, so (contrary to the ErrPowTooSmall rule, whose guard `n < 0` can never hold) an accepted cycle has many accepted encodings and ErrPowTooSmall is never returned.",
  "every header, every accepted proof and every permutation of it",
  "the tests only use ascending proofs; permutation invariance is a statement about all n! orders",
  ["cuckoo/cuckoo.go:12", "cuckoo/cuckaroo.go:12", "cuckoo/errors.go:ErrPowTooSmall"])
p("Accepted Cuckoo proofs have no repeated edge when proofSize > 2",
  "If Verify accepts and proofSize > 2 then all edges are pairwise distinct and proofSize is even; with proofSize = 2 the repeated pair [e, e] is accepted for every in-range e.",
  "every header, edge list and proofSize",
  "needs the absence of any accepted duplicate-bearing proof",
  ["cuckoo/cuckoo.go:Client.cuckoo", "cuckoo/cuckaroo.go:Client.cuckaroo"])
p("Sip node values are within the edge mask and the compression is the published SipRound",
  "SipNode24, SipNode24Legacy and the masked halves of SipBlock48 never exceed the edge mask, SipRound equals the published SipHash ARX round and is a bijection of the 256-bit state, and Hash24/Hash48 are 2-4 and 4-8 SipHash with 0xff finalisation.",
  "every key, edge and mask", "2^256 states", ["internal/crypto/siphash.go"])
# ---- equihash
p("Equihash: Verify accepts exactly the Wagner solutions",
  "equihash.Client.Verify returns (true, nil) if and only if the solution has the minimal-encoding length and the decoded 2^k indices satisfy the Equihash conditions of the Zcash protocol: at every aligned block of 2^r leaves the XOR of the leaf hashes vanishes on collision chunk r, the XOR of all leaves vanishes on the last chunk too, the first index of each left subtree is smaller than the first index of its sibling, and no index repeats.",
  "every header, every solution byte string, every personalisation and all five shipped parameter sets (and every well-formed n, k)",
  "soundness ranges over all byte strings of the solution length",
  ["equihash/equihash.go:verify", "equihash/client.go:Client.Verify"])
p("Equihash accepted solutions consist of 2^k distinct indices whose hashes XOR to zero",
  "If Verify returns true then the decoded indices are pairwise distinct, exactly 2^k in number, each below 2^(c+1) (c the collision bit length), and the bytewise XOR of all expanded leaf hashes is zero.",
  "every accepted (header, solution)", "universal over accepted solutions", ["equihash/equihash.go:validateSubtrees", "equihash/equihash.go:newNodeFromChildrenRef"])
p("Equihash index encoding is a bijection",
  "For the shipped parameters, decoding a minimal solution is the inverse of big-endian (c+1)-bit packing: every index list of length 2^k with entries below 2^(c+1) is the decoding of exactly one byte string, so two different accepted solutions for a header differ as index lists.",
  "every byte string of the solution length, every index list", "2^(2^k (c+1)) encodings", ["equihash/equihash.go:expandArray", "equihash/equihash.go:indicesFromMinimal", "internal/common/convutil/convutil.go:BytesToUint32Array"])
p("Equihash solutions are canonical under sibling swaps",
  "If a solution is accepted, no solution obtained from it by exchanging two sibling subtrees (at any level) is accepted.",
  "every accepted solution, every tree level and position", "there are 2^(2^k-1) such variants", ["equihash/equihash.go:validateSubtrees"])
p("Equihash Verify is total on the shipped clients",
  "For NewFlux, NewBitcoinGold, NewZClassic, NewZCash and NewAion, Verify terminates without panic for every header and every solution except those whose length is that of a solution plus a positive multiple of 4 GiB (the length is converted to uint32 before it is checked).",
  "every header and solution byte string", "panics on unexercised index arithmetic can only be excluded by proof", ["equihash/equihash.go", "equihash/client.go"])
p("expandArray is big-endian bit unpacking",
  "expandArray(input, b, pad) returns, for each of the floor(8 len/b) successive b-bit big-endian groups of the input, pad zero bytes followed by the group in big-endian bytes (then zero fill), whenever the 32-bit accumulator suffices (b + 8 - gcd(8,b) <= 32, which holds for every shipped parameter); for b in {27, 29, 30, 31} the guard admits the call but bits are lost. When the computed output length happens to equal the input length the input is returned unchanged, which for whole-byte groups is the same thing.",
  "every input byte string, every bit length and padding", "all inputs", ["equihash/equihash.go:expandArray"])
p("Twisted (ZelHash) leaf hashing",
  "With twist enabled the leaf hash for group g is the lane-wise 32-bit sum of the BLAKE2b outputs for offsets (g with its low 4 bits cleared) up to g, with the low three bits of every 16th byte cleared.",
  "every header, personalisation and group index", "all inputs", ["equihash/equihash.go:generateHash"])
# ---- beam
p("BeamHash III: Verify accepts exactly the valid solutions",
  "beamhashiii.Client.Verify returns (true, nil) if and only if the header is 40 bytes, the solution 104 bytes, and the 32 decoded 25-bit indices form a BeamHash III solution: at each of five rounds sibling work words (after the index mixing step) agree on their low 24 bits, left first index before right, disjoint index sets, and the final 24-bit remainder is zero.",
  "every header and solution byte string", "2^832 solutions", ["beamhashiii/beamhashiii.go:verify", "beamhashiii/client.go:Client.Verify"])
p("BeamHash III: accepted solutions have 32 distinct indices in canonical order",
  "If Verify returns true the 32 decoded indices are pairwise distinct, and swapping the halves of any aligned block gives a solution that is not accepted.",
  "every accepted (header, solution)", "universal over accepted solutions", ["beamhashiii/beamhashiii.go:validateSubtrees"])
p("BeamHash III index decoding is a bijection",
  "The first 100 solution bytes and the 32 25-bit indices determine each other (little-endian packing, nothing truncated), and the last four bytes enter the hash state verbatim as extra nonce.",
  "every 104-byte solution and every 32-tuple of 25-bit indices", "2^800 encodings", ["beamhashiii/beamhashiii.go:indicesFromMinimal", "beamhashiii/beamhashiii.go:initializePrePow"])
p("BeamHash III Verify is total",
  "Verify terminates without panic on every header and solution of any length.",
  "every header and solution", "all inputs", ["beamhashiii/client.go", "beamhashiii/beamhashiii.go"])
# ---- octopus
p("Octopus remap yields primitive roots",
  "For every 64-bit value the Octopus parameter derivation terminates and yields 11^e mod 1032193 with e coprime to 1032192, i.e. a generator of the multiplicative group; in particular it is never 0.",
  "every 64-bit value", "2^64 inputs", ["octopus/octopus.go:remap", "octopus/octopus.go:powerMod", "octopus/octopus.go:gcd"])
p("Octopus computeC terminates with non-zero discriminant",
  "For every a, b derived by remap and every 64-bit h, the search for c terminates and returns a c with b^2 != 4ac modulo 1032193.",
  "every a, b, h", "the loop has no explicit bound", ["octopus/octopus.go:computeC"])
p("Octopus evaluates the degree-1023 polynomial at a w^(2t) + b w^t + c",
  "The i-th per-thread value Octopus derives equals sum_j d_j x^j modulo 1032193 at x = a w^(2t)+b w^t+c with t = nonce mod 32 + 32 i, with no 64-bit overflow anywhere, and the coefficients d_j depend on the nonce only through nonce/32.",
  "every hash and nonce", "all hashes and nonces", ["octopus/octopus.go:octopus"])
p("Octopus dataset accesses stay in the dataset",
  "Every dataset item index Octopus requests is below datasetSize/64, for every hash, nonce and every dataset size between 256 and 2^38 bytes, so Compute never reads past the dataset and never divides by zero.",
  "every hash, nonce, dataset size and dataset content", "all inputs", ["octopus/octopus.go:octopus"])
# ---- ethash
p("Ethash Compute is hashimoto",
  "ethash Compute returns (cmix, keccak256(s || cmix)) where s = keccak512(hash || LE64(nonce)), and cmix is obtained by the published hashimoto-light loop; both results are 32 bytes.",
  "every 32-byte hash, nonce, dataset size from 128 to 2^38-1 and dataset lookup", "all inputs", ["ethash/ethash.go:hashimoto", "ethash/client.go:Client.Compute"])
p("Ethash dataset accesses stay in the dataset",
  "Every dataset item index requested by hashimoto is below 2*floor(datasetSize/128) and the computation never panics for 128 <= datasetSize < 2^38.",
  "every hash, nonce, dataset content and size", "all inputs", ["ethash/ethash.go:hashimoto"])
# ---- progpow
p("KeccakF800 is Keccak-p[800,22]",
  "crypto.KeccakF800 computes the 22-round Keccak permutation on 25 32-bit lanes as defined by theta, rho, pi, chi, iota with the standard offsets and round constants.",
  "every 800-bit state", "2^800 states", ["internal/crypto/keccak.go:KeccakF800"])
p("KAWPOW / FiroPoW / ProgPoW seed and finalisation framing",
  "The kawpow, firopow and progpow-0.9.4 digests are Keccak-p[800] of the documented absorb layouts (hash words, nonce low/high words, algorithm padding; then seed state words, mix hash words, padding), and the digest is the first 8 state words little-endian.",
  "every hash, nonce and mix", "all inputs", ["kawpow/kawpow.go:initialize", "kawpow/kawpow.go:finalize", "firopow/firopow.go", "internal/progpow/progpow094.go"])
p("ProgPoW mix never indexes out of range",
  "For every seed, height, dataset lookup returning 64 words and L1 cache of 4096 words, the ProgPoW mix (as configured by kawpow and firopow) terminates without panic and returns a 32-byte mix hash; every dataset index requested is below datasetSize/256.",
  "every seed, height, dataset size >= 256, lookup content and L1 content", "all inputs", ["internal/progpow/algorithm.go:Hash", "internal/progpow/algorithm.go:round"])
p("ProgPoW register sequences are permutations",
  "The source and destination register sequences derived from any program seed are permutations of 0..31 (every register is written in each full pass), and two math operands are always distinct registers.",
  "every 64-bit program seed", "2^64 seeds", ["internal/progpow/mixrng.go:initMixRngState", "internal/progpow/algorithm.go:72"])
p("ProgPoW depends on height only through the period",
  "For fixed dataset and L1, kawpow (firopow, progpow) results at heights h and h' agree whenever h/period = h'/period.",
  "every pair of heights in the same period", "all heights", ["internal/progpow/algorithm.go:Hash", "kawpow/kawpow.go:kawpow"])
p("ProgPoW merge loses no information",
  "For every selector, the ProgPoW merge is a bijection of the register for fixed data and of the data for fixed register.",
  "every selector and value", "2^64 pairs per selector", ["internal/progpow/math.go:randomMerge"])
p("ProgPoW math matches its table",
  "randomMath with selector s computes add, mul, mulhi, min, rotl, rotr, and, or, xor, clz-sum, popcount-sum according to s mod 11, with rotations taken modulo 32.",
  "every a, b, selector", "2^96 inputs", ["internal/progpow/math.go:randomMath"])
# ---- dag sizes
p("Cache and dataset sizes are the largest prime row counts",
  "For every epoch for which CacheSize (DatasetSize) returns, the result is 64 (resp. MixBytes) times the largest prime strictly below the linear growth bound, for the shipped configurations.",
  "every epoch for which init + growth*epoch is below 2^64; beyond that the same with the bound taken modulo 2^64", "the embedded tables have 16360 entries that tests sample at ten points", ["internal/dag/dag.go:calcCacheSize", "internal/dag/dag.go:calcDatasetSize"])
p("Embedded size tables agree with the formula",
  "Every entry of the embedded cacheSizes and datasetSizes tables of ethash, kawpow, firopow and octopus equals the size computed by the formula for that epoch.",
  "every table index of all eight tables", "tests check ten entries of one table", ["ethash/ethash_lookup.go", "kawpow/kawpow_lookup.go", "firopow/firopow_lookup.go", "octopus/octopus_lookup.go"])
p("Size lookup panics exactly for epochs 2045, 2046 and 2047",
  "CacheSize and DatasetSize of the shipped clients return for every epoch except 2045, 2046 and 2047, and panic with an index out of range for those three (a defect: the tables hold 2045 entries but are registered for 2048 epochs).",
  "every epoch", "the failing epochs are far beyond those exercised by tests", ["internal/dag/dag.go:CacheSize", "internal/dag/dag.go:DatasetSize", "cmd/gen-lookup/main.go:formatLookupTable"])
p("Ethereum Classic size fallback",
  "NewEthereumClassic() leaves MixBytes unset, so DatasetSize divides by zero for every epoch from 2048 on (a defect); for epochs below 2045 it gives the published size for 128-byte rows.",
  "every epoch >= 2048", "needs heights above 122 million", ["ethash/client.go:NewEthereumClassic", "internal/dag/dag.go:calcDatasetSize"])
p("gen-lookup drops the remainder row",
  "The text gen-lookup writes for a table, read back as a Go literal, holds exactly the first r*floor(n/r) of the n computed sizes for rows of r entries; so it is complete if and only if r divides n (a defect: 2048 sizes become 2045), and the tables in the repository are the output for the parameters in the go:generate lines.",
  "every table length and row size", "all lengths", ["cmd/gen-lookup/main.go:formatLookupTable"])
p("Epoch and seed chain",
  "CalcEpoch partitions heights into consecutive blocks of EpochLength; the seed for epoch e is the e*EpochLength/SeedEpochLength-fold keccak256 iterate of 32 zero bytes (e-fold for ETH, RVN, FIRO, CFX; 2e-fold for ETC).",
  "every height and epoch (no 64-bit overflow)", "all heights", ["internal/dag/dag.go:CalcEpoch", "internal/dag/dag.go:SeedHash", "internal/dag/cache.go:46"])
# ---- dag generate
p("generateCache is the published cache construction",
  "The verification cache produced for a seed is the result of the published construction: keccak512 chain of rows, then CacheRounds passes replacing row j by keccak512(row[j-1 mod n] xor row[word0(row j) mod n]); no access is out of range.",
  "every seed, every row count from 1 to 2^26-1 (from 2^26 rows, 4 GiB, the 32-bit byte offsets of the code overflow), every round count", "all sizes and seeds", ["internal/dag/generate.go:generateCache"])
p("Dataset items are the published construction and always in range",
  "generateDatasetItem computes the published dataset item from the cache for every 32-bit index, never reading outside the cache.",
  "every cache from one row to 2^28 rows, every 32-bit index, every parent count", "all inputs", ["internal/dag/generate.go:generateDatasetItem"])
p("512/1024/2048-bit lookups and L1 agree",
  "A 2048-byte-class lookup at index i is the concatenation of the four 64-byte dataset items 4i..4i+3 (resp. 2 items), and the L1 cache is the concatenation of dataset items 0..255, so L1 word j is word j mod 64 of lookup2048(j div 64).",
  "every cache and index", "all caches", ["internal/dag/dag.go:NewLookupFunc512", "internal/dag/dag.go:NewLookupFunc2048", "internal/dag/generate.go:generateL1Cache"])
# ---- dag cache manager
p("GetCache returns the cache of the requested epoch",
  "In every reachable state of the in-memory cache manager, GetCache(e) returns a cache whose contents are those generated for epoch e; for the shipped chains these are the published cache and L1 cache of epoch e (epochs the lookup tables or the size formulas cover, cache below 4 GiB).",
  "every interleaving of GetCache calls with background pre-generation", "schedules", ["internal/dag/dag.go:GetCache", "internal/dag/cache.go:generate"])
p("The number of resident caches is bounded",
  "After any sequence of GetCache calls at most CachesCount caches are registered, for every CachesCount >= 1; with CachesCount <= 0 the first call panics.",
  "every call sequence", "histories", ["internal/dag/dag.go:GetCache"])
p("Eviction removes a least recently used epoch",
  "When a call evicts, the evicted epoch is one whose last GetCache is oldest, and no other epoch is evicted; evictions happen only when an unregistered epoch is asked for while CachesCount are registered. When no two calls read the same time, the registered epochs are exactly the CachesCount most recently requested different ones.",
  "every call sequence with non-decreasing clock, and every map iteration order", "histories and map orders", ["internal/dag/dag.go:134"])
p("Each cache object is generated once and only used when complete",
  "Under any interleaving of callers and the background generator, a cache object's generation body runs at most once, and every GetCache return happens after that run completed.",
  "every schedule of any number of goroutines", "schedules", ["internal/dag/cache.go:generate", "internal/dag/dag.go:GetCache"])
p("On-disk caches are crash safe",
  "If temporary names are not shared between writers, then after any interleaving of generators, removals and crashes every file at a final cache path holds a complete, correct cache; a process never maps a partially written file.",
  "every interleaving, every crash point", "crash points and schedules", ["internal/dag/mmap.go:memoryMapAndGenerate", "internal/dag/mmap.go:memoryMap"])
p("Concurrent processes do not corrupt each other's cache files",
  "Processes generating the same cache never expose a partially written file under the final name provided they draw different random suffixes for their temporary files; when two draw the same suffix (as two fresh processes do wherever the global math/rand is unseeded) there is a schedule in which one renames the file the other is still rewriting.",
  "every schedule of two processes", "needs a specific interleaving", ["internal/dag/mmap.go:127"])
p("A mapped cache file is validated before use",
  "memoryMap accepts a file exactly when its first 8 bytes are the dump magic, and then returns everything after them; empty files and files with a wrong magic give an error, a non-empty file shorter than 8 bytes panics unless its first 4 bytes are there and already wrong, and neither length nor content of the rest is examined.",
  "every file content", "all contents", ["internal/dag/mmap.go:memoryMap"])
p("Disk and memory modes agree",
  "generate yields the published cache and L1 contents of the epoch, the same with StorageDir empty, with a cold directory, with a directory holding files written by any history of earlier runs of any of the clients, and whichever system calls fail; and it leaves every file absent or right. (For epochs whose size is defined and whose cache is below 4 GiB.)",
  "every storage state satisfying the crash-safety invariant, every history, every failure outcome", "histories and failures", ["internal/dag/cache.go:generate"])
p("Cleanup never deletes a recent epoch's file",
  "After generating epoch e the files removed are exactly those of epochs 0..e-CachesCount; files of epochs above e-CachesCount and of other chains survive, and no other file is touched. Nothing is removed when both files could be mapped.",
  "every epoch and CachesCount", "all epochs", ["internal/dag/cache.go:103"])
# ---- heavyhash
p("HeavyHash Compute terminates",
  "heavyhash Compute returns for every 32-byte hash. (False: the all-zero hash seeds xoshiro256++ with its fixed point, so the matrix stays zero, its rank never reaches 64 and the call never returns. The generator state never becomes zero from a non-zero hash.)",
  "every 32-byte hash", "non-termination is not observable by a test", ["heavyhash/matrix.go:newMatrix", "internal/crypto/xoshiro256plusplus.go:Next"])
p("HeavyHash matrix product does not overflow",
  "For every matrix of 4-bit entries and every 32-byte intermediate hash the 16-bit accumulators never wrap, every product nibble is at most 14 (so that no nibble of the intermediate hash is complemented), and the digest is the byte-reversed cSHAKE of the header hash xored with the packed nibbles of the exact matrix-vector product divided by 2^10.",
  "every matrix, hash, timestamp and nonce", "all matrices", ["heavyhash/heavyhash.go:heavyHash"])
p("xoshiro256++ step",
  "The generator step equals the published xoshiro256++ transition and is a bijection on states; the zero state is its unique fixed point and is reached from no other state.",
  "every 256-bit state", "2^256 states", ["internal/crypto/xoshiro256plusplus.go"])
p("HeavyHash rank routine computes the rank",
  "The elimination routine returns the linear-algebra rank of the matrix when carried out in exact arithmetic (float64 rounding is not modelled).",
  "every 64x64 matrix", "all matrices", ["heavyhash/matrix.go:calculateRank"])
# ---- autolykos
p("Autolykos2 table size schedule",
  "For the Ergo parameters the table size N never overflows 32 bits, is constant below height 614400, grows by 5% steps (N/100*105) every 51200 blocks, is non-decreasing in height, and its value beyond height 4198400 equals its value at 4198400.",
  "every 64-bit height", "all heights", ["autolykos2/autolykos2.go:calcN"])
p("Autolykos2 digest",
  "Compute returns Blake2b256 of the minimal big-endian bytes of the sum of k 31-byte elements selected by indexes below N derived from the message, nonce and height; it never panics for the Ergo parameters. (The sum is hashed without fixed-width padding: when it is below 2^248 fewer than 32 bytes are hashed.)",
  "every 32-byte message, nonce, height", "all inputs", ["autolykos2/autolykos2.go:compute", "autolykos2/autolykos2.go:genIndexes"])
p("Autolykos2 heights above 2^32 alias",
  "The height enters element hashing only modulo 2^32: two heights beyond 4198400 that agree modulo 2^32 give identical digests.",
  "every pair of heights", "all heights", ["autolykos2/autolykos2.go:64"])
# ---- eaglesong
p("Eaglesong permutation is bijective",
  "For every number of rounds up to 43, the Eaglesong round function is a bijection of the 512-bit state.",
  "every 512-bit state", "2^512 states", ["eaglesong/eaglesong.go:permute"])
p("Eaglesong output length and totality",
  "For the Nervos parameters Compute returns exactly 32 bytes for every input of any length, without panic.",
  "every input", "all lengths", ["eaglesong/eaglesong.go:eaglesong", "eaglesong/client.go"])
p("Eaglesong padding collisions",
  "Inputs with different contents are absorbed differently. (False: when the input length is a multiple of four, appending up to three zero bytes does not change the digest. For inputs of equal length the absorbed blocks determine the input.)",
  "every input", "all inputs", ["eaglesong/eaglesong.go:45"])
# ---- utilities
p("XORBytes assembly is bytewise xor",
  "XORBytes(dst, a, b) writes exactly min(len a, len b) bytes, each the xor of the corresponding inputs, leaves the rest of dst unchanged and returns that count, for the amd64, arm64 and generic versions alike.",
  "every length and content", "all lengths and tails", ["internal/common/bitutil/xor_amd64.s", "internal/common/bitutil/xor_arm64.s", "internal/common/bitutil/xor_generic.go"])
p("Word/byte conversions round-trip",
  "Uint32ArrayToBytes and BytesToUint32Array are inverse to each other (on byte strings whose length is a multiple of 4) in both byte orders; other lengths drop the trailing bytes.",
  "every word list, byte list and byte order", "all lists", ["internal/common/convutil/convutil.go"])
p("Wrong-length inputs are rejected with an error",
  "Every Compute of a client that takes a 32-byte hash or message returns its error exactly when the length is not 32, whatever the configuration, height and nonce and without asking for a cache; BeamHash III's Verify returns an error for every header not of 40 bytes and every solution not of 104, and Cuckoo's for every proof not of ProofSize entries.",
  "every input of wrong length, all clients", "all lengths", ["ethash/client.go:Compute", "kawpow/client.go:Compute", "firopow/client.go:Compute", "octopus/client.go:Compute", "heavyhash/client.go:Compute", "autolykos2/client.go:Compute", "beamhashiii/client.go:Verify", "cuckoo/client.go:Verify"])
p("FNV mixing",
  "Fnv1 and Fnv1a are bijective in each argument for fixed other argument (32-bit), Fnv1Uint64 likewise in 64 bits, and FnvHash applies Fnv1 element-wise to the first len(mix) words.",
  "every pair of words, every vector", "2^64 pairs", ["internal/crypto/fnv.go"])
# ---- appended
p("ProgPoW mix is the published lane-parallel computation",
  "Hash draws each round's program (the order of cache reads, math instructions and merges) from the period seed alone, never from the mix, and the result is that of running the program lane by lane on separate register files, one dataset item per round chosen by lane r mod LaneCount, followed by the FNV-1a reduction; KAWPOW, FiroPoW and ProgPoW 0.9.4 instantiate it with their published parameters.",
  "every header hash, height, nonce, dataset, L1 cache and every admissible parameter set", "all datasets and parameters", ["internal/progpow/algorithm.go:Hash", "internal/progpow/algorithm.go:round", "kawpow/kawpow.go", "firopow/firopow.go", "internal/progpow/progpow094.go"])
p("Compute is the published proof of work of its chain",
  "For the Ethereum, Ethereum Classic, Ravencoin, Firo and Conflux clients Compute(hash, height, nonce) with a 32-byte hash returns exactly the mix and digest that the chain publishes: epoch height / epoch length, seed, cache, dataset size, dataset items, L1 cache and hash function with the published parameters, whether the cache comes from memory or from any directory whose cache files are absent or right and whatever system calls fail. At heights of epochs 2045 to 2047 (and from 2048 on for Ethereum Classic) it panics instead.",
  "every hash, nonce, height (cache below 4 GiB, dataset below 256 GiB), every directory state and outcome of system calls", "end-to-end behaviour over all heights; a full cache takes seconds to minutes per epoch", ["ethash/client.go:Compute", "kawpow/client.go:Compute", "firopow/client.go:Compute", "octopus/client.go:Compute", "internal/dag/dag.go"])
p("Every GetCache call comes to an end",
  "With CachesCount >= 1 the manager cannot deadlock: as long as a goroutine has not ended and the process has not crashed some goroutine can take a step, and every step other than a new call decreases a measure, so that every run without new calls is finite and ends with all calls returned or panicked.",
  "every reachable state, any number of goroutines", "schedules", ["internal/dag/dag.go:GetCache", "internal/dag/cache.go:generate"])
p("Asking for epoch 2044 brings the process down",
  "Generation of epochs 2045 to 2047 panics for every shipped chain (the lookup tables have 2045 entries but 2048 are registered). GetCache pre-generates the next epoch in a goroutine of its own, where the panic cannot be recovered: a process whose calls are all for epochs up to 2044, and that has asked for epoch 2044, never comes to rest without having crashed.",
  "every execution with calls up to epoch 2044", "the first such epoch lies years ahead, and depends on the schedule", ["internal/dag/dag.go:152", "internal/dag/cache.go:45", "internal/dag/dag.go:CacheSize"])
p("No Compute reads an unmapped cache",
  "The finalizer of a cache unmaps its files when the collector finds nothing that refers to the cache. In no execution, whatever calls run concurrently and whenever the collector runs, is a cache unmapped that is registered, being generated, being waited for or still read by a Compute, so no Compute reads unmapped memory. The runtime.KeepAlive of Compute is what ensures this: without it a Compute whose epoch is evicted during its last look-up can read unmapped memory.",
  "every execution of a process: any number of concurrent calls, any schedule, any time of collection", "depends on the collector and the schedule; a violation is a rare segmentation fault", ["internal/dag/cache.go:finalizer", "ethash/client.go:Compute", "kawpow/client.go:Compute", "firopow/client.go:Compute", "octopus/client.go:Compute"])
p("The next epoch is generated ahead",
  "After any requests GetCache keeps the cache of the epoch after the highest epoch requested, generated by a goroutine of its own; a request for that epoch is given this cache. While each request is for the epoch of the one before or the next, no epoch is generated twice. (After a request for a lower epoch its next epoch is not generated ahead.)",
  "every execution, any number of goroutines, epochs below 2^64 - 1", "schedules and sequences of requests", ["internal/dag/dag.go:145", "internal/dag/dag.go:152"])
p("KeccakF800 is a permutation, so seeds determine the header hash and the nonce",
  "KeccakF800 is a bijection of the states of 25 words. Hence in KAWPOW, FiroPoW and ProgPoW 0.9.4 two pairs of a 32-byte header hash and a nonce with equal seed states are equal: no two attempts share the state the mix and digest are made from.",
  "every state of 25 words (2^800), every pair of header hashes and nonces", "2^800 states", ["internal/crypto/keccak.go:KeccakF800", "kawpow/kawpow.go:initialize", "firopow/firopow.go:initialize", "internal/progpow/progpow094.go:initialize"])
p("The section of GetCache under the mutex is atomic",
  "Executing the statements of GetCache between Lock and Unlock one by one, with arbitrary steps of other goroutines in between (among them the generator that the section itself starts before it reads the clock), leads to the same states of the process as executing the section in one step; while a goroutine has the mutex nothing changes that the section reads or writes; the goroutine waits for nobody in the section, so the mutex is always given back (CachesCount >= 1); and in every intermediate state a call that has returned has the cache of its epoch.",
  "every interleaving of any number of goroutines, statement by statement", "schedules", ["internal/dag/dag.go:GetCache", "internal/dag/cache.go:generate"])
p("Digests bind the header hash and can be checked without the dataset",
  "Whatever the height and whatever the cache contains (even a corrupted one), a mix returned by Ethash, KAWPOW or FiroPoW has 32 bytes and the digest is the published short function of hash, nonce and mix alone (Keccak-256 of Keccak-512(hash, nonce) and mix, resp. two applications of Keccak-f[800]). Two Ethash results with equal digests are for the same hash and nonce with the same mix, and two Octopus results with equal digests are for the same hash, or else what the two hash first is a collision of Keccak-512, or what they hash last one of Keccak-256.",
  "every pair of computations, every primitive, configuration, cache content, hash, height and nonce", "all pairs of inputs; corrupted caches", ["ethash/ethash.go:hashimoto", "octopus/octopus.go:octopus", "kawpow/kawpow.go:kawpow", "firopow/firopow.go:firopow", "ethash/client.go:Compute", "octopus/client.go:Compute", "kawpow/client.go:Compute", "firopow/client.go:Compute"])
p("Equihash with parameters of one's own: when Verify returns and when it does not",
  "New accepts any n, k, personalisation and twist. Verify returns for every header and solution if the sizes fit: collision length c = n/(k+1) from 7 to 31 implies n <= 512, whole bytes of indices below 2^30 bits, leaves of one hash output within 64 bytes, a personalisation of at most 8 bytes and, with the twist, exactly 64 bytes and c <= 30; the five shipped clients fit. Any other length than 2^k (c+1) mod 2^32 / 8, or c outside 7..31, is an error. Outside of this there are families of parameters for which Verify panics for every solution of the right length: k = 2^32-1 and n > 512 divide by zero, a length without room for one index reads rows[0] of no rows, a longer personalisation or digest panics in Blake2b; and with the twist and 32-bit indices a solution beginning with index 2^32-1 keeps it running forever.",
  "every n, k, personalisation, twist, header and solution shorter than 4 GiB (in the families named)", "the parameters are two 32-bit numbers and a string; the tests use the shipped five", ["equihash/client.go:New", "equihash/client.go:Verify", "equihash/equihash.go:verify", "equihash/equihash.go:indicesFromMinimal", "equihash/equihash.go:newNode", "equihash/equihash.go:generateHash", "internal/crypto/blake.go:Blake2b"])
p("gen-lookup writes the lookup files of the repository",
  "For all flags gen-lookup writes one file, <package>_lookup.go in the working directory; read as Go source it declares the package and, as cacheSizes and datasetSizes, the sizes of the first epochs - epochs mod 5 epochs. For the four go:generate lines of the repository these are exactly the tables that are checked in. Nothing is written without a package name or when the directory is unknown; a negative number of epochs panics.",
  "every value of the flags (package names without line break), every working directory", "all flags; the whole text of the file", ["cmd/gen-lookup/main.go:main", "cmd/gen-lookup/main.go:saveToFile", "cmd/gen-lookup/main.go:formatLookupTable", "ethash/ethash_lookup.go", "kawpow/kawpow_lookup.go", "firopow/firopow_lookup.go", "octopus/octopus_lookup.go"])
p("A process alone: system calls and sequential description agree exactly",
  "For every configuration, epoch and contents of the directory, the system calls of generate run by a process that nobody disturbs can end exactly with the results, directories and panics of the sequential description of generate (memoryMap, memoryMapAndGenerate, removal of old files), over all outcomes of the calls, no more and no fewer; the temporary file and the mapped files share no storage. For a client on a directory whose files are absent or right no outcome of the calls leads to a panic, and the buffers hold the published caches, whatever random numbers are drawn.",
  "every configuration, epoch, directory (names, inodes and contents) and combination of failing calls", "the combinations of failing system calls cannot be provoked; directories are unbounded", ["internal/dag/cache.go:generate", "internal/dag/mmap.go:memoryMap", "internal/dag/mmap.go:memoryMapAndGenerate", "internal/dag/mmap.go:memoryMapFile"])
p("Autolykos2 with parameters of one's own: when Compute returns and what",
  "New(k, n) accepts all 32-bit k and n. For a 32-byte message Compute divides by zero exactly if the table is empty, that is, up to height 4198400 for n >= 32 and from height 614400 to 4198400 for n <= 6; otherwise it panics exactly if k >= 62; otherwise it returns the published digest with k indexes and the table size 2^n grown in 32-bit arithmetic. The size is exact for n <= 27 and does not shrink for 9 <= n <= 27 up to that height; above it n has no influence, and only for n = 26 is there no jump at height 4198401. With k = 0 every digest is the same.",
  "every k and n, message, 64-bit height and nonce", "two 32-bit parameters; the tests use the Ergo parameters", ["autolykos2/client.go:New", "autolykos2/client.go:Compute", "autolykos2/autolykos2.go:calcN", "autolykos2/autolykos2.go:genIndexes", "autolykos2/autolykos2.go:compute"])
p("Eaglesong with parameters of one's own: when Compute returns and what",
  "New accepts any integers. Compute returns exactly if the capacity is not negative and either the rate is -8 or less (the result is then capacity zero bytes for every input, whatever the rounds), or the rate is more than 2^63 - 8(n+1) for an input of n bytes, so that a sum of ints wraps around (again zero bytes; with such a rate, short inputs panic and longer ones return; up to 2^62 whether Compute returns does not depend on the input), or the rate is from 8 to 543, there are at most 43 rounds and the last squeezed block of rate/32 words fits into the output, which holds for every whole number of words. The output then consists of the words of the squeezed states at the start of their blocks, and of zeros elsewhere; a capacity below one block, or a rate below one word, gives zero bytes for every input. All other parameters panic on every input, in the way stated (index, make, division by zero).",
  "every rounds, capacity, rate, length, delimiter and input that are 64-bit ints (input and capacity below 2^59 bytes)", "four integers and a byte; the tests use the Nervos parameters", ["eaglesong/client.go:New", "eaglesong/client.go:Compute", "eaglesong/eaglesong.go:eaglesong"])
p("Cache words on machines of either byte order",
  "The bytes that generateCache and generateL1Cache leave in memory are the published ones on little- and big-endian machines. The words read from them are not: on a big-endian machine each word of the cache is the published one with its four bytes reversed, so the cache is right exactly if all its words are palindromes, and dataset items are those of another cache (an instance where they differ is given). Its files have the same data bytes after a byte-swapped magic; each kind of machine reads its own files back, accepts exactly those that begin with its own magic, and refuses the other kind's files without a panic.",
  "every hash function, seed, number of rounds and rows (below 4 GiB), buffer contents, file contents of at least eight bytes", "the tests run on little-endian machines only", ["internal/dag/generate.go:generateCache", "internal/dag/generate.go:generateL1Cache", "internal/dag/mmap.go:memoryMapFile", "internal/dag/mmap.go:memoryMap", "internal/dag/mmap.go:memoryMapAndGenerate"])
p("Cuckoo and Cuckaroo: which error Verify returns, and clients with unusual parameters",
  "For a client with a positive proof size L and a hash function: Verify returns the length error exactly if the list has not L edges; ErrPowTooBig exactly if it has and some edge is 2^edgeBits or more; ErrPowNotMatching exactly if all edges are in range and the exclusive or of the endpoints of one side is not 0; and otherwise follows from the u end of the first edge the path of edges that meet, and returns ErrPowDeadEnd exactly if it comes to a node no other edge of the list meets, ErrPowBranch exactly if it comes to one that two or more others meet, ErrPowShortCycle exactly if the first edge is on a cycle of fewer than L of the edges that none of the others touches, and accepts exactly if the path is back after L edges. ErrPowTooSmall and the unsupported-variant error are never returned. Exactly one of these cases holds. The first three errors do not depend on the order of the edges. A client made without the hash function it needs panics on every list of the right length whose first edge is in range; with a negative proof size every list is refused for its length; with proof size 0 the empty list makes it divide by zero; a negative number of edge bits makes the constructor panic; with 64 edge bits or more no edge is out of range.",
  "for all headers, lists of edges, hash functions, numbers of edge bits and proof sizes",
  "the errors partition an infinite space of edge lists by a graph property; tests show one list per error at best, and the repository tests only accepted proofs",
  ["cuckoo/client.go:30-81", "cuckoo/cuckoo.go:5-64", "cuckoo/cuckaroo.go:5-64", "cuckoo/errors.go:7-14"])
p("No data races in GetCache, the generators and Compute",
  "In every execution of GetCache calls, background generators and reading Compute calls, statement by statement, any two accesses of the program's goroutines to one location (the map of caches, dag.future, the epoch, used and data fields of a cache and its words), of which one is a write, are ordered by the happens-before relation of the Go memory model; with caches in memory only the executions are data-race free. The finalizer of a cache runs after all accesses to the cache in time. In the sense of the memory model, though, it is not ordered after the writes that generate does after SetFinalizer: an execution is given in which they race, since neither the finalizer nor generate uses a lock for these fields.",
  "every number of goroutines, sequence of epochs, CachesCount, map iteration order, interleaving and outcome of the bodies",
  "the race detector sees the interleavings of the runs it watches; the finalizer runs when the collector chooses", ["internal/dag/dag.go:GetCache", "internal/dag/cache.go:generate", "internal/dag/cache.go:finalizer", "internal/dag/cache.go:Cache", "internal/dag/cache.go:L1"])

p("Equihash and BeamHash III: which error Verify returns",
  "For well-formed Equihash parameters: Verify returns the length error exactly if the length is wrong modulo 2^32, and panics exactly if it is wrong but right modulo 2^32; otherwise it looks at the pairs of sibling blocks level by level, from left to right, and the first faulty pair decides: the collision error exactly if the chunks of that level do not agree, the order error exactly if they agree and the right block begins with the smaller index, the duplicate error exactly if they agree, are not out of order and have an index in common; (false, nil) is returned exactly if no pair is faulty and the last chunks do not xor to zero. Nothing else is returned. Exchanging two sibling blocks of an accepted solution always gives the order error; equal first two indices always give the duplicate error, whatever the hash function. The same holds for BeamHash III with its own agreement of mixed work strings, after the header length error (first) and the solution length error. BeamHash Verify panics exactly if the personalisation has more than eight bytes and both lengths are right.",
  "every header, solution, hash function, well-formed parameter set and personalisation",
  "the errors depend on the first of exponentially many pairs; the tests check accepted solutions and one rejected one", ["equihash/equihash.go:verify", "equihash/equihash.go:validateSubtrees", "equihash/equihash.go:indicesFromMinimal", "beamhashiii/beamhashiii.go:verify", "beamhashiii/beamhashiii.go:validateSubtrees", "beamhashiii/client.go:Verify"])

p("HeavyHash: the rank is computed with doubles",
  "The float64 operations of calculateRank, modelled as IEEE 754 binary64, round the exact result to the nearest double, ties to even, and give infinity from 2^1024 on; entries convert exactly and are compared with the double nearest to 1e-9. Whether x - p*c is rounded once or twice (Go allows both): the routine returns a number up to 64 for every matrix; a zero row or a zero column gives less than 64; an upper triangular matrix without zeros on the diagonal gives 64; Compute of 32 zero bytes does not return. But the result is not the rank: there are matrices of nibbles of rank 64 for which it is 63, of rank 63 for which it is 64, and one of rank 63 for which it is 63 with two roundings and 64 with one.",
  "every pair or triple of finite doubles; every 64 by 64 matrix of 16-bit entries; both arithmetics",
  "2^192 operand triples; the matrices that show the difference are not found by drawing matrices, and the tests run on one kind of machine", ["heavyhash/matrix.go:calculateRank", "heavyhash/matrix.go:newMatrix", "heavyhash/heavyhash.go:heavyHash"])

p("The paths of the cache files and the default directory",
  "On systems with the slash as separator: filepath.Clean keeps the place a path names (its elements followed lexically) and gives one text per place. The cache file and the L1 file of a seed lie directly in StorageDir, however that is spelled, the directory made before writing is StorageDir, and temporary files lie beside them. If Name has no slash, two files of the same directory, final or temporary, have the same path exactly if their names are equal; if StorageDir is in its shortest form and neither . nor / the path is StorageDir, a slash and the name. The default directory is directly below the home directory of the current user, or $HOME if that lookup fails, or the working directory if both are empty, and is in its shortest form; on Windows the argument is ignored. A Name of the form /../x gives the cache and the L1 table of every seed the same path, and /../../x puts files beside StorageDir.",
  "every StorageDir, Name, revision, seed, home directory and user",
  "infinitely many spellings of a directory; the tests use the default directory of the machine they run on", ["internal/common/filesystem.go:DefaultDir", "internal/dag/dag.go:cacheStorageLocation", "internal/dag/dag.go:l1StorageLocation", "internal/dag/mmap.go:memoryMapAndGenerate"])

p("Compute and Verify return new memory and write to none that existed",
  "With slices as references to parts of shared arrays, append writing behind a slice where the capacity allows and choosing any capacity where it does not, and big.Int values as shared cells: for arguments anywhere in memory, overlapping or with spare capacity behind them, Compute of Autolykos2, HeavyHash, Eaglesong, Ethash, KAWPOW, FiroPoW and Octopus (and ProgPoW 0.9.4) returns slices with the elements that the models on lists give, in arrays that did not exist before the call, the two results of one call in different arrays; Verify of Cuckoo Cycle, Cuckaroo, Equihash and BeamHash III returns what the models on lists give. No array that existed is written: neither the arguments, nor what lies behind them, nor the cache and L1 cache, nor the personalisation of a client, nor the masks that BeamHash III keeps in package variables. Autolykos2 with 62 or more indexes is the exception to the results on lists: whether it panics, and what it returns, depends on the capacity chosen by append.",
  "every memory, position, overlap and capacity of the arguments, choice of capacities by append, hash functions, heights and nonces",
  "an aliasing error shows only if a caller shares memory in the right way and looks at it again; the tests pass slices that nothing else refers to", ["autolykos2/autolykos2.go:concatBytes", "autolykos2/autolykos2.go:genIndexes", "ethash/ethash.go:hashimoto", "octopus/octopus.go:octopus", "internal/dag/generate.go:generateDatasetItem", "internal/progpow/algorithm.go", "heavyhash/heavyhash.go", "eaglesong/eaglesong.go", "cuckoo/client.go:Verify", "equihash/equihash.go:verify", "beamhashiii/beamhashiii.go:verify", "internal/common/convutil/convutil.go"])

p("Equihash Verify and solutions of 4 GiB or more",
  "The length of a solution is converted to uint32 before it is compared. For well-formed parameters, a solution of 4 GiB or more whose length is the right one modulo 2^32 makes Verify panic with an index out of range, whatever its bytes, the header and the hash function; in particular a valid solution followed by 4 GiB of anything. Every other solution of 4 GiB or more gets the length error. None is ever accepted, so that acceptance (C07, C08, C09, C10) needs no bound on the length.",
  "every header, every byte string of 4 GiB or more, every hash function and well-formed parameter set",
  "a test would need more than 4 GiB of input and the right length", ["equihash/equihash.go:indicesFromMinimal", "equihash/equihash.go:expandArray", "equihash/equihash.go:verify"])

p("No call writes to memory that existed",
  "Whatever the arguments are (lengths, overlaps, capacities, even calls whose results no other property gives): when Compute of Autolykos2, HeavyHash, Eaglesong, Ethash, KAWPOW, FiroPoW or Octopus, or Verify of Cuckoo Cycle, Cuckaroo, Equihash or BeamHash III returns or panics, every cell that existed before the call holds what it held, and the slices returned are in arrays that did not exist; likewise the generation of a cache without a storage directory, and of a dataset item. Hence the results of a call survive all later ones.",
  "every memory, argument, parameter of a client, primitive, outcome of GetCache that is itself isolated",
  "all arguments, including those on which the algorithms are not defined", ["autolykos2/client.go:Compute", "heavyhash/client.go:Compute", "eaglesong/client.go:Compute", "cuckoo/client.go:Verify", "equihash/client.go:Verify", "beamhashiii/client.go:Verify", "ethash/client.go:Compute", "kawpow/client.go:Compute", "firopow/client.go:Compute", "octopus/client.go:Compute", "internal/dag/cache.go:generate", "internal/dag/generate.go:generateDatasetItem"])

p("Caches in memory, and callers that overwrite their memory",
  "generateCache and generateL1Cache fill the slice they are given, wherever it lies (for instance behind the magic words of a mapped file), with the published words and write to no other cell that existed. Without a storage directory a shipped configuration generates the published cache and L1 cache in new memory. In every execution of GetCache, its generators and Compute, in which the program around the package overwrites its own memory at any time (its arguments, the results it was given) and recovers from panics, the slices that GetCache has returned hold the published cache of the epoch, lie outside of the program's memory, and Compute returns the published digests; no step of the package changes memory that existed.",
  "every memory, buffer position, execution, interleaving and behaviour of the calling program",
  "a caller can write anything at any time; the tests never touch an argument or a result again", ["internal/dag/generate.go:generateCache", "internal/dag/generate.go:generateL1Cache", "internal/dag/cache.go:generate", "internal/dag/cache.go:Cache", "internal/dag/cache.go:L1", "internal/dag/dag.go:GetCache", "ethash/client.go:Compute", "kawpow/client.go:Compute", "firopow/client.go:Compute", "octopus/client.go:Compute"])

p("How much Compute and Verify look at",
  "The result is fixed by the answers to boundedly many questions, whatever height, nonce, header and size of the dataset: anything that answers those questions alike gives the same result. Evaluations of external hash functions: Autolykos2 k + 4, HeavyHash 2, Cuckoo Cycle and Cuckaroo 1, BeamHash III 1, Equihash one per index (2^k), with the twist at most 16 per index, Ethash and Octopus 258, KAWPOW and FiroPoW 512, the seed of an epoch one per epoch before it, a cache of m rows m (rounds + 1), an L1 cache of m rows 2 m. Dataset items: Ethash and Octopus 128, ProgPoW one per round. Words of the cache: 16 (parents + 1) per hash of an item, hence 2048 (parents + 1) for Ethash and Octopus and 4096 (parents + 1) for KAWPOW and FiroPoW, and 11264 words of the L1 cache. Hence in every larger cache some word can be altered without a change of the Ethash result for a given header.",
  "every hash function, cache, dataset, header, height, nonce and configuration; Equihash for well-formed parameters",
  "that the rest of a table is never looked at is a statement about all tables that agree on a few places", ["autolykos2/client.go:Compute", "heavyhash/client.go:Compute", "cuckoo/client.go:Verify", "beamhashiii/client.go:Verify", "equihash/client.go:Verify", "ethash/ethash.go:hashimoto", "octopus/octopus.go:octopus", "internal/progpow/algorithm.go:Hash", "internal/dag/generate.go:generateDatasetItem", "internal/dag/generate.go:generateCache", "internal/dag/dag.go:SeedHash"])

p("Losses of power",
  "A cache file is written through a mapping and renamed without ever being flushed. Over any number of losses of power at any moments, with renamings and removals undone at will and temporary files in any state: if the file system keeps a file whole or leaves nothing that starts with the dump magic (no bytes at all, zeros), then every file under the name of a cache file is at all times the published one or one that is rejected, no generate of any process panics, and whatever it returned is and stays the published cache and L1 cache; rejected contents are replaced, and what Compute gives in a process with any number of concurrent calls is the published function. If the file system can lose single blocks, every remainder that still starts with the magic is mapped and used: a process can come to use a cache with any one word zero, or a cache without words, with which every dataset lookup panics.",
  "every execution of any number of goroutines and processes, every sequence of losses of power, every content of temporary files, every remainder of a file",
  "a test cannot cut the power between a rename and the write-back of the pages", ["internal/dag/mmap.go:memoryMapAndGenerate", "internal/dag/mmap.go:memoryMap", "internal/dag/mmap.go:ensureSize", "internal/dag/cache.go:generate"])

p("How many cache files there are",
  "After any series of requests to a client in a directory that was empty, if no system call fails, the epochs with a cache file (and with an L1 file, for the chains that have one) are those of a simple rule: a request for an epoch with a file changes nothing, another one removes the files that are three or more epochs older and adds the epoch. Falling epochs keep a file each, so that for every number of epochs some requests leave that many files. If the epochs of a chain do not fall, then, whatever reading and writing fails, with runs of other chains and removals by others in between, there are at no time files of other epochs than the last one and the two before it, provided the removals of the runs succeed. A run that cannot unmap, close or rename what it wrote leaves the whole temporary file behind, and no later run of any client removes or changes it unless it draws the same suffix.",
  "every shipped client, directory name, series of epochs with a size and a cache below 4 GiB, outcomes of the system calls",
  "the number of files depends on the whole history of requests; the tests generate a single epoch", ["internal/dag/cache.go:generate", "internal/dag/mmap.go:memoryMapAndGenerate"])

p("Equihash with the twist depends on the capacity of the digests, not on what lies behind them",
  "A client made by equihash.New with the twist whose digests have fewer than 64 bytes (for instance the parameters of Bitcoin Gold, Zcash or ZClassic with twist = true) reads bytes behind the digests that BLAKE2b returned. Whatever these bytes are and however many there are: Verify either returns the verdict of the published definition for the lane sums of the digests extended with zero bytes (true exactly on the encodings of Wagner solutions), or panics with a slice out of range; it never returns another verdict, and writes to no memory that existed before the call. If every digest has a capacity of 64 bytes or more it returns; if the first digest has less it panics on every solution of the right length.",
  "all hash functions, all parameters with the twist for which Equihash without the twist is well-formed, all personalisations, headers and solutions below 4 GiB, all memory layouts, all capacities of the slices that the hash function returns and all bytes in the spare capacity",
  "The capacity that append gives is not specified and changes with the Go version and the size class; a test observes one capacity and one content of the spare bytes (zeros), and cannot see that other contents do not matter.",
  ["equihash/equihash.go: generateHash (104-124), newNode (131-147), verify (198-239)", "internal/crypto/blake.go: Blake2b", "equihash/client.go: New, Verify"])

p("Machines with an int of 32 bits",
  "On 386, arm and mips an int has 32 bits. generate gives the same caches and leaves the same files as with 64 bits if the epoch, its number of seeds, the number of caches and the sizes in bytes are below 2^31; for the shipped clients in all epochs whose growth formula allows less than 2 GiB. The seed of a height is that of the number of seed epochs modulo 2^32, or of none if the remainder is 2^31 or more. The table size of Autolykos2, the items of a dataset entry and the digest lengths of Equihash are the same. Nervos Compute gives the same digests for inputs below 2^28 - 32 bytes; all inputs from there to 2^29 - 1 bytes have one and the same digest, and beyond only a prefix of the input counts.",
  "every configuration, epoch, file system, outcome of system calls and hash function; every input of Eaglesong",
  "the differences show only on other machines and for numbers or messages that are too large for a test", ["internal/dag/dag.go:SeedHash", "internal/dag/cache.go:generate", "internal/dag/generate.go:generateCache", "internal/dag/generate.go:generateL1Cache", "internal/dag/generate.go:generateDatasetItemUint", "autolykos2/autolykos2.go:calcN", "equihash/equihash.go:generateHash", "eaglesong/eaglesong.go:eaglesong"])

p("Caches of 4 GiB and datasets of 256 GiB, and larger ones",
  "Row numbers, item numbers and offsets have 32 bits. For every number of rows generateCache computes the published cache with the selected row taken modulo 2^26, panics exactly when that is row 2^26 - 1, and divides by zero if the number of rows is a multiple of 2^32; below 2^26 rows this is the published cache. generateDatasetItem counts the rows modulo 2^32 and finds them modulo 2^28. hashimoto, Octopus, KAWPOW and FiroPoW are for every size the published functions over a number of rows (pages, items) modulo 2^32 and item numbers modulo 2^32, and divide by zero if no row remains; for Ethash from 256 to 512 GiB the first 256 GiB are repeated. The sizes of an epoch stay below 4 GiB and 256 GiB exactly as long as the growth formula does not exceed them: up to epoch 32640 for Ethereum and Ravencoin, 32576 for the dataset of Firo, 16128 for that of Conflux.",
  "every seed, number of rows, rounds, cache, index, hash, nonce and 64-bit dataset size; every epoch of a shipped client with a size",
  "a test would need a cache of 4 GiB and its generation, and the wrong row differs only for some words of it", ["internal/dag/generate.go:generateCache", "internal/dag/generate.go:generateDatasetItem", "ethash/ethash.go:hashimoto", "octopus/octopus.go:octopus", "internal/progpow/algorithm.go:Hash", "internal/dag/dag.go:CacheSize", "internal/dag/dag.go:DatasetSize"])

p("The generator of HeavyHash has a single cycle, and Compute returns for every hash but zero",
  "From any state other than zero, the xoshiro256++ generator returns to the state after n calls exactly when n is a multiple of 2^256 - 1, and it visits every state other than zero, also when only every 2^k-th state is looked at. So the matrices that newMatrix draws for two hashes other than zero are the same sequence from some point on. As one of these matrices has computed rank 64, Compute returns a 32-byte digest for every 32-byte hash other than zero, every timestamp and nonce; it returns a digest for no other input. This holds for Go's doubles with line 66 rounded once or twice, and in exact arithmetic.",
  "every generator state, number of calls, 32-byte hash, timestamp, nonce and cSHAKE function; both float64 roundings that Go allows",
  "the loop in newMatrix has no bound; the tests try three hashes out of 2^256, and a cycle without a regular matrix would make Compute hang for its hashes", ["internal/crypto/xoshiro256plusplus.go:Next", "heavyhash/matrix.go:newMatrix", "heavyhash/matrix.go:calculateRank", "heavyhash/client.go:Compute"])

p("Descriptors and mappings are released exactly once",
  "Whatever the system calls return, generate never uses a closed file or memory that is not mapped, and never closes or unmaps anything twice. When it returns, the files that are open and mapped in addition are exactly those of the buffers in the cache, except for one mapping and at most one descriptor per failure of Unmap. After the finalizer nothing is left of a cache, with the same exception: if Unmap never fails, every file it opened is closed and every mapping removed. The same holds for any number of caches in one process with their calls in any order. The exception is real: if Unmap fails in memoryMapAndGenerate, no call of the package ever closes the temporary file or removes its mapping (the descriptor, though not the mapping, is left to the finalizer that os.File has of its own).",
  "every configuration, epoch, hash function, result of every system call, number and order of reads of the buffers, number of caches and interleaving",
  "the paths with errors are never taken in tests, and an open descriptor or a second Unmap is not visible in the result", ["internal/dag/mmap.go:memoryMap", "internal/dag/mmap.go:memoryMapAndGenerate", "internal/dag/cache.go:generate", "internal/dag/cache.go:finalizer"])

p("Clients with a DAG configuration of one's own: when Compute returns and what",
  "New of ethash, kawpow, firopow and octopus checks nothing. For every configuration CacheSize is the table's entry or the first size, from one row below the growth formula down by two rows at a time in 64-bit arithmetic, whose number of rows is prime; DatasetSize likewise with rows of MixBytes, except that it divides by zero for MixBytes = 0 and never returns for MixBytes >= 2^63. If the formula gives an even number of rows, at least four, this is the published size; if it gives an odd number of rows it is two rows, so a growth of an odd number of rows gives every second epoch a cache of 128 bytes. SeedHash divides by zero exactly for SeedEpochLength = 0. In memory a cache below 4 GiB is generated exactly if its size is at least 64 and at most 3 more than a multiple of 64, and otherwise generateCache panics, as it does whenever the formula is four bytes or more off a whole number of rows; the L1 cache holds the items that fit, then zeros, whatever L1CacheSize says. Compute of Ethash and Octopus returns exactly if EpochLength and SeedEpochLength are not zero, both sizes exist, the cache size is such a one and the dataset has a page modulo 2^32, with the published function over that cache; KAWPOW and FiroPoW likewise given 4096 words of L1 cache, and panic without any.",
  "every configuration without a storage directory, every epoch, height, hash, nonce and hash function; caches below 4 GiB",
  "the tests use the five shipped configurations; the loop over sizes has no bound, and the wrong sizes appear only for other growth rates", ["internal/dag/dag.go:CacheSize", "internal/dag/dag.go:DatasetSize", "internal/dag/dag.go:SeedHash", "internal/dag/generate.go:generateCache", "internal/dag/generate.go:generateL1Cache", "internal/dag/cache.go:generate", "ethash/client.go:Compute", "kawpow/client.go:Compute", "firopow/client.go:Compute", "octopus/client.go:Compute"])

p("DAG configurations of one's own with a directory: the size of the L1 cache depends on the outcomes of system calls",
  "With a directory that does not contain the files of the epoch and an L1CacheSize below 2^63-8, generate always returns, the cache is that of a client without a directory, and the L1 cache holds L1CacheSize/4 words if all system calls succeed, but L1CacheNumItems words if for example the directory cannot be created; no other lengths occur. So caches do not depend on the directory and on the outcomes of system calls exactly if L1CacheSize/4 (rounded down) is L1CacheNumItems or there is no L1 cache. An L1CacheSize of 2^63-8 up to 2^64-8 is refused as the length of a file, so that the caches are those in memory; the seven larger numbers wrap around to files of less than eight bytes, on which generate panics. Compute of Ethash and Octopus returns the same with and without a directory for every outcome, and that of KAWPOW and FiroPoW does if both numbers stand for at least 4096 words, even if they disagree. With L1CacheSize left at zero, KAWPOW and FiroPoW work without a directory and panic with one.",
  "every configuration, every epoch whose cache size is below 4 GiB and at most three bytes above a positive multiple of 64, every height, hash, nonce, hash function and outcome of every system call",
  "the tests use the shipped configurations, in which the two numbers agree, and no system call fails in them", ["internal/dag/cache.go:generate", "internal/dag/mmap.go:memoryMapAndGenerate", "internal/dag/generate.go:generateL1Cache", "kawpow/client.go:Compute", "firopow/client.go:Compute", "ethash/client.go:Compute", "octopus/client.go:Compute"])

p("ProgPoW with a configuration of one's own: when Hash returns and how it fails",
  "progpow.Hash checks nothing. With fewer than 2^32 lanes and registers, a dataset that answers every request (with any number of words below 2^32) and an L1 cache of at least CacheBytes, it returns 32 bytes exactly if the number of lanes is not negative, nor that of registers if there is a lane, PeriodLength is not zero, and, unless there are no rounds, there are a lane, a register, an item of the dataset modulo 2^32, a word of CacheBytes if the L1 cache is accessed and a second register if there are operations with two. Otherwise a negative count makes make panic, rounds without registers index out of range, and all other cases divide by zero. Without rounds the result does not depend on height, dataset and L1 cache. What it returns is the published lane-parallel computation with these parameters (extra words of dataset items are ignored), as long as no 32-bit counter wraps around: at most 65536 registers if there are operations with two, at most 2^32 rounds, and fewer than 2^32 words per item and register choices per round.",
  "every configuration with counts of any sign below 2^32 lanes and registers, every height, seed, dataset size, dataset and L1 cache",
  "the tests use three configurations; a division by zero or a wrapped product of register counts needs unusual ones", ["internal/progpow/algorithm.go:Hash", "internal/progpow/algorithm.go:round", "internal/progpow/algorithm.go:initMix", "internal/progpow/mixrng.go:initMixRngState"])

p("gen-lookup for every command line of settings: what it writes, and which it refuses",
  "For every sequence of settings, each with one or two dashes and its decimal value behind = or as the next argument, up to the end of the command line, to -- or to the first argument that is no flag: the last setting of a kind counts, and the others have their defaults. With a package name and a number of epochs that is not negative, the file written declares the sizes of C95 of the epochs below the last multiple of five; without a package name the exit code is 1, a negative number of epochs panics, and with an epoch a mixBytes of 0 divides by zero and one of at least 2^63 never ends. A number that the type of its flag cannot hold, a missing value and a flag that does not exist exit with 2 whatever follows (help and h with 0). Numbers with a leading zero are octal: -mixBytes 0200 is 128 and 0128 is refused. The words of the four go:generate lines make it write the tables of the repository.",
  "every sequence of settings and notations, every value, every remaining argument",
  "the command has no tests", ["cmd/gen-lookup/main.go:main", "cmd/gen-lookup/main.go:genCacheLookupTable", "cmd/gen-lookup/main.go:genDatasetLookupTable", "ethash/client.go:go:generate", "kawpow/client.go:go:generate", "firopow/client.go:go:generate", "octopus/client.go:go:generate"])

p("The generator of ProgPoW: at which distances its states repeat, and from which period on it degenerates",
  "From every state, two states of kiss99 are equal only if the numbers of calls differ by a multiple of 2^32; unless z is a multiple of 2422800383 or w one of 1179647999, only by a multiple of 2^32 * 1211400191 * 589823999, above 2^91. From the second call on every state returns after that number times 76676535, and for a jsr of 1 with z and w in their ranges after nothing less. z and w stand still exactly at 0 and at those two primes. jsr returns after 306706140 calls instead of 2^32 - 1, and stands still at 0 and at 2929859471. A seed makes z a multiple exactly for two low halves and w exactly for four high halves to each low half. So the generator of every period below 404097419 takes more than 2^91 states, while that of period 404097419 has one and the same w after every call.",
  "every state, seed, period number and number of calls",
  "a cycle of 2^91 states cannot be walked, and only a few seeds out of 2^64 degenerate", ["internal/progpow/kiss99.go:next", "internal/progpow/mixrng.go:initMixRngState", "internal/crypto/fnv.go:Fnv1a"])

p("What a round of ProgPoW keeps of the dataset item it reads",
  "In KAWPOW, FiroPoW and ProgPoW 0.9.4, for every period, the 29 instructions of a round and the last three of the four dataset words of a lane go to all 32 registers, each exactly once, and the first word goes to register 0 in addition. If none of the last three goes to register 0, the registers before and after a round determine the item read: two datasets with different items at the place read give different registers. If one does, there is for every dataset, all registers and every round another dataset, differing in the item read and nowhere else, with the same registers after the round, and so with the same Hash if it is the last round and no other round reads that item. Both happen: the former in period 0, the latter in period 9, which for KAWPOW are the heights 27 to 29.",
  "every period, height, seed, dataset, L1 cache of at least 4096 words, all registers and every round",
  "that different items give different registers is a statement about all pairs of items, and the tests compare a few digests", ["internal/progpow/algorithm.go:round", "internal/progpow/algorithm.go:Hash", "internal/progpow/mixrng.go:nextDst", "internal/progpow/math.go:randomMerge"])

p("One wrong word in the data read last changes exactly one word of the mix digest",
  "If the page that the last access of Ethash's hashimoto reads is read by no other access, then for each of its 32 words and each other value of it the mix digest changes in exactly one of its eight words, the one numbered by the place divided by four, and the result changes or the two inputs of the last Keccak-256 are a collision. In KAWPOW, FiroPoW and ProgPoW 0.9.4, if the item of the last round is read by no other round, then for each of its 64 words and every other value, in every period, Hash changes in exactly one word, that of the number of the lane modulo eight, the lane being the place divided by four xor 63. For Octopus the result changes or the two inputs of the last Keccak-256 are a collision. One wrong word in the row of the cache that is the last parent of a dataset item and none of its others changes the item or the two inputs of its last Keccak-512 are a collision.",
  "every header hash, nonce, height, dataset, place and value of the changed word",
  "a wrong word is one of 2^32 values in one of 2^25 places and more; the tests compare digests of a few right datasets", ["ethash/ethash.go:hashimoto", "internal/progpow/algorithm.go:round", "internal/progpow/algorithm.go:Hash", "octopus/octopus.go:octopus", "internal/dag/generate.go:generateDatasetItem", "internal/crypto/fnv.go:Fnv1", "internal/crypto/fnv.go:Fnv1a"])

p("The points at which Octopus evaluates, and wrong coefficients",
  "For every hash, each residue modulo 1032193 is the point of at most two of the exponents below 1032192, and zero is the point of none or of two. The 1024 points of the 32 nonces of a warp are thus at least 512 different ones. If two lists of 1024 coefficients below 1032193 differ, and only within m places in a row, then at most 2m of the 1024 values of a warp are equal. So a wrong coefficient shows in all but two at most of the values of a warp, and errors within 15 coefficients in a row change at least two of the 32 values of every nonce.",
  "every hash, nonce, pair of lists of coefficients, place and length of the run",
  "the tests compare final digests for a few nonces, and no test can go through the pairs of coefficient lists", ["octopus/octopus.go:octopus", "octopus/octopus.go:remap", "octopus/octopus.go:computeC"])

p("The low bits of Ethash's mix digest",
  "For every header hash, nonce, dataset size from 128 bytes up to 2^38 and dataset, the lowest bit of each of the eight words of the mix digest that Ethash returns is the parity of the lowest bits of four words of the seed hash and of four words of each of the 64 pages read: those at the places 4i to 4i+3 for word i. No other bit enters but through the choice of the pages. If the page of the last access is read by no other access, and a word of it is changed, the lowest bit that changes in the mix digest is the lowest bit in which the word was changed.",
  "every header hash, nonce, dataset, place and value of the changed word, every number of low bits up to 32",
  "a linear relation between 260 words of each computation is seen by no comparison of digests", ["ethash/ethash.go:hashimoto", "internal/crypto/fnv.go:Fnv1"])

p("The indexes of Autolykos2 determine what they were drawn from",
  "At every height, genIndexes gives for two seeds the same 32 indexes exactly when the seeds have the same Blake2b-256 digest, although each index is a window of four bytes reduced modulo the size of the table. So two attempts at one height with headers of 32 bytes that select the same 32 elements in the same order have the same header and the same nonce, or their two seeds are a collision of Blake2b-256. The order, though, is lost: if the digests of the two seeds are rotations of each other by a number of bytes, Compute returns the same for both.",
  "every height, pair of seeds, pair of headers and nonces",
  "a loss of entropy in the reduction shows in no digest, and for other table sizes, 2^32 - 1 for one, the statement is false", ["autolykos2/autolykos2.go:genIndexes", "autolykos2/autolykos2.go:calcN", "autolykos2/autolykos2.go:compute"])

p("How much of the matrix enters HeavyHash",
  "When Compute returns, every nibble of the string that is hashed last is the nibble of the first digest xor a number of at most 15 S / 1024, S being the sum of the 64 nibbles of the first digest. If S is at most 68 the string is the first digest, whatever the matrix; if S is at most 546 the upper bits of all nibbles are those of the first digest. One wrong entry in the matrix changes one of the 64 products by one at most and no other, and one changed nibble of the first digest changes each product by one at most. Full rank does not make the step from the first digest to the string one-to-one: there is a matrix of nibbles that the rank routine takes and for which two digests give the same string.",
  "every hash, timestamp, nonce, matrix of nibbles, digest and place",
  "the sums and the matrices are not visible outside, and a wrong entry mostly does not show in the digest of a given nonce", ["heavyhash/heavyhash.go:heavyHash", "heavyhash/matrix.go:newMatrix"])

p("One Keccak hasher, used again and again, or by two at once",
  "The functions that NewKeccak256Hasher and NewKeccak512Hasher return keep one hash object. Whatever that object was used for before, a call writes the digest of its own input to the front of its destination and leaves the rest of the destination, or panics because the destination is shorter than the digest; so over any series of calls each digest is that of its input, also if input and destination are the same memory. SeedHash, generateCache, generateL1Cache and the functions that NewLookupFunc512, -1024 and -2048 return, executed with one object, compute what they compute with a digest function without state. The Reset is needed: without it the second call panics. In any order of the resets, writes and reads of several callers of one hasher, what is read is the part of the sponge's output for all that was written since the last reset that comes after what was read before, and the series panics exactly if a write comes after a read with no reset between; a caller that is not interrupted gets its digest, and two that both reset and write before they read get, the first to read, the digest of both inputs one after the other.",
  "every permutation of 200 bytes, state of the object, series of operations, inputs and destinations, cache, index and height",
  "a hash object that carries something over shows only after certain series of calls, and what two goroutines get depends on the order of their steps", ["internal/crypto/hasher.go:makeHasher", "internal/dag/dag.go:SeedHash", "internal/dag/dag.go:NewLookupFunc512", "internal/dag/dag.go:NewLookupFunc1024", "internal/dag/dag.go:NewLookupFunc2048", "internal/dag/generate.go:generateCache", "internal/dag/generate.go:generateL1Cache", "internal/dag/generate.go:generateDatasetItem"])

p("Keccak256, Keccak512 and CShake256 with their hash objects, and what they absorb",
  "Keccak256 and Keccak512 return the digest of the sponge with Keccak's padding, the same that the reusable hashers write after any use; the blocks they absorb determine the input, and for an input shorter than a block, such as Ethash's 40 bytes of header hash and nonce, the digest is the front of the state after one permutation, a state that no other such input leads to if the permutation is one-to-one, and Keccak-f[1600] is. CShake256 returns cSHAKE256 of NIST SP 800-185 with an empty function name, and SHAKE256 for an empty personalisation; a shorter output is the front of a longer one. The blocks that CShake256 absorbs determine the personalisation and the data: the first and the last digest of HeavyHash never absorb the same blocks, whatever their inputs, nor what SHAKE256 absorbs for some input, and two attempts of HeavyHash whose first digests absorb the same blocks have the same hash, timestamp and nonce. With sponges for its digests, HeavyHash's Compute returns cSHAKE256 under the name HeavyHash of the string made from the matrix and cSHAKE256 under the name ProofOfWorkHash of the header.",
  "every permutation of 200 bytes, input, personalisation shorter than 2^61 bytes, output size, hash, timestamp and nonce",
  "that no two inputs of different lengths and personalisations are absorbed alike is a statement about all pairs of inputs; the tests compare a few digests", ["internal/crypto/keccak.go:Keccak256", "internal/crypto/keccak.go:Keccak512", "internal/crypto/shakehash.go:CShake256", "heavyhash/heavyhash.go:heavyHash"])

p("The injection constants of Eaglesong are those of the seed phrase",
  "For every permutation of 200 bytes and every number of rounds that is not negative, generateInjectionConstants returns 16 words for each round, word i being the bytes 4i to 4i + 3, the lowest first, of the sponge's output for the seed phrase with the padding of SHAKE256; the constants for fewer rounds are the first of those for more. With Keccak-f[1600] of FIPS 202 the table of 688 constants in the source is what the function generates for 43 rounds, and for fewer rounds it generates the front of the table.",
  "every permutation and number of rounds; for the table every number of rounds up to 43",
  "the function has no caller and no test in the repository, and the digests tested do not tell a wrong constant from a wrong round", ["eaglesong/eaglesong_constants.go:generateInjectionConstants", "eaglesong/eaglesong_constants.go:injectionConstants"])

with open("/verif/properties.jsonl", "w") as f:
    for q in P: f.write(json.dumps(q) + "\n")
print(len(P))
