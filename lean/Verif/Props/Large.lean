import Verif.Proof.Large
import Verif.Proof.Kawpow
import Verif.Props.Dag
import Verif.Props.Progpow
import Mathlib.Data.Nat.Prime.Basic

/-! # Caches of 4 GiB and datasets of 256 GiB, and larger ones: property C92

C37, C38, C20, C22 and C63 say that the code computes the published functions up to these sizes. Here is what it computes at every
size: the published functions over rows, items and counts taken modulo the range of the 32-bit arithmetic, and where it panics. -/

set_option autoImplicit false

namespace Verif.Props

open Go Dag Spec.Ethash

attribute [local irreducible] Tables.ethashCacheSizes Tables.ethashDatasetSizes Tables.firopowDatasetSizes Tables.octopusCacheSizes
  Tables.octopusDatasetSizes

/-! ## The cache -/

/-- **C92** The cache of any number of rows that is not a multiple of 2^32: row `v` of the published function is replaced by row
`v mod 2^26`, and the generator panics exactly when that is the last row below 4 GiB. -/
theorem C92_cache (P : Prims) (seed : List Byte) (rounds : Int) (n : Nat) (hn : n % 2 ^ 32 ≠ 0) (dest : List U32)
    (hd : dest.length = 16 * n) :
    match Spec.Large.mkcache P.keccak512 n seed rounds.toNat with
    | none => generateCache P rounds dest seed = .error (.panic .slice)
    | some rows => ∃ words', generateCache P rounds dest seed = .ok words' ∧ words'.length = 16 * n ∧ bytes words' = rows.flatten := by
  rcases generateCache_all P seed rounds n hn dest hd with ⟨h1, h2⟩ | ⟨o, h1, h2, h3, h4⟩
  · rw [h1]; exact h2
  · rw [h1]
    have hfl := flatten_length_const 64 o h4
    refine ⟨_, h2, ?_, ?_⟩
    · rw [← words_flatten _ h4, wordView_length, hfl, h3]; omega
    · rw [bytes_eq, ← words_flatten _ h4, bytesLE_wordView _ (by omega)]

/-- **C92** A number of rows that is a multiple of 2^32 makes the first round divide by zero. -/
theorem C92_cache_zero (P : Prims) (seed : List Byte) (rounds : Int) (hr : 0 < rounds) (n : Nat) (hn : 1 ≤ n) (h32 : n % 2 ^ 32 = 0)
    (dest : List U32) (hd : dest.length = 16 * n) : generateCache P rounds dest seed = .error (.panic .divZero) :=
  generateCache_zero P seed rounds hr n hn h32 dest hd

/-- **C92** Below 2^26 rows this is the published cache, … -/
theorem C92_cache_small (H512 : Spec.Ethash.Bytes → Spec.Ethash.Bytes) (n : Nat) (hn : n < 2 ^ 26) (seed : Spec.Ethash.Bytes) (r : Nat) :
    Spec.Large.mkcache H512 n seed r = some (mkcache H512 n seed r) := by
  have hrow : ∀ o i, i < n → Spec.Large.replaceRow H512 n o i = some (replaceRow H512 n o i) := by
    intro o i hi
    have hlt := Nat.mod_lt (Spec.leValue ((o.getD i []).take 4)) (show 0 < n by omega)
    rw [Spec.Large.replaceRow, Nat.mod_eq_of_lt (show n < 2 ^ 32 by omega),
      Nat.mod_eq_of_lt (a := Spec.leValue ((o.getD i []).take 4) % n) (by omega)]
    exact if_neg (by omega)
  have hround : ∀ o i, i ≤ n → Spec.Large.cacheRound H512 n o i = some ((List.range i).foldl (replaceRow H512 n) o) := by
    intro o i hi
    induction i with
    | zero => rfl
    | succ i ih =>
      rw [Spec.Large.cacheRound, ih (by omega), Option.bind_some, hrow _ _ (by omega), List.range_succ, List.foldl_append]
      rfl
  induction r with
  | zero => rfl
  | succ r ih =>
    rw [Spec.Large.mkcache, ih, Option.bind_some, hround _ _ (Nat.le_refl _)]
    rfl

/-- **C92** … and from 2^26 rows on there are caches for which the generator panics: one whose first row selects row 2^26 - 1. -/
theorem C92_cache_panics (P : Prims) (seed : List Byte) (rounds : Int) (hr : 0 < rounds) (n : Nat) (h1 : 2 ^ 26 ≤ n) (h2 : n < 2 ^ 32)
    (hsel : Spec.leValue ((P.keccak512 seed).take 4) = 2 ^ 26 - 1) (dest : List U32) (hd : dest.length = 16 * n) :
    generateCache P rounds dest seed = .error (.panic .slice) := by
  have h := C92_cache P seed rounds n (by rw [Nat.mod_eq_of_lt h2]; omega) dest hd
  obtain ⟨m, hm⟩ : ∃ m, rounds.toNat = m + 1 := ⟨rounds.toNat - 1, by omega⟩
  obtain ⟨k, hk⟩ : ∃ k, n = k + 1 := ⟨n - 1, by omega⟩
  have hrow : Spec.Large.replaceRow P.keccak512 n (chain P.keccak512 seed n) 0 = none := by
    have h0 : (chain P.keccak512 seed n).getD 0 [] = P.keccak512 seed := by rw [hk]; rfl
    rw [Spec.Large.replaceRow, h0, hsel, Nat.mod_eq_of_lt h2, Nat.mod_eq_of_lt (show 2 ^ 26 - 1 < n by omega)]
    exact if_pos (by decide)
  have hround : ∀ i, Spec.Large.cacheRound P.keccak512 n (chain P.keccak512 seed n) (i + 1) = none := by
    intro i
    induction i with
    | zero => rw [Spec.Large.cacheRound, Spec.Large.cacheRound, Option.bind_some, hrow]
    | succ i ih => rw [Spec.Large.cacheRound, ih]; rfl
  have hall : ∀ i, Spec.Large.mkcache P.keccak512 n seed (i + 1) = none := by
    intro i
    induction i with
    | zero =>
      rw [Spec.Large.mkcache, Spec.Large.mkcache, Option.bind_some]
      have := hround k
      rwa [← hk] at this
    | succ i ih => rw [Spec.Large.mkcache, ih]; rfl
  rw [hm, hall] at h
  exact h

/-! ## Dataset items -/

/-- **C92** The item of a cache of any length: rows are counted modulo 2^32 and found modulo 2^28. -/
theorem C92_item (P : Prims) (parents : U32) (cache : List U32) (index : U32) :
    generateDatasetItem P parents cache index =
      if cache.length / 16 % 2 ^ 32 = 0 then .error (.panic .divZero)
      else .ok (item P.keccak512 (cache.length / 16 % 2 ^ 32) (fun k => rowOf cache (k % 2 ^ 28)) parents.toNat index) := by
  by_cases h : cache.length / 16 % 2 ^ 32 = 0
  · rw [if_pos h]
    unfold generateDatasetItem
    simp only
    rw [show BitVec.ofNat 32 (cache.length / hashWords) = 0 by
      apply BitVec.eq_of_toNat_eq
      rw [BitVec.toNat_ofNat]
      exact h]
    rfl
  · rw [if_neg h]
    exact generateDatasetItem_all P parents cache index h

/-- **C92** every row of a cache of at most 2^28 rows is found, and none above that -/
theorem C92_item_rows (cache : List U32) (k : Nat) :
    (k < 2 ^ 28 → Spec.Large.rowAt cache k = rowOf cache k) ∧ Spec.Large.rowAt cache (k + 2 ^ 28) = Spec.Large.rowAt cache k := by
  refine ⟨fun h => ?_, ?_⟩
  · rw [Spec.Large.rowAt, Nat.mod_eq_of_lt h]
  · rw [Spec.Large.rowAt, Spec.Large.rowAt, Nat.add_mod_right]

/-! ## Ethash -/

/-- **C92** `hashimoto` over a dataset of any size: the number of rows is taken modulo 2^32, so is the number of an item, and when no
row remains the first access divides by zero. -/
theorem C92_ethash (P : Prims) (hash : List Byte) (hh : hash.length = 32) (nonce size : U64) (L : Nat → List U32)
    (hL : ∀ k, (L k).length = 16) :
    Ethash.hashimoto P hash nonce size (fun i => .ok (L i.toNat)) =
      if size.toNat / 128 % 2 ^ 32 = 0 then .error (.panic .divZero)
      else .ok (Spec.Ethash.hashimoto P.keccak512 P.keccak256 (2 * (size.toNat / 128 % 2 ^ 32)) (fun k => L (k % 2 ^ 32)) hash nonce) := by
  by_cases h : size.toNat / 128 % 2 ^ 32 = 0
  · rw [if_pos h, Ethash.hashimoto_zero P hash hh nonce size h]
  · rw [if_neg h]
    exact Ethash.hashimoto_all P hash hh nonce size h _ _ fun k _ => ⟨by rw [BitVec.toNat_ofNat], hL _⟩

/-- **C92** From 256 GiB up to 512 GiB it is the published function over the dataset whose first 256 GiB are repeated. -/
theorem C92_ethash_repeated (P : Prims) (hash : List Byte) (hh : hash.length = 32) (nonce size : U64) (h1 : 128 ≤ size.toNat)
    (h2 : size.toNat < 2 ^ 39) (L : Nat → List U32) (hL : ∀ k, (L k).length = 16) :
    Ethash.hashimoto P hash nonce size (fun i => .ok (L i.toNat)) =
      .ok (Spec.Ethash.hashimoto P.keccak512 P.keccak256 (size.toNat / 64) (fun k => L (k % 2 ^ 32)) hash nonce) := by
  have hm : size.toNat / 128 % 2 ^ 32 = size.toNat / 128 := Nat.mod_eq_of_lt (by omega)
  rw [C92_ethash P hash hh nonce size L hL, hm, if_neg (by omega), Spec.Ethash.hashimoto, Spec.Ethash.hashimoto,
    Ethash.accessMix_pairs (2 * (size.toNat / 128)) (size.toNat / 64) (by omega)]

/-- **C92** The light evaluation over a cache of any length. -/
theorem C92_ethash_light (P : Prims) (parents : U32) (cache : List U32) (hc : cache.length / 16 % 2 ^ 32 ≠ 0) (hash : List Byte)
    (hh : hash.length = 32) (nonce size : U64) (hs : size.toNat / 128 % 2 ^ 32 ≠ 0) :
    Ethash.hashimoto P hash nonce size (lookup512 P parents cache) =
      .ok (Spec.Ethash.hashimoto P.keccak512 P.keccak256 (2 * (size.toNat / 128 % 2 ^ 32))
        (fun k => words (Spec.Large.itemAt P.keccak512 cache parents.toNat (BitVec.ofNat 32 k))) hash nonce) := by
  refine Ethash.hashimoto_all P hash hh nonce size hs _ _ fun k _ => ⟨?_, by rw [words_eq, wordView_length, itemAt_length]⟩
  have := generateDatasetItemUint_all P parents cache hc (BitVec.ofNat 32 k) 1 (by decide)
  rw [lookup512, this]
  simp

/-! ## Octopus -/

/-- **C92** Octopus over a dataset of any size, likewise with pages of 256 bytes. -/
theorem C92_octopus (P : Prims) (fuel : Nat) (hf : 64 < fuel) (hash : List Byte) (hh : hash.length = 32) (nonce size : U64)
    (L : Nat → List U32) (hL : ∀ k, (L k).length = 16) :
    (size.toNat / 256 % 2 ^ 32 = 0 → Octopus.octopus P fuel hash nonce size (fun i => .ok (L i.toNat)) = .error (.panic .divZero)) ∧
    (size.toNat / 256 % 2 ^ 32 ≠ 0 → ∃ c, Spec.Octopus.IsC (Spec.Octopus.generator (Spec.Octopus.word hash 0).toNat)
        (Spec.Octopus.generator (Spec.Octopus.word hash 1).toNat) (Spec.Octopus.word hash 2).toNat c ∧
      Octopus.octopus P fuel hash nonce size (fun i => .ok (L i.toNat)) =
        .ok (Spec.Octopus.digest P.keccak512 P.keccak256 (size.toNat / 256 % 2 ^ 32) (fun k => L (k % 2 ^ 32)) hash nonce.toNat
          (Spec.Octopus.generator (Spec.Octopus.word hash 0).toNat) (Spec.Octopus.generator (Spec.Octopus.word hash 1).toNat) c
          (Spec.Octopus.generator (Spec.Octopus.word hash 3).toNat))) := by
  refine ⟨fun h => Octopus.octopus_small P fuel hf hash hh nonce size h _, fun h => ?_⟩
  exact Octopus.octopus_all P fuel hf hash hh nonce size h _ _ fun k _ => ⟨by rw [BitVec.toNat_ofNat], hL _⟩

/-! ## ProgPoW -/

/-- **C92** KAWPOW and FiroPoW over a dataset of any size: the number of items is taken modulo 2^32. -/
theorem C92_progpow (hash : List Byte) (hh : hash.length = 32) (height nonce size : U64) (hs : size.toNat / 256 % 2 ^ 32 ≠ 0)
    (dag : Nat → List U32) (hd : ∀ k, (dag k).length = 64) (l1 : List U32) (hl1 : l1.length = 4096) :
    Progpow.kawpow hash height nonce size (fun i => .ok (dag i.toNat)) l1 =
        .ok (Spec.Progpow.full Spec.Progpow.kawpow hash height.toNat nonce.toNat (size.toNat / 256 % 2 ^ 32) dag fun i => l1.getD i 0) ∧
      Progpow.firopow hash height nonce size (fun i => .ok (dag i.toNat)) l1 =
        .ok (Spec.Progpow.full Spec.Progpow.firopow hash height.toNat nonce.toNat (size.toNat / 256 % 2 ^ 32) dag fun i => l1.getD i 0) := by
  have hlt : size.toNat / 256 % 2 ^ 32 < 2 ^ 32 := Nat.mod_lt _ (by omega)
  have hserve : Progpow.Serves (fun i => .ok (dag i.toNat)) (Progpow.numItems size) 64 dag := by
    intro i hi
    have hi' : i < size.toNat / 256 % 2 ^ 32 := hi
    refine ⟨?_, hd i⟩
    dsimp only
    rw [BitVec.toNat_ofNat, Nat.mod_eq_of_lt (by omega)]
  exact ⟨Progpow.kawpow_ok hash (by omega) height nonce size hs _ dag hserve l1 (by omega),
    Progpow.firopow_ok hash (by omega) height nonce size hs _ dag hserve l1 (by omega)⟩

/-- **C92** When no item remains the first round divides by zero. -/
theorem C92_progpow_zero (cfg : Progpow.Config) (hc : cfg = Progpow.kawpowCfg ∨ cfg = Progpow.firopowCfg ∨ cfg = Progpow.progpow094Cfg)
    (height seed size : U64) (hs : size.toNat / 256 % 2 ^ 32 = 0) (lookup : Progpow.Lookup) (l1 : List U32) :
    Progpow.hash cfg height seed size lookup l1 = .error (.panic .divZero) := by
  rcases hc with rfl | rfl | rfl <;>
    exact Progpow.hash_zero _ (by decide) (by decide) (by decide) (by decide) (by decide) height seed size hs lookup l1

/-! ## Which epochs -/

/-- none of `lo + 2, …, lo + 1 + 2^d` divides `n` -/
def noDivisor (n : Nat) : Nat → Nat → Bool
  | 0, lo => n % (lo + 2) != 0
  | d + 1, lo => noDivisor n d lo && noDivisor n d (lo + 2 ^ d)

theorem noDivisor_spec (n d : Nat) : ∀ lo, noDivisor n d lo = true → ∀ q, lo + 2 ≤ q → q < lo + 2 + 2 ^ d → ¬ q ∣ n := by
  induction d with
  | zero =>
    intro lo h q h1 h2 hq
    obtain rfl : q = lo + 2 := by omega
    rw [noDivisor, Nat.mod_eq_zero_of_dvd hq] at h
    exact absurd h (by decide)
  | succ d ih =>
    intro lo h q h1 h2
    rw [noDivisor, Bool.and_eq_true] at h
    rw [Nat.pow_succ] at h2
    by_cases hq : q < lo + 2 + 2 ^ d
    · exact ih lo h.1 q h1 hq
    · exact ih _ h.2 q (by omega) (by omega)

theorem prime_of_noDivisor (n : Nat) (h1 : 2 ≤ n) (h2 : n < 2 ^ 32) (h : noDivisor n 16 0 = true) : n.Prime := by
  by_contra hp
  have hm := Nat.minFac_sq_le_self (by omega : 0 < n) hp
  have hlt : n.minFac < 2 ^ 16 := by
    by_contra hn
    have : 2 ^ 16 * 2 ^ 16 ≤ n.minFac ^ 2 := by
      rw [Nat.pow_two]
      exact Nat.mul_le_mul (by omega) (by omega)
    omega
  have h2 := (Nat.minFac_prime (show n ≠ 1 by omega)).two_le
  exact noDivisor_spec n 16 0 h _ (by omega) (by omega) (Nat.minFac_dvd n)

theorem prime26 : Nat.Prime (2 ^ 26 + 15) := prime_of_noDivisor _ (by decide) (by decide) (by decide +kernel)
theorem prime30 : Nat.Prime (2 ^ 30 + 3) := prime_of_noDivisor _ (by decide) (by decide) (by decide +kernel)
theorem prime31 : Nat.Prime (2 ^ 31 + 11) := prime_of_noDivisor _ (by decide) (by decide) (by decide +kernel)

/-- the size stays below a power of two exactly as long as the bound does not exceed it, if the bound moves in large steps -/
theorem size_lt_iff (u b s t q : Nat) (h : Spec.Dag.IsSize u b s) (hq : Nat.Prime q) (hqt : t ≤ u * q) (hb : t < b → u * q < b) :
    s < t ↔ b ≤ t := by
  obtain ⟨p, rfl, _, hpb, hpm⟩ := h
  constructor
  · intro hlt
    by_contra hn
    have := hpm q hq (hb (by omega))
    have := Nat.mul_le_mul_left u this
    omega
  · intro hle
    omega

local macro "cfg" : tactic => `(tactic| (simp only [ethereum, ethereumClassic, ravencoin, firo, conflux]; decide))

/-- **C92** The cache of an epoch has a row that a 32-bit byte offset does not reach exactly when the growth formula exceeds 4 GiB. -/
theorem C92_cache_epochs (dir : String) (d : Config) (hd : d ∈ shipped dir) (e : U64) (he : e.toNat < 2045 ∨ 2048 ≤ e.toNat)
    (hb : cacheBound d e < 2 ^ 64) (fuel : Nat) (hf : 2 ^ 63 < fuel) :
    ∃ s, cacheSize fuel d e = .ok s ∧ (s.toNat < 2 ^ 32 ↔ cacheBound d e ≤ 2 ^ 32) := by
  obtain ⟨s, h1, h2⟩ := C31_CacheSize dir d hd e he hb fuel hf
  refine ⟨s, h1, size_lt_iff 64 _ _ _ (2 ^ 26 + 15) h2 prime26 (by decide) fun hlt => ?_⟩
  have hmod : cacheBound d e % 2 ^ 16 = 0 := by
    have h1 : d.cacheInitBytes.toNat % 2 ^ 16 = 0 ∧ d.cacheGrowthBytes.toNat % 2 ^ 16 = 0 := by
      simp only [shipped, List.mem_cons, List.not_mem_nil, or_false] at hd
      rcases hd with rfl | rfl | rfl | rfl | rfl <;> cfg
    rw [cacheBound, Nat.add_mod, Nat.mul_mod, h1.1, h1.2, Nat.zero_mul]
    rfl
  omega

/-- **C92** The dataset of an epoch has an item that a 32-bit number does not reach exactly when the growth formula exceeds 256 GiB. -/
theorem C92_dataset_epochs (dir : String) (d : Config) (hd : d ∈ shippedMix dir) (e : U64) (he : e.toNat < 2045 ∨ 2048 ≤ e.toNat)
    (hb : datasetBound d e < 2 ^ 64) (fuel : Nat) (hf : 2 ^ 63 < fuel) :
    ∃ s, datasetSize fuel d e = .ok s ∧ (s.toNat < 2 ^ 38 ↔ datasetBound d e ≤ 2 ^ 38) := by
  obtain ⟨s, h1, h2⟩ := C31_DatasetSize dir d hd e he hb fuel hf
  have hmod : datasetBound d e % 2 ^ 23 = 0 := by
    have h1 : d.datasetInitBytes.toNat % 2 ^ 23 = 0 ∧ d.datasetGrowthBytes.toNat % 2 ^ 23 = 0 := by
      simp only [shippedMix, List.mem_cons, List.not_mem_nil, or_false] at hd
      rcases hd with rfl | rfl | rfl | rfl <;> cfg
    rw [datasetBound, Nat.add_mod, Nat.mul_mod, h1.1, h1.2, Nat.zero_mul]
    rfl
  have hmix : d.mixBytes.toNat = 128 ∨ d.mixBytes.toNat = 256 := by
    simp only [shippedMix, List.mem_cons, List.not_mem_nil, or_false] at hd
    rcases hd with rfl | rfl | rfl | rfl <;> cfg
  refine ⟨s, h1, ?_⟩
  rcases hmix with hm | hm
  · rw [hm] at h2
    exact size_lt_iff 128 _ _ _ (2 ^ 31 + 11) h2 prime31 (by decide) fun hlt => by omega
  · rw [hm] at h2
    exact size_lt_iff 256 _ _ _ (2 ^ 30 + 3) h2 prime30 (by decide) fun hlt => by omega

/-- **C92** The last epochs within the limits: 32640 for Ethereum and Ravencoin, whose cache and dataset reach them together; for Firo
and Conflux the dataset is first. -/
theorem C92_last_epochs (dir : String) (e : U64) :
    ((cacheBound (ethereum dir) e ≤ 2 ^ 32 ↔ e.toNat ≤ 32640) ∧ (datasetBound (ethereum dir) e ≤ 2 ^ 38 ↔ e.toNat ≤ 32640)) ∧
    ((cacheBound (ravencoin dir) e ≤ 2 ^ 32 ↔ e.toNat ≤ 32640) ∧ (datasetBound (ravencoin dir) e ≤ 2 ^ 38 ↔ e.toNat ≤ 32640)) ∧
    ((cacheBound (firo dir) e ≤ 2 ^ 32 ↔ e.toNat ≤ 32640) ∧ (datasetBound (firo dir) e ≤ 2 ^ 38 ↔ e.toNat ≤ 32576)) ∧
    ((cacheBound (conflux dir) e ≤ 2 ^ 32 ↔ e.toNat ≤ 65280) ∧ (datasetBound (conflux dir) e ≤ 2 ^ 38 ↔ e.toNat ≤ 16128)) := by
  have key : ∀ (d : Config) (i g : Nat), d.cacheInitBytes.toNat = i → d.cacheGrowthBytes.toNat = g → cacheBound d e = i + g * e.toNat := by
    rintro d i g rfl rfl
    rfl
  have key' : ∀ (d : Config) (i g : Nat), d.datasetInitBytes.toNat = i → d.datasetGrowthBytes.toNat = g →
      datasetBound d e = i + g * e.toNat := by
    rintro d i g rfl rfl
    rfl
  rw [key (ethereum dir) (2 ^ 24) (2 ^ 17) (by cfg) (by cfg), key (ravencoin dir) (2 ^ 24) (2 ^ 17) (by cfg) (by cfg),
    key (firo dir) (2 ^ 24) (2 ^ 17) (by cfg) (by cfg), key (conflux dir) (2 ^ 24) (2 ^ 16) (by cfg) (by cfg),
    key' (ethereum dir) (2 ^ 30) (2 ^ 23) (by cfg) (by cfg), key' (ravencoin dir) (2 ^ 30) (2 ^ 23) (by cfg) (by cfg),
    key' (firo dir) (2 ^ 30 + 2 ^ 29) (2 ^ 23) (by cfg) (by cfg), key' (conflux dir) (2 ^ 32) (2 ^ 24) (by cfg) (by cfg)]
  refine ⟨⟨?_, ?_⟩, ⟨?_, ?_⟩, ⟨?_, ?_⟩, ⟨?_, ?_⟩⟩ <;> omega

/-! ## Cases that meet the hypotheses -/

/-- a hash function that always selects row 2^26 - 1 -/
def lastRow : Prims := { Prims.zero with
  keccak512 := fun _ => [0xff, 0xff, 0xff, 0x03] ++ List.replicate 60 0
  keccak512_length := fun _ => rfl }

/-- with it the generator panics for a cache of 2^26 rows -/
example (seed : List Byte) : generateCache lastRow 3 (List.replicate (16 * 2 ^ 26) (0 : U32)) seed = .error (.panic .slice) :=
  C92_cache_panics lastRow seed 3 (by decide) (2 ^ 26) (Nat.le_refl _) (by decide)
    (show Spec.leValue (([0xff, 0xff, 0xff, 0x03] ++ List.replicate 60 0 : List Byte).take 4) = 2 ^ 26 - 1 by decide) _
    List.length_replicate

/-- a dataset of 2^39 + 2^7 bytes has one row -/
example : (2 ^ 39 + 2 ^ 7 : U64).toNat / 128 % 2 ^ 32 = 1 := by decide

/-- one of 2^39 bytes has none -/
example : (2 ^ 39 : U64).toNat / 128 % 2 ^ 32 = 0 := by decide

/-- epoch 32641 of Ethereum is beyond the limits and its sizes are representable -/
example (dir : String) : ¬ cacheBound (ethereum dir) 32641 ≤ 2 ^ 32 ∧ cacheBound (ethereum dir) 32641 < 2 ^ 64 ∧
    ¬ datasetBound (ethereum dir) 32641 ≤ 2 ^ 38 ∧ datasetBound (ethereum dir) 32641 < 2 ^ 64 := by
  simp only [cacheBound, datasetBound]
  cfg

end Verif.Props
