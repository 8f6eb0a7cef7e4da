import Verif.Proof.Dag
import Verif.Proof.Tables
import Verif.Proof.GenLookup

/-! # Sizes, lookup tables, epochs and seeds: properties C31-C36 -/

set_option autoImplicit false

namespace Verif.Props

open Go Dag Spec.Dag

attribute [local irreducible] Tables.ethashCacheSizes Tables.ethashDatasetSizes Tables.firopowDatasetSizes Tables.octopusCacheSizes
  Tables.octopusDatasetSizes

/-- numerical facts about a concrete configuration -/
local macro "cfg" : tactic => `(tactic| (simp only [ethereum, ethereumClassic, ravencoin, firo, conflux]; decide))

/-- the five shipped configurations -/
def shipped (dir : String) : List Config := [ethereum dir, ethereumClassic dir, ravencoin dir, firo dir, conflux dir]

/-- the number of bytes the growth formula allows for the cache -/
def cacheBound (d : Config) (e : U64) : Nat := d.cacheInitBytes.toNat + d.cacheGrowthBytes.toNat * e.toNat

/-- the number of bytes the growth formula allows for the dataset -/
def datasetBound (d : Config) (e : U64) : Nat := d.datasetInitBytes.toNat + d.datasetGrowthBytes.toNat * e.toNat

/-- what the computation in 64 bits makes of a bound: its remainder modulo 2^64, or 2^64 when less than four rows remain -/
def bound64 (unit n : Nat) : Nat := if n % 2 ^ 64 < 4 * unit then 2 ^ 64 else n % 2 ^ 64

theorem bound64_eq (u n : Nat) (h : n < 2 ^ 64) (h4 : 4 * u ≤ n) : bound64 u n = n := wrapped_eq u n h h4

/-! ## C31: the formula -/

/-- **C31** `calcCacheSize` for all configurations whose initial size and growth are even numbers of rows and all 64-bit epochs -/
theorem C31_calcCacheSize (d : Config) (hi : d.cacheInitBytes.toNat % 128 = 0) (hg : d.cacheGrowthBytes.toNat % 128 = 0) (e : U64)
    (fuel : Nat) (hf : 2 ^ 63 < fuel) :
    ∃ s, calcCacheSize fuel d e = .ok s ∧ IsSize 64 (bound64 64 (cacheBound d e)) s.toNat := by
  have h1 : d.cacheInitBytes.toNat = 64 * (2 * (d.cacheInitBytes.toNat / 128)) := by omega
  have h2 : d.cacheGrowthBytes.toNat = 64 * (2 * (d.cacheGrowthBytes.toNat / 128)) := by omega
  have := calcCacheSize_eq d (d.cacheInitBytes.toNat / 128) (d.cacheGrowthBytes.toNat / 128)
    (by rw [← h1, BitVec.ofNat_toNat, BitVec.setWidth_eq]) (by rw [← h2, BitVec.ofNat_toNat, BitVec.setWidth_eq]) e fuel hf
  rw [← h1, ← h2] at this
  exact this

/-- **C31** `calcDatasetSize` likewise, for a row size that is a power of two -/
theorem C31_calcDatasetSize (d : Config) (t : Nat) (ht : d.mixBytes.toNat = 2 ^ t) (ht2 : t ≤ 62)
    (hi : d.datasetInitBytes.toNat % (2 * d.mixBytes.toNat) = 0) (hg : d.datasetGrowthBytes.toNat % (2 * d.mixBytes.toNat) = 0) (e : U64)
    (fuel : Nat) (hf : 2 ^ 63 < fuel) :
    ∃ s, calcDatasetSize fuel d e = .ok s ∧ IsSize d.mixBytes.toNat (bound64 d.mixBytes.toNat (datasetBound d e)) s.toNat := by
  obtain ⟨u, hu⟩ : ∃ u, u = d.mixBytes.toNat := ⟨_, rfl⟩
  rw [← hu] at ht hi hg ⊢
  have key : ∀ x : U64, x.toNat % (2 * u) = 0 → x.toNat = u * (2 * (x.toNat / (2 * u))) := by
    intro x hx
    have := Nat.div_add_mod x.toNat (2 * u)
    rw [hx, Nat.add_zero] at this
    rw [← Nat.mul_assoc, Nat.mul_comm u 2, this]
  have h1 := key _ hi
  have h2 := key _ hg
  have := calcDatasetSize_eq d u (2 ^ (63 - t)) (d.datasetInitBytes.toNat / (2 * u)) (d.datasetGrowthBytes.toNat / (2 * u))
    (by rw [ht]; exact Nat.two_pow_pos t)
    (by rw [ht, show 2 * 2 ^ (63 - t) = 2 ^ (63 - t + 1) from (Nat.pow_succ' ..).symm, ← Nat.pow_add, show t + (63 - t + 1) = 64 by omega])
    (by have := Nat.pow_le_pow_right (show 1 ≤ 2 by omega) (show 1 ≤ 63 - t by omega); omega)
    (by rw [hu, BitVec.ofNat_toNat, BitVec.setWidth_eq])
    (by rw [← h1, BitVec.ofNat_toNat, BitVec.setWidth_eq]) (by rw [← h2, BitVec.ofNat_toNat, BitVec.setWidth_eq]) e fuel hf
  rw [← h1, ← h2] at this
  exact this

/-- **C31** for the shipped configurations: the formula gives 64 times the largest prime number of rows below the bound, for every
epoch for which the bound is below 2^64 -/
theorem C31_shipped_cache (dir : String) (d : Config) (hd : d ∈ shipped dir) (e : U64) (hb : cacheBound d e < 2 ^ 64) (fuel : Nat)
    (hf : 2 ^ 63 < fuel) : ∃ s, calcCacheSize fuel d e = .ok s ∧ IsSize 64 (cacheBound d e) s.toNat := by
  have key : d.cacheInitBytes.toNat % 128 = 0 ∧ d.cacheGrowthBytes.toNat % 128 = 0 ∧ 256 ≤ d.cacheInitBytes.toNat := by
    simp only [shipped, List.mem_cons, List.not_mem_nil, or_false] at hd
    rcases hd with rfl | rfl | rfl | rfl | rfl <;> exact ⟨by cfg, by cfg, by cfg⟩
  have := C31_calcCacheSize d key.1 key.2.1 e fuel hf
  rwa [bound64_eq 64 _ hb (by rw [cacheBound]; omega)] at this

/-- the shipped configurations that set `MixBytes` -/
def shippedMix (dir : String) : List Config := [ethereum dir, ravencoin dir, firo dir, conflux dir]

/-- **C31** the same for the dataset and rows of `MixBytes` -/
theorem C31_shipped_dataset (dir : String) (d : Config) (hd : d ∈ shippedMix dir) (e : U64) (hb : datasetBound d e < 2 ^ 64) (fuel : Nat)
    (hf : 2 ^ 63 < fuel) : ∃ s, calcDatasetSize fuel d e = .ok s ∧ IsSize d.mixBytes.toNat (datasetBound d e) s.toNat := by
  have key : (∃ t, d.mixBytes.toNat = 2 ^ t ∧ t ≤ 62) ∧ d.datasetInitBytes.toNat % (2 * d.mixBytes.toNat) = 0 ∧
      d.datasetGrowthBytes.toNat % (2 * d.mixBytes.toNat) = 0 ∧ 4 * d.mixBytes.toNat ≤ d.datasetInitBytes.toNat := by
    simp only [shippedMix, List.mem_cons, List.not_mem_nil, or_false] at hd
    rcases hd with rfl | rfl | rfl | rfl
    · exact ⟨⟨7, by cfg, by omega⟩, by cfg, by cfg, by cfg⟩
    · exact ⟨⟨7, by cfg, by omega⟩, by cfg, by cfg, by cfg⟩
    · exact ⟨⟨7, by cfg, by omega⟩, by cfg, by cfg, by cfg⟩
    · exact ⟨⟨8, by cfg, by omega⟩, by cfg, by cfg, by cfg⟩
  obtain ⟨⟨t, ht, ht2⟩, h1, h2, h3⟩ := key
  have := C31_calcDatasetSize d t ht ht2 h1 h2 e fuel hf
  rwa [bound64_eq d.mixBytes.toNat _ hb (by rw [datasetBound]; omega)] at this

/-- the bound is below 2^64 for every epoch below 2^39 -/
example (dir : String) (e : U64) (he : e.toNat < 2 ^ 39) : datasetBound (conflux dir) e < 2 ^ 64 ∧ cacheBound (conflux dir) e < 2 ^ 64 := by
  have h1 : datasetBound (conflux dir) e = 2 ^ 32 + 2 ^ 24 * e.toNat := rfl
  have h2 : cacheBound (conflux dir) e = 2 ^ 24 + 2 ^ 16 * e.toNat := rfl
  omega

/-! ## C32: the embedded tables -/

theorem idx_table (t : List Nat) (e : U64) (h : e.toNat < t.length) : idx (table64 t) e.toNat = .ok (BitVec.ofNat 64 t[e.toNat]) := by
  rw [table64, idx_ok _ _ (by simpa using h)]
  simp

theorem idx_table_err (t : List Nat) (e : U64) (h : t.length ≤ e.toNat) : idx (table64 t) e.toNat = .error (.panic .index) :=
  idx_err _ _ (by simpa [table64] using h)

section
variable {fuel : Nat} {d : Config} {t : List U64} {e : U64}

theorem cacheSize_in (ht : d.cacheSizes = some (newLookupTable t 2048)) (h : e.toNat < 2048) : cacheSize fuel d e = idx t e.toNat := by
  rw [cacheSize, ht]; exact if_pos h

theorem cacheSize_out (ht : d.cacheSizes = some (newLookupTable t 2048)) (h : 2048 ≤ e.toNat) :
    cacheSize fuel d e = calcCacheSize fuel d e := by
  rw [cacheSize, ht]; exact if_neg (show ¬ e.toNat < 2048 by omega)

theorem datasetSize_in (ht : d.datasetSizes = some (newLookupTable t 2048)) (h : e.toNat < 2048) : datasetSize fuel d e = idx t e.toNat := by
  rw [datasetSize, ht]; exact if_pos h

theorem datasetSize_out (ht : d.datasetSizes = some (newLookupTable t 2048)) (h : 2048 ≤ e.toNat) :
    datasetSize fuel d e = calcDatasetSize fuel d e := by
  rw [datasetSize, ht]; exact if_neg (show ¬ e.toNat < 2048 by omega)
end

/-- the five distinct tables with their row size and growth formula -/
def tables : List (List Nat × Nat × Nat × Nat) :=
  [(Tables.ethashCacheSizes, 64, 2 ^ 24, 2 ^ 17), (Tables.ethashDatasetSizes, 128, 2 ^ 30, 2 ^ 23),
    (Tables.firopowDatasetSizes, 128, 2 ^ 30 + 2 ^ 29, 2 ^ 23), (Tables.octopusCacheSizes, 64, 2 ^ 24, 2 ^ 16),
    (Tables.octopusDatasetSizes, 256, 2 ^ 32, 2 ^ 24)]

/-- **C32** Every entry of every embedded table is the published size of its epoch; there are 2045 entries. -/
theorem C32_tables (t : List Nat) (u init growth : Nat) (h : (t, u, init, growth) ∈ tables) :
    t.length = 2045 ∧ ∀ e (he : e < t.length), IsSize u (init + growth * e) t[e] ∧ t[e] < 2 ^ 64 := by
  have key : t.length = 2045 ∧ 0 < u ∧ Sieve.tableOk u init growth t 0 = true ∧ init + growth * 2045 < 2 ^ 64 := by
    simp only [tables, List.mem_cons, List.not_mem_nil, or_false, Prod.mk.injEq] at h
    rcases h with ⟨rfl, rfl, rfl, rfl⟩ | ⟨rfl, rfl, rfl, rfl⟩ | ⟨rfl, rfl, rfl, rfl⟩ | ⟨rfl, rfl, rfl, rfl⟩ | ⟨rfl, rfl, rfl, rfl⟩
    · exact ⟨Sieve.ethashCache_length, by omega, Sieve.ethashCache_ok, by omega⟩
    · exact ⟨Sieve.ethashDataset_length, by omega, Sieve.ethashDataset_ok, by omega⟩
    · exact ⟨Sieve.firopowDataset_length, by omega, Sieve.firopowDataset_ok, by omega⟩
    · exact ⟨Sieve.octopusCache_length, by omega, Sieve.octopusCache_ok, by omega⟩
    · exact ⟨Sieve.octopusDataset_length, by omega, Sieve.octopusDataset_ok, by omega⟩
  obtain ⟨hl, hu, hok, hlt⟩ := key
  refine ⟨hl, fun e he => ?_⟩
  have hs := Sieve.tableOk_spec u init growth hu t 0 hok e he
  rw [Nat.zero_add] at hs
  refine ⟨hs, ?_⟩
  obtain ⟨p, hp, _, hpb, _⟩ := hs
  have : growth * e ≤ growth * 2045 := Nat.mul_le_mul_left _ (by omega)
  omega

/-- what a shipped configuration says about its cache table -/
theorem cacheTable (dir : String) (d : Config) (hd : d ∈ shipped dir) : ∃ t init growth, d.cacheSizes = some (newLookupTable (table64 t) 2048) ∧
    (t, 64, init, growth) ∈ tables ∧ d.cacheInitBytes.toNat = init ∧ d.cacheGrowthBytes.toNat = growth := by
  simp only [shipped, List.mem_cons, List.not_mem_nil, or_false] at hd
  rcases hd with rfl | rfl | rfl | rfl | rfl
  · exact ⟨_, _, _, rfl, List.mem_cons_self, rfl, rfl⟩
  · exact ⟨_, _, _, rfl, List.mem_cons_self, rfl, rfl⟩
  · exact ⟨_, _, _, rfl, List.mem_cons_self, rfl, rfl⟩
  · exact ⟨_, _, _, rfl, List.mem_cons_self, rfl, rfl⟩
  · exact ⟨Tables.octopusCacheSizes, 2 ^ 24, 2 ^ 16, rfl, by simp [tables], rfl, rfl⟩

/-- what a shipped configuration says about its dataset table; `NewEthereumClassic` uses the table for rows of 128 bytes -/
theorem datasetTable (dir : String) (d : Config) (hd : d ∈ shipped dir) :
    ∃ t u init growth, d.datasetSizes = some (newLookupTable (table64 t) 2048) ∧ (t, u, init, growth) ∈ tables ∧
      d.datasetInitBytes.toNat = init ∧ d.datasetGrowthBytes.toNat = growth ∧ (d.mixBytes ≠ 0 → d.mixBytes.toNat = u) ∧ (u = 128 ∨ u = 256) := by
  simp only [shipped, List.mem_cons, List.not_mem_nil, or_false] at hd
  rcases hd with rfl | rfl | rfl | rfl | rfl
  · exact ⟨_, _, _, _, rfl, List.mem_cons_of_mem _ List.mem_cons_self, rfl, rfl, fun _ => rfl, Or.inl rfl⟩
  · exact ⟨_, _, _, _, rfl, List.mem_cons_of_mem _ List.mem_cons_self, rfl, rfl, fun h => absurd rfl h, Or.inl rfl⟩
  · exact ⟨_, _, _, _, rfl, List.mem_cons_of_mem _ List.mem_cons_self, rfl, rfl, fun _ => rfl, Or.inl rfl⟩
  · exact ⟨_, _, _, _, rfl, List.mem_cons_of_mem _ (List.mem_cons_of_mem _ List.mem_cons_self), rfl, rfl, fun _ => rfl, Or.inl rfl⟩
  · exact ⟨Tables.octopusDatasetSizes, 256, 2 ^ 32, 2 ^ 24, rfl, by simp [tables], rfl, rfl, fun _ => rfl, Or.inr rfl⟩

/-- **C32** For the shipped configurations the table and the formula give the same cache size for every epoch of the table. -/
theorem C32_cache_agree (dir : String) (d : Config) (hd : d ∈ shipped dir) (e : U64) (he : e.toNat < 2045) (fuel : Nat)
    (hf : 2 ^ 63 < fuel) : cacheSize fuel d e = calcCacheSize fuel d e := by
  obtain ⟨t, init, growth, ht, hm, hi, hg⟩ := cacheTable dir d hd
  obtain ⟨hl, hall⟩ := C32_tables t 64 init growth hm
  have hb : cacheBound d e < 2 ^ 64 := by
    rw [cacheBound]
    have : d.cacheGrowthBytes.toNat * e.toNat ≤ 2 ^ 17 * 2045 := by
      refine Nat.mul_le_mul ?_ (by omega)
      simp only [shipped, List.mem_cons, List.not_mem_nil, or_false] at hd
      rcases hd with rfl | rfl | rfl | rfl | rfl <;> cfg
    have : d.cacheInitBytes.toNat ≤ 2 ^ 24 := by
      simp only [shipped, List.mem_cons, List.not_mem_nil, or_false] at hd
      rcases hd with rfl | rfl | rfl | rfl | rfl <;> cfg
    omega
  obtain ⟨s, es, hs⟩ := C31_shipped_cache dir d hd e hb fuel hf
  rw [es, cacheSize_in ht (by omega), idx_table t e (by omega)]
  obtain ⟨h1, h2⟩ := hall e.toNat (by omega)
  rw [cacheBound, hi, hg] at hs
  rw [h1.unique hs, BitVec.ofNat_toNat, BitVec.setWidth_eq]

/-- **C32** The same for the dataset, for the configurations that set `MixBytes`. -/
theorem C32_dataset_agree (dir : String) (d : Config) (hd : d ∈ shippedMix dir) (e : U64) (he : e.toNat < 2045) (fuel : Nat)
    (hf : 2 ^ 63 < fuel) : datasetSize fuel d e = calcDatasetSize fuel d e := by
  have hd' : d ∈ shipped dir := by
    simp only [shippedMix, shipped, List.mem_cons, List.not_mem_nil, or_false] at hd ⊢
    rcases hd with rfl | rfl | rfl | rfl <;> simp
  obtain ⟨t, u, init, growth, ht, hm, hi, hg, hu, _⟩ := datasetTable dir d hd'
  obtain ⟨hl, hall⟩ := C32_tables t u init growth hm
  have h0 : d.mixBytes ≠ 0 ∧ d.datasetInitBytes.toNat ≤ 2 ^ 32 ∧ d.datasetGrowthBytes.toNat ≤ 2 ^ 24 := by
    simp only [shippedMix, List.mem_cons, List.not_mem_nil, or_false] at hd
    rcases hd with rfl | rfl | rfl | rfl <;> exact ⟨by cfg, by cfg, by cfg⟩
  have hb : datasetBound d e < 2 ^ 64 := by
    rw [datasetBound]
    have : d.datasetGrowthBytes.toNat * e.toNat ≤ 2 ^ 24 * 2045 := Nat.mul_le_mul h0.2.2 (by omega)
    omega
  obtain ⟨s, es, hs⟩ := C31_shipped_dataset dir d hd e hb fuel hf
  rw [es, datasetSize_in ht (by omega), idx_table t e (by omega)]
  obtain ⟨h1, h2⟩ := hall e.toNat (by omega)
  rw [datasetBound, hi, hg, hu h0.1] at hs
  rw [h1.unique hs, BitVec.ofNat_toNat, BitVec.setWidth_eq]

/-- **C31** For every epoch that the tables do not spoil, `CacheSize` is the published size, … -/
theorem C31_CacheSize (dir : String) (d : Config) (hd : d ∈ shipped dir) (e : U64) (he : e.toNat < 2045 ∨ 2048 ≤ e.toNat)
    (hb : cacheBound d e < 2 ^ 64) (fuel : Nat) (hf : 2 ^ 63 < fuel) :
    ∃ s, cacheSize fuel d e = .ok s ∧ IsSize 64 (cacheBound d e) s.toNat := by
  rcases he with he | he
  · rw [C32_cache_agree dir d hd e he fuel hf]
    exact C31_shipped_cache dir d hd e hb fuel hf
  · obtain ⟨t, init, growth, ht, _⟩ := cacheTable dir d hd
    rw [cacheSize_out ht he]
    exact C31_shipped_cache dir d hd e hb fuel hf

/-- **C31** … and so is `DatasetSize` when `MixBytes` is set. -/
theorem C31_DatasetSize (dir : String) (d : Config) (hd : d ∈ shippedMix dir) (e : U64) (he : e.toNat < 2045 ∨ 2048 ≤ e.toNat)
    (hb : datasetBound d e < 2 ^ 64) (fuel : Nat) (hf : 2 ^ 63 < fuel) :
    ∃ s, datasetSize fuel d e = .ok s ∧ IsSize d.mixBytes.toNat (datasetBound d e) s.toNat := by
  rcases he with he | he
  · rw [C32_dataset_agree dir d hd e he fuel hf]
    exact C31_shipped_dataset dir d hd e hb fuel hf
  · have hd' : d ∈ shipped dir := by
      simp only [shippedMix, shipped, List.mem_cons, List.not_mem_nil, or_false] at hd ⊢
      rcases hd with rfl | rfl | rfl | rfl <;> simp
    obtain ⟨t, u, init, growth, ht, _⟩ := datasetTable dir d hd'
    rw [datasetSize_out ht he]
    exact C31_shipped_dataset dir d hd e hb fuel hf

/-! ## C33: the three epochs without an entry -/

/-- **C33** `CacheSize` panics exactly for epochs 2045, 2046 and 2047, in every shipped configuration; for every other 64-bit epoch it
returns. -/
theorem C33_cacheSize_panics_iff (dir : String) (d : Config) (hd : d ∈ shipped dir) (e : U64) (fuel : Nat) (hf : 2 ^ 63 < fuel) :
    (cacheSize fuel d e = .error (.panic .index) ↔ 2045 ≤ e.toNat ∧ e.toNat < 2048) ∧
      ((e.toNat < 2045 ∨ 2048 ≤ e.toNat) → ∃ s, cacheSize fuel d e = .ok s) := by
  obtain ⟨t, init, growth, ht, hm, hi, hg⟩ := cacheTable dir d hd
  obtain ⟨hl, hall⟩ := C32_tables t 64 init growth hm
  have hok : (e.toNat < 2045 ∨ 2048 ≤ e.toNat) → ∃ s, cacheSize fuel d e = .ok s := by
    rintro (he | he)
    · rw [cacheSize_in ht (by omega), idx_table t e (by omega)]
      exact ⟨_, rfl⟩
    · rw [cacheSize_out ht he]
      have key : d.cacheInitBytes.toNat % 128 = 0 ∧ d.cacheGrowthBytes.toNat % 128 = 0 := by
        simp only [shipped, List.mem_cons, List.not_mem_nil, or_false] at hd
        rcases hd with rfl | rfl | rfl | rfl | rfl <;> exact ⟨by cfg, by cfg⟩
      obtain ⟨s, es, _⟩ := C31_calcCacheSize d key.1 key.2 e fuel hf
      exact ⟨s, es⟩
  refine ⟨⟨fun h => ?_, fun h => ?_⟩, hok⟩
  · by_contra hc
    obtain ⟨s, es⟩ := hok (by omega)
    rw [es] at h
    exact absurd h (by simp)
  · rw [cacheSize_in ht (by omega), idx_table_err t e (by omega)]

/-- **C33** The same for `DatasetSize`, in the configurations that set `MixBytes`. -/
theorem C33_datasetSize_panics_iff (dir : String) (d : Config) (hd : d ∈ shippedMix dir) (e : U64) (fuel : Nat) (hf : 2 ^ 63 < fuel) :
    (datasetSize fuel d e = .error (.panic .index) ↔ 2045 ≤ e.toNat ∧ e.toNat < 2048) ∧
      ((e.toNat < 2045 ∨ 2048 ≤ e.toNat) → ∃ s, datasetSize fuel d e = .ok s) := by
  have hd' : d ∈ shipped dir := by
    simp only [shippedMix, shipped, List.mem_cons, List.not_mem_nil, or_false] at hd ⊢
    rcases hd with rfl | rfl | rfl | rfl <;> simp
  obtain ⟨t, u, init, growth, ht, hm, hi, hg, hu, _⟩ := datasetTable dir d hd'
  obtain ⟨hl, hall⟩ := C32_tables t u init growth hm
  have hok : (e.toNat < 2045 ∨ 2048 ≤ e.toNat) → ∃ s, datasetSize fuel d e = .ok s := by
    rintro (he | he)
    · rw [datasetSize_in ht (by omega), idx_table t e (by omega)]
      exact ⟨_, rfl⟩
    · rw [datasetSize_out ht he]
      have key : (∃ t, d.mixBytes.toNat = 2 ^ t ∧ t ≤ 62) ∧ d.datasetInitBytes.toNat % (2 * d.mixBytes.toNat) = 0 ∧
          d.datasetGrowthBytes.toNat % (2 * d.mixBytes.toNat) = 0 := by
        simp only [shippedMix, List.mem_cons, List.not_mem_nil, or_false] at hd
        rcases hd with rfl | rfl | rfl | rfl
        · exact ⟨⟨7, by cfg, by omega⟩, by cfg, by cfg⟩
        · exact ⟨⟨7, by cfg, by omega⟩, by cfg, by cfg⟩
        · exact ⟨⟨7, by cfg, by omega⟩, by cfg, by cfg⟩
        · exact ⟨⟨8, by cfg, by omega⟩, by cfg, by cfg⟩
      obtain ⟨⟨k, hk, hk2⟩, h1, h2⟩ := key
      obtain ⟨s, es, _⟩ := C31_calcDatasetSize d k hk hk2 h1 h2 e fuel hf
      exact ⟨s, es⟩
  refine ⟨⟨fun h => ?_, fun h => ?_⟩, hok⟩
  · by_contra hc
    obtain ⟨s, es⟩ := hok (by omega)
    rw [es] at h
    exact absurd h (by simp)
  · rw [datasetSize_in ht (by omega), idx_table_err t e (by omega)]

/-! ## C34: Ethereum Classic -/

/-- **C34** Beyond the lookup table `DatasetSize` of the Ethereum Classic client divides by zero, … -/
theorem C34_etc_panics (dir : String) (e : U64) (he : 2048 ≤ e.toNat) (fuel : Nat) (hf : 0 < fuel) :
    datasetSize fuel (ethereumClassic dir) e = .error (.panic .divZero) := by
  obtain ⟨f, rfl⟩ : ∃ f, fuel = f + 1 := ⟨fuel - 1, by omega⟩
  rw [datasetSize_out (t := table64 Tables.ethashDatasetSizes) rfl he, calcDatasetSize]
  exact forever_err f rfl

/-- **C34** … while with the table it gives the published size for rows of 128 bytes. -/
theorem C34_etc_table (dir : String) (e : U64) (he : e.toNat < 2045) (fuel : Nat) :
    ∃ s, datasetSize fuel (ethereumClassic dir) e = .ok s ∧ IsSize 128 (2 ^ 30 + 2 ^ 23 * e.toNat) s.toNat := by
  obtain ⟨hl, hall⟩ := C32_tables Tables.ethashDatasetSizes 128 (2 ^ 30) (2 ^ 23) (by simp [tables])
  rw [datasetSize_in (t := table64 Tables.ethashDatasetSizes) rfl (by omega), idx_table _ e (by omega)]
  obtain ⟨h1, h2⟩ := hall e.toNat (by omega)
  refine ⟨_, rfl, ?_⟩
  rw [BitVec.toNat_ofNat, Nat.mod_eq_of_lt h2]
  exact h1

/-! ## C35: the generator of the tables -/

/-- **C35** The text of a table, read as Go source, contains exactly the entries of the full rows: the last `len % rowSize` entries
are not written. -/
theorem C35_format (table : List U64) (rowSize : Nat) (hr : 0 < rowSize) :
    ∃ text, GenLookup.formatLookupTable table rowSize = .ok text ∧
      Spec.GoLiteral.readTable text = some ((table.take (table.length / rowSize * rowSize)).map BitVec.toNat) :=
  GenLookup.format_ok table rowSize hr

/-- **C35** all entries are written exactly when the row size divides their number -/
theorem C35_complete_iff (table : List U64) (rowSize : Nat) (hr : 0 < rowSize) :
    (∃ text, GenLookup.formatLookupTable table rowSize = .ok text ∧ Spec.GoLiteral.readTable text = some (table.map BitVec.toNat)) ↔
      rowSize ∣ table.length := by
  obtain ⟨text, e, h⟩ := C35_format table rowSize hr
  constructor
  · rintro ⟨text', e', h'⟩
    rw [e] at e'
    obtain rfl : text = text' := by simpa using e'
    rw [h] at h'
    have := congrArg (fun o => (o.map List.length).getD 0) h'
    simp only [Option.map_some, Option.getD_some, List.length_map, List.length_take] at this
    have h2 := Nat.div_mul_le_self table.length rowSize
    refine Nat.dvd_of_mod_eq_zero ?_
    have := Nat.div_add_mod table.length rowSize
    rw [Nat.mul_comm] at this
    omega
  · rintro ⟨k, hk⟩
    refine ⟨text, e, ?_⟩
    rw [h, hk, Nat.mul_div_cancel_left k hr, Nat.mul_comm, ← hk, List.take_length]

/-- **C35** The tables in the repository are what the generator writes for the parameters of the `go:generate` lines and its default
of 2048 epochs: 2045 of the 2048 computed sizes. -/
theorem C35_regenerate_cache (t : List Nat) (init growth : U64) (h : (t, 64, init.toNat, growth.toNat) ∈ tables) (fuel : Nat)
    (hf : 2 ^ 63 < fuel) :
    ∃ sizes text, GenLookup.genCacheLookupTable fuel init growth 2048 = .ok sizes ∧ sizes.length = 2048 ∧
      GenLookup.formatLookupTable sizes 5 = .ok text ∧ Spec.GoLiteral.readTable text = some t := by
  obtain ⟨hl, hall⟩ := C32_tables t 64 _ _ h
  obtain ⟨d, hd⟩ : ∃ d : Config, d = { cacheInitBytes := init, cacheGrowthBytes := growth } := ⟨_, rfl⟩
  have hdi : d.cacheInitBytes = init := by rw [hd]
  have hdg : d.cacheGrowthBytes = growth := by rw [hd]
  have hds : d.cacheSizes = none := by rw [hd]
  have hi : init.toNat % 128 = 0 ∧ growth.toNat % 128 = 0 ∧ 256 ≤ init.toNat ∧ init.toNat ≤ 2 ^ 32 ∧ growth.toNat ≤ 2 ^ 24 := by
    simp only [tables, List.mem_cons, List.not_mem_nil, or_false, Prod.mk.injEq] at h
    omega
  have hsz : ∀ e : U64, ∃ s, cacheSize fuel d e = .ok s ∧ (e.toNat < 2048 → IsSize 64 (init.toNat + growth.toNat * e.toNat) s.toNat) := by
    intro e
    obtain ⟨s, es, hs⟩ := C31_calcCacheSize d (by rw [hdi]; exact hi.1) (by rw [hdg]; exact hi.2.1) e fuel hf
    refine ⟨s, by rw [cacheSize, hds]; exact es, fun he => ?_⟩
    have hb : cacheBound d e = init.toNat + growth.toNat * e.toNat := by rw [cacheBound, hdi, hdg]
    have : growth.toNat * e.toNat ≤ 2 ^ 24 * 2048 := Nat.mul_le_mul hi.2.2.2.2 (by omega)
    rwa [bound64_eq 64 _ (by omega) (by omega), hb] at hs
  choose v hv hv2 using hsz
  have hgen : GenLookup.genCacheLookupTable fuel init growth 2048 = .ok ((List.range 2048).map fun i => v (BitVec.ofNat 64 i)) := by
    simp only [GenLookup.genCacheLookupTable]
    rw [← hd]
    exact GenLookup.table_loop (fun i => cacheSize fuel d (BitVec.ofNat 64 i)) _ (fun _ _ => rfl) 2048 _ (fun i _ => hv _)
  obtain ⟨text, et, ht⟩ := C35_format ((List.range 2048).map fun i => v (BitVec.ofNat 64 i)) 5 (by omega)
  refine ⟨_, text, hgen, by simp, et, ?_⟩
  rw [ht]
  refine congrArg some ?_
  apply List.ext_getElem
  · simp [hl]
  · intro i h1 h2
    have hi' : (BitVec.ofNat 64 i).toNat = i := by rw [BitVec.toNat_ofNat, Nat.mod_eq_of_lt (by omega)]
    have := hv2 (BitVec.ofNat 64 i) (by rw [hi']; omega)
    rw [hi'] at this
    simp only [List.getElem_map, List.getElem_take, List.getElem_range]
    exact this.unique (hall i (by omega)).1

/-- **C35** the same for the dataset tables -/
theorem C35_regenerate_dataset (t : List Nat) (u init growth : U64) (hu : u.toNat ≠ 64) (h : (t, u.toNat, init.toNat, growth.toNat) ∈ tables)
    (fuel : Nat) (hf : 2 ^ 63 < fuel) :
    ∃ sizes text, GenLookup.genDatasetLookupTable fuel u init growth 2048 = .ok sizes ∧ sizes.length = 2048 ∧
      GenLookup.formatLookupTable sizes 5 = .ok text ∧ Spec.GoLiteral.readTable text = some t := by
  obtain ⟨hl, hall⟩ := C32_tables t _ _ _ h
  obtain ⟨d, hd⟩ : ∃ d : Config, d = { mixBytes := u, datasetInitBytes := init, datasetGrowthBytes := growth } := ⟨_, rfl⟩
  have hdu : d.mixBytes = u := by rw [hd]
  have hdi : d.datasetInitBytes = init := by rw [hd]
  have hdg : d.datasetGrowthBytes = growth := by rw [hd]
  have hds : d.datasetSizes = none := by rw [hd]
  have hi : (∃ k, u.toNat = 2 ^ k ∧ k ≤ 62) ∧ init.toNat % (2 * u.toNat) = 0 ∧ growth.toNat % (2 * u.toNat) = 0 ∧
      4 * u.toNat ≤ init.toNat ∧ init.toNat ≤ 2 ^ 32 ∧ growth.toNat ≤ 2 ^ 24 := by
    simp only [tables, List.mem_cons, List.not_mem_nil, or_false, Prod.mk.injEq] at h
    rcases h with ⟨_, h1, h2, h3⟩ | ⟨_, h1, h2, h3⟩ | ⟨_, h1, h2, h3⟩ | ⟨_, h1, h2, h3⟩ | ⟨_, h1, h2, h3⟩ <;> rw [h1, h2, h3]
    · omega
    · exact ⟨⟨7, by norm_num⟩, by norm_num⟩
    · exact ⟨⟨7, by norm_num⟩, by norm_num⟩
    · omega
    · exact ⟨⟨8, by norm_num⟩, by norm_num⟩
  obtain ⟨⟨k, hk, hk2⟩, hi1, hi2, hi3, hi4, hi5⟩ := hi
  have hsz : ∀ e : U64, ∃ s, datasetSize fuel d e = .ok s ∧
      (e.toNat < 2048 → IsSize u.toNat (init.toNat + growth.toNat * e.toNat) s.toNat) := by
    intro e
    obtain ⟨s, es, hs⟩ := C31_calcDatasetSize d k (by rw [hdu]; exact hk) hk2 (by rw [hdi, hdu]; exact hi1) (by rw [hdg, hdu]; exact hi2) e fuel hf
    refine ⟨s, by rw [datasetSize, hds]; exact es, fun he => ?_⟩
    have hb : datasetBound d e = init.toNat + growth.toNat * e.toNat := by rw [datasetBound, hdi, hdg]
    have : growth.toNat * e.toNat ≤ 2 ^ 24 * 2048 := Nat.mul_le_mul hi5 (by omega)
    rwa [hdu, bound64_eq _ _ (by omega) (by omega), hb] at hs
  choose v hv hv2 using hsz
  have hgen : GenLookup.genDatasetLookupTable fuel u init growth 2048 = .ok ((List.range 2048).map fun i => v (BitVec.ofNat 64 i)) := by
    simp only [GenLookup.genDatasetLookupTable]
    rw [← hd]
    exact GenLookup.table_loop (fun i => datasetSize fuel d (BitVec.ofNat 64 i)) _ (fun _ _ => rfl) 2048 _ (fun i _ => hv _)
  obtain ⟨text, et, ht⟩ := C35_format ((List.range 2048).map fun i => v (BitVec.ofNat 64 i)) 5 (by omega)
  refine ⟨_, text, hgen, by simp, et, ?_⟩
  rw [ht]
  refine congrArg some ?_
  apply List.ext_getElem
  · simp [hl]
  · intro i h1 h2
    have hi' : (BitVec.ofNat 64 i).toNat = i := by rw [BitVec.toNat_ofNat, Nat.mod_eq_of_lt (by omega)]
    have := hv2 (BitVec.ofNat 64 i) (by rw [hi']; omega)
    rw [hi'] at this
    simp only [List.getElem_map, List.getElem_take, List.getElem_range]
    exact this.unique (hall i (by omega)).1

/-- the parameters of /repo/octopus/client.go:1 -/
example : ∃ sizes text, GenLookup.genDatasetLookupTable (2 ^ 64) 256 4294967296 16777216 2048 = .ok sizes ∧ sizes.length = 2048 ∧
    GenLookup.formatLookupTable sizes 5 = .ok text ∧ Spec.GoLiteral.readTable text = some Tables.octopusDatasetSizes :=
  C35_regenerate_dataset _ 256 4294967296 16777216 (by decide) (by simp [tables]) (2 ^ 64) (by omega)

/-! ## C36: epochs and seeds -/

/-- **C36** Heights are divided into blocks of `EpochLength`. -/
theorem C36_calcEpoch (d : Config) (hd : d.epochLength ≠ 0) (height : U64) :
    ∃ e, calcEpoch d height = .ok e ∧ e.toNat * d.epochLength.toNat ≤ height.toNat ∧ height.toNat < (e.toNat + 1) * d.epochLength.toNat := by
  refine ⟨_, by rw [calcEpoch, udiv, if_neg hd], ?_, ?_⟩
  · rw [BitVec.toNat_udiv]
    exact Nat.div_mul_le_self _ _
  · rw [BitVec.toNat_udiv, Nat.mul_comm]
    refine Nat.lt_mul_div_succ _ ?_
    have : d.epochLength.toNat ≠ 0 := fun h => hd (BitVec.eq_of_toNat_eq h)
    omega

/-- **C36** Without an epoch length every height panics. -/
theorem C36_calcEpoch_zero (d : Config) (hd : d.epochLength = 0) (height : U64) : calcEpoch d height = .error (.panic .divZero) := by
  rw [calcEpoch, udiv, if_pos hd]

/-- **C36** The seed at a height is keccak256 iterated `height / SeedEpochLength` times on 32 zero bytes (below 2^63 iterations). -/
theorem C36_seedHash (P : Prims) (d : Config) (hd : d.seedEpochLength ≠ 0) (height : U64)
    (h : height.toNat / d.seedEpochLength.toNat < 2 ^ 63) :
    seedHash P d height = .ok (seed P.keccak256 (height.toNat / d.seedEpochLength.toNat)) := by
  rw [seedHash_eq P d hd, toInt_toNat_of_lt, BitVec.toNat_udiv]
  rwa [BitVec.toNat_udiv]

/-- the number of seed epochs per epoch: one, but two for Ethereum Classic -/
def seedsPerEpoch (d : Config) : Nat := if d.name = "ETC" then 2 else 1

/-- **C36** The seed that cache.go:46 takes for epoch `e` (at height `e * EpochLength + 1`) is the `e`-fold iterate, the `2e`-fold one
for Ethereum Classic. -/
theorem C36_epoch_seed (P : Prims) (dir : String) (d : Config) (hd : d ∈ shipped dir) (e : U64)
    (he : e.toNat * d.epochLength.toNat + 1 < 2 ^ 64) :
    seedHash P d (e * d.epochLength + 1) = .ok (seed P.keccak256 (seedsPerEpoch d * e.toNat)) := by
  have key : d.seedEpochLength ≠ 0 ∧ 1 < d.seedEpochLength.toNat ∧ d.epochLength.toNat = seedsPerEpoch d * d.seedEpochLength.toNat := by
    simp only [shipped, List.mem_cons, List.not_mem_nil, or_false] at hd
    rcases hd with rfl | rfl | rfl | rfl | rfl <;> exact ⟨by cfg, by cfg, by simp [seedsPerEpoch, ethereum, ethereumClassic, ravencoin, firo, conflux]⟩
  obtain ⟨h0, h1, h2⟩ := key
  have hh : (e * d.epochLength + 1).toNat = e.toNat * d.epochLength.toNat + 1 := by
    rw [BitVec.toNat_add, BitVec.toNat_mul, Nat.mod_add_mod]
    exact Nat.mod_eq_of_lt he
  have hq : (e.toNat * d.epochLength.toNat + 1) / d.seedEpochLength.toNat = seedsPerEpoch d * e.toNat := by
    rw [h2, show e.toNat * (seedsPerEpoch d * d.seedEpochLength.toNat) = d.seedEpochLength.toNat * (seedsPerEpoch d * e.toNat) by ring,
      Nat.mul_add_div (by omega), Nat.div_eq_of_lt h1, Nat.add_zero]
  rw [C36_seedHash P d h0, hh, hq]
  rw [hh, hq]
  have : seedsPerEpoch d * e.toNat * 2 ≤ e.toNat * d.epochLength.toNat := by
    rw [h2, show e.toNat * (seedsPerEpoch d * d.seedEpochLength.toNat) = seedsPerEpoch d * e.toNat * d.seedEpochLength.toNat by ring]
    exact Nat.mul_le_mul_left _ (by omega)
  omega

/-- **C36** The seed epoch counter is turned into a signed integer: from 2^63 seed epochs on, the seed is that of genesis. -/
theorem C36_seed_wraps (P : Prims) (d : Config) (hd : d.seedEpochLength = 1) (height : U64) (h : 2 ^ 63 ≤ height.toNat) :
    seedHash P d height = .ok (seed P.keccak256 0) := by
  rw [seedHash_eq P d (by rw [hd]; decide), hd]
  have : (height / 1 : U64) = height := by
    apply BitVec.eq_of_toNat_eq
    rw [BitVec.toNat_udiv]
    exact Nat.div_one _
  rw [this, BitVec.toInt_eq_toNat_cond, if_neg (by omega)]
  have := height.isLt
  rw [Int.toNat_of_nonpos (by omega)]

/-- epoch 2000 of Ethereum Classic: seed 4000 -/
example (P : Prims) (dir : String) : seedHash P (ethereumClassic dir) 120000001 = .ok (seed P.keccak256 4000) := by
  have := C36_epoch_seed P dir (ethereumClassic dir) (by simp [shipped]) 2000 (by cfg)
  have h : (2000 : U64) * (ethereumClassic dir).epochLength + 1 = 120000001 := by cfg
  have h2 : seedsPerEpoch (ethereumClassic dir) * (2000 : U64).toNat = 4000 := by simp only [seedsPerEpoch]; cfg
  rwa [h, h2] at this

end Verif.Props
