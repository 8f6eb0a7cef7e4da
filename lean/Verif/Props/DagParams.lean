import Verif.Spec.DagParams
import Verif.Proof.DagParams
import Verif.Proof.Disk
import Verif.Props.Generate
import Verif.Props.Octopus
import Verif.Props.Hashimoto
import Verif.Props.Clients

/-! # Clients with a DAG configuration of one's own: property C95

`New` of ethash, kawpow, firopow and octopus takes any `dag.Config`; C31 to C36 are about the five shipped ones. Here is what the sizes, the seed, the cache, the L1 cache
and `Compute` are for every configuration that keeps its caches in memory, and for which of them `Compute` does not return. -/

set_option autoImplicit false

namespace Verif.Props

open Go Dag Spec.DagParams

/-- a lookup table as numbers -/
def tableOf (t : Option LookupTable) : Option (Nat × List Nat) := t.map fun t => (t.maxEpoch.toNat, t.table.map (·.toNat))

/-- the size of the cache of an epoch, for any configuration -/
def CacheSizeIs (d : Config) (e s : Nat) : Prop :=
  IsSizeOf (tableOf d.cacheSizes) 64 (d.cacheInitBytes.toNat + d.cacheGrowthBytes.toNat * e) e s

/-- the size of the dataset of an epoch, for any configuration -/
def DatasetSizeIs (d : Config) (e s : Nat) : Prop :=
  IsSizeOf (tableOf d.datasetSizes) d.mixBytes.toNat (d.datasetInitBytes.toNat + d.datasetGrowthBytes.toNat * e) e s

/-! ## The first size -/

theorem ofInt_sub (x y : Int) : BitVec.ofInt 64 (x - y) = BitVec.ofInt 64 x - BitVec.ofInt 64 y := by
  rw [BitVec.eq_sub_iff_add_eq, ← BitVec.ofInt_add, Int.sub_add_cancel]

theorem below_toNat (u i g e : U64) (k : Nat) :
    (below u (i + g * e - u) k).toNat = tried u.toNat (i.toNat + g.toNat * e.toNat) k := by
  have h : below u (i + g * e - u) k = BitVec.ofInt 64 (((i.toNat + g.toNat * e.toNat : Nat) : Int) - u.toNat - 2 * u.toNat * k) := by
    rw [ofInt_sub, ofInt_sub, BitVec.ofInt_mul, BitVec.ofInt_mul, BitVec.ofInt_natCast, BitVec.ofInt_natCast, BitVec.ofInt_natCast,
      BitVec.ofNat_add, BitVec.ofNat_mul, below, BitVec.mul_comm (BitVec.ofNat 64 k)]
    simp only [BitVec.ofNat_toNat, BitVec.setWidth_eq]
    rfl
  rw [h, BitVec.toNat_ofInt]
  rfl

theorem isFirst_iff (u i g e s : U64) (fuel : Nat) (hf : 2 ^ 63 < fuel) :
    forever fuel (i + g * e - u) (walkStep u) = .ok s ↔ IsFirst u.toNat (i.toNat + g.toNat * e.toNat) s.toNat := by
  constructor
  · intro h
    obtain ⟨k, h1, h2, h3⟩ := walk_first u fuel _ s h
    refine ⟨k, by rw [h1, below_toNat], h2, fun j hj => ?_⟩
    rw [← below_toNat]
    exact h3 j hj
  · intro h
    have hu : 0 < u.toNat ∧ u.toNat < 2 ^ 63 := by
      obtain ⟨_, _, h2, _⟩ := h
      refine ⟨Nat.pos_of_ne_zero fun h0 => ?_, ?_⟩
      · rw [h0, Nat.div_zero] at h2
        exact absurd h2 (by decide)
      · by_contra hn
        have : s.toNat / u.toNat < 2 := by
          rw [Nat.div_lt_iff_lt_mul (by omega)]
          have := s.isLt
          omega
        exact absurd h2.two_le (by omega)
    obtain ⟨r, hr⟩ := walk_ends u hu.1 hu.2 (i + g * e - u) fuel hf
    obtain ⟨k, h1, h2, h3⟩ := walk_first u fuel _ r hr
    have : IsFirst u.toNat (i.toNat + g.toNat * e.toNat) r.toNat :=
      ⟨k, by rw [h1, below_toNat], h2, fun j hj => by rw [← below_toNat]; exact h3 j hj⟩
    rw [hr, BitVec.eq_of_toNat_eq (h.unique this)]

theorem idx_entry (t : List U64) (i : Nat) (s : U64) : idx t i = .ok s ↔ (t.map (·.toNat))[i]? = some s.toNat := by
  rw [List.getElem?_map]
  by_cases h : i < t.length
  · rw [idx_ok _ _ h, List.getElem?_eq_getElem h]
    constructor
    · intro h
      cases h
      rfl
    · intro h
      rw [Option.map_some, Option.some.injEq] at h
      rw [BitVec.eq_of_toNat_eq h]
  · rw [idx_err _ _ (by omega), List.getElem?_eq_none (by omega)]
    constructor <;> intro h <;> cases h

/-- **C95** `CacheSize` for every configuration: the entry of the table, or the first size of the formula with a prime number of rows. -/
theorem C95_cacheSize (d : Config) (e s : U64) (fuel : Nat) (hf : 2 ^ 63 < fuel) :
    cacheSize fuel d e = .ok s ↔ CacheSizeIs d e.toNat s.toNat := by
  have key : calcCacheSize fuel d e = .ok s ↔ IsFirst 64 (d.cacheInitBytes.toNat + d.cacheGrowthBytes.toNat * e.toNat) s.toNat :=
    isFirst_iff 64 d.cacheInitBytes d.cacheGrowthBytes e s fuel hf
  rw [cacheSize, CacheSizeIs]
  cases d.cacheSizes with
  | none => exact key
  | some t =>
    dsimp only
    rw [show tableOf (some t) = some (t.maxEpoch.toNat, t.table.map (·.toNat)) from rfl]
    by_cases h : e.toNat < t.maxEpoch.toNat
    · rw [if_pos (show e < t.maxEpoch from h)]
      simp only [IsSizeOf, if_pos h]
      exact idx_entry ..
    · rw [if_neg (show ¬ e < t.maxEpoch from h)]
      simp only [IsSizeOf, if_neg h]
      exact key

/-- **C95** It always returns, except for an epoch below the limit of the table that the table has no entry for. -/
theorem C95_cacheSize_panics (d : Config) (e : U64) (x : Stop) (fuel : Nat) (hf : 2 ^ 63 < fuel) :
    cacheSize fuel d e = .error x ↔ x = .panic .index ∧ ∃ t, d.cacheSizes = some t ∧ t.table.length ≤ e.toNat ∧ e.toNat < t.maxEpoch.toNat := by
  have key : ∃ s, calcCacheSize fuel d e = .ok s := walk_ends 64 (by decide) (by decide) _ fuel hf
  obtain ⟨s, hs⟩ := key
  rw [cacheSize]
  cases d.cacheSizes with
  | none =>
    dsimp only
    rw [hs]
    constructor
    · intro h; cases h
    · rintro ⟨_, _, h, _⟩; cases h
  | some t =>
    dsimp only
    by_cases h : e.toNat < t.maxEpoch.toNat
    · rw [if_pos (show e < t.maxEpoch from h)]
      by_cases ht : t.table.length ≤ e.toNat
      · rw [idx_err _ _ ht]
        constructor
        · intro hx; cases hx; exact ⟨rfl, t, rfl, ht, h⟩
        · rintro ⟨rfl, _⟩; rfl
      · rw [idx_ok _ _ (by omega)]
        constructor
        · intro hx; cases hx
        · rintro ⟨_, t', h1, h2, _⟩
          cases h1
          exact absurd h2 ht
    · rw [if_neg (show ¬ e < t.maxEpoch from h), hs]
      constructor
      · intro hx; cases hx
      · rintro ⟨_, t', h1, _, h3⟩
        cases h1
        exact absurd h3 h

/-- the epochs whose dataset size comes from the formula -/
def PastTable (d : Config) (e : U64) : Prop := ∀ t, d.datasetSizes = some t → t.maxEpoch.toNat ≤ e.toNat

/-- **C95** `DatasetSize`, likewise with rows of MixBytes. -/
theorem C95_datasetSize (d : Config) (e s : U64) (fuel : Nat) (hf : 2 ^ 63 < fuel) :
    datasetSize fuel d e = .ok s ↔ DatasetSizeIs d e.toNat s.toNat := by
  have key : calcDatasetSize fuel d e = .ok s ↔
      IsFirst d.mixBytes.toNat (d.datasetInitBytes.toNat + d.datasetGrowthBytes.toNat * e.toNat) s.toNat := by
    rw [← isFirst_iff d.mixBytes d.datasetInitBytes d.datasetGrowthBytes e s fuel hf, calcDatasetSize]
    by_cases h0 : d.mixBytes = 0
    · obtain ⟨n, hn⟩ : ∃ n, fuel = n + 1 := ⟨fuel - 1, by omega⟩
      rw [isFirst_iff _ _ _ _ _ _ hf]
      constructor
      · intro h
        rw [hn, forever, datasetSizeStep, udiv, if_pos h0] at h
        cases h
      · rintro ⟨_, _, h, _⟩
        rw [h0] at h
        simp at h
        exact absurd h (by decide)
    · rw [datasetSizeStep_eq d h0]
  rw [datasetSize, DatasetSizeIs]
  cases d.datasetSizes with
  | none => exact key
  | some t =>
    dsimp only
    rw [show tableOf (some t) = some (t.maxEpoch.toNat, t.table.map (·.toNat)) from rfl]
    by_cases h : e.toNat < t.maxEpoch.toNat
    · rw [if_pos (show e < t.maxEpoch from h)]
      simp only [IsSizeOf, if_pos h]
      exact idx_entry ..
    · rw [if_neg (show ¬ e < t.maxEpoch from h)]
      simp only [IsSizeOf, if_neg h]
      exact key

theorem datasetSize_past {d : Config} {e : U64} (h : PastTable d e) (fuel : Nat) : datasetSize fuel d e = calcDatasetSize fuel d e := by
  rw [datasetSize]
  cases hd : d.datasetSizes with
  | none => rfl
  | some t =>
    dsimp only
    have := h t hd
    rw [if_neg (show ¬ e < t.maxEpoch from fun hlt => absurd (show e.toNat < t.maxEpoch.toNat from hlt) (by omega))]

/-- **C95** Past the table: with MixBytes = 0 it divides by zero, … -/
theorem C95_datasetSize_zero (d : Config) (e : U64) (h : PastTable d e) (h0 : d.mixBytes = 0) (fuel : Nat) (hf : 0 < fuel) :
    datasetSize fuel d e = .error (.panic .divZero) := by
  obtain ⟨n, hn⟩ : ∃ n, fuel = n + 1 := ⟨fuel - 1, by omega⟩
  rw [datasetSize_past h, calcDatasetSize, hn, forever, datasetSizeStep, udiv, if_pos h0]
  rfl

/-- **C95** … with MixBytes ≥ 2^63 it never returns, … -/
theorem C95_datasetSize_hangs (d : Config) (e : U64) (h : PastTable d e) (h0 : 2 ^ 63 ≤ d.mixBytes.toNat) (fuel : Nat) :
    datasetSize fuel d e = .error .fuel := by
  rw [datasetSize_past h, calcDatasetSize, datasetSizeStep_eq d (by
    intro h
    rw [h] at h0
    exact absurd h0 (by decide))]
  exact walk_hangs d.mixBytes h0 fuel _

/-- **C95** … and with any other MixBytes it returns. -/
theorem C95_datasetSize_returns (d : Config) (e : U64) (h : PastTable d e) (h0 : d.mixBytes ≠ 0) (h1 : d.mixBytes.toNat < 2 ^ 63) (fuel : Nat)
    (hf : 2 ^ 63 < fuel) : ∃ s, datasetSize fuel d e = .ok s := by
  rw [datasetSize_past h, calcDatasetSize, datasetSizeStep_eq d h0]
  exact walk_ends d.mixBytes (Nat.pos_of_ne_zero fun h => h0 (BitVec.eq_of_toNat_eq h)) h1 _ fuel hf

/-- **C95** Within the table it panics exactly when there is no entry. -/
theorem C95_datasetSize_table (d : Config) (e : U64) (t : LookupTable) (ht : d.datasetSizes = some t) (h : e.toNat < t.maxEpoch.toNat) (fuel : Nat) :
    datasetSize fuel d e = if h : e.toNat < t.table.length then .ok t.table[e.toNat] else .error (.panic .index) := by
  rw [datasetSize, ht]
  dsimp only
  rw [if_pos (show e < t.maxEpoch from h)]
  by_cases hl : e.toNat < t.table.length
  · rw [dif_pos hl, idx_ok _ _ hl]
  · rw [dif_neg hl, idx_err _ _ (by omega)]

/-! ## When the first size is the published one -/

/-- as long as nothing wraps around -/
theorem tried_eq (row bound k : Nat) (h : row * (2 * k + 1) ≤ bound) (hb : bound < 2 ^ 64) : tried row bound k = bound - row * (2 * k + 1) := by
  have e : 2 * (row : Int) * k = 2 * ((row * k : Nat) : Int) := by push_cast; ring
  have e2 : row * (2 * k + 1) = 2 * (row * k) + row := by ring
  rw [tried, e, e2]
  rw [e2] at h
  omega

/-- **C95** If the bound is an even number of rows, at least four, and fits into 64 bits, the first size is the published one, … -/
theorem C95_published (row m s : Nat) (hr : 0 < row) (hm : 2 ≤ m) (hb : row * (2 * m) < 2 ^ 64) :
    IsFirst row (row * (2 * m)) s ↔ Spec.Dag.IsSize row (row * (2 * m)) s := by
  have lt_iff : ∀ q, row * q < row * (2 * m) ↔ q < 2 * m := fun q => Nat.mul_lt_mul_left hr
  have key : ∀ s, Spec.Dag.IsSize row (row * (2 * m)) s → IsFirst row (row * (2 * m)) s := by
    rintro s ⟨p, rfl, hp, hlt, hmax⟩
    rw [lt_iff] at hlt
    have h3 := hmax 3 (by decide) ((lt_iff 3).2 (by omega))
    have hodd := hp.eq_two_or_odd
    have ht : ∀ j, 2 * j + 1 ≤ 2 * m → tried row (row * (2 * m)) j = row * (2 * m - (2 * j + 1)) := by
      intro j hj
      rw [tried_eq _ _ _ (Nat.mul_le_mul_left row hj) hb, Nat.mul_sub]
    refine ⟨(2 * m - 1 - p) / 2, ?_, ?_, ?_⟩
    · rw [ht _ (by omega)]
      congr 1
      omega
    · rw [Nat.mul_div_cancel_left _ hr]
      exact hp
    · intro j hj hpr
      rw [ht _ (by omega), Nat.mul_div_cancel_left _ hr] at hpr
      have := hmax _ hpr ((lt_iff _).2 (by omega))
      omega
  refine ⟨fun h => ?_, key s⟩
  obtain ⟨p, hp, hle, hmax⟩ : ∃ p, p.Prime ∧ p ≤ 2 * m - 1 ∧ ∀ q, q.Prime → q ≤ 2 * m - 1 → q ≤ p :=
    ⟨Nat.findGreatest Nat.Prime (2 * m - 1), Nat.findGreatest_spec (P := Nat.Prime) (m := 3) (by omega) (by decide),
      Nat.findGreatest_le _, fun q hq hle => Nat.le_findGreatest hle hq⟩
  have hsize : Spec.Dag.IsSize row (row * (2 * m)) (row * p) :=
    ⟨p, rfl, hp, (lt_iff p).2 (by omega), fun q hq hlt => hmax q hq (by rw [lt_iff] at hlt; omega)⟩
  rw [h.unique (key _ hsize)]
  exact hsize

/-- **C95** … but if it is an odd number of rows, only even numbers of rows are looked at, and the size is that of two rows. -/
theorem C95_two_rows (row m : Nat) (hr : 0 < row) (hm : 1 ≤ m) (hb : row * (2 * m + 1) < 2 ^ 64) :
    IsFirst row (row * (2 * m + 1)) (2 * row) := by
  have ht : ∀ j, j ≤ m → tried row (row * (2 * m + 1)) j = row * (2 * (m - j)) := by
    intro j hj
    rw [tried_eq _ _ _ (Nat.mul_le_mul_left row (by omega)) hb, ← Nat.mul_sub]
    congr 1
    omega
  refine ⟨m - 1, ?_, ?_, ?_⟩
  · rw [ht _ (by omega), show m - (m - 1) = 1 by omega, Nat.mul_comm]
  · rw [Nat.mul_div_cancel _ hr]
    decide
  · intro j hj hpr
    rw [ht _ (by omega), Nat.mul_div_cancel_left _ hr] at hpr
    have := (Nat.prime_mul_iff.1 hpr)
    rcases this with ⟨_, h⟩ | ⟨_, h⟩
    · omega
    · exact absurd h (by decide)

/-- **C95** So with a CacheGrowthBytes of an odd number of rows every second epoch has a cache of 128 bytes. -/
theorem C95_cache_two_rows (d : Config) (ht : d.cacheSizes = none) (a b : Nat) (ha : d.cacheInitBytes.toNat = 64 * (2 * a))
    (hb : d.cacheGrowthBytes.toNat = 64 * (2 * b + 1)) (e : U64) (he : e.toNat % 2 = 1) (h2 : 1 ≤ a ∨ 1 ≤ b)
    (h64 : d.cacheInitBytes.toNat + d.cacheGrowthBytes.toNat * e.toNat < 2 ^ 64) (fuel : Nat) (hf : 2 ^ 63 < fuel) :
    cacheSize fuel d e = .ok 128 := by
  rw [C95_cacheSize d e 128 fuel hf, CacheSizeIs, ht]
  show IsFirst 64 _ 128
  obtain ⟨k, hk⟩ : ∃ k, e.toNat = 2 * k + 1 := ⟨e.toNat / 2, by omega⟩
  have hrow : d.cacheInitBytes.toNat + d.cacheGrowthBytes.toNat * e.toNat = 64 * (2 * (a + 2 * b * k + b + k) + 1) := by
    rw [ha, hb, hk]; ring
  rw [hrow] at h64 ⊢
  exact C95_two_rows 64 _ (by decide) (by rcases h2 with h | h <;> omega) h64

/-- **C95** And a formula that is four bytes or more off a whole number of rows never gives a size for which a cache can be generated. -/
theorem C95_cache_ragged (d : Config) (ht : d.cacheSizes = none) (e c : Nat) (h : 4 ≤ (d.cacheInitBytes.toNat + d.cacheGrowthBytes.toNat * e) % 64)
    (hc : CacheSizeIs d e c) : ¬ Whole c := by
  rw [CacheSizeIs, ht] at hc
  obtain ⟨k, rfl, _⟩ : IsFirst 64 _ c := hc
  rintro ⟨_, h2⟩
  obtain ⟨b, hb⟩ : ∃ b, b = d.cacheInitBytes.toNat + d.cacheGrowthBytes.toNat * e := ⟨_, rfl⟩
  rw [← hb] at h h2
  rw [tried] at h2
  omega

/-! ## The seed -/

/-- **C95** `SeedHash` panics exactly for SeedEpochLength = 0; otherwise it is keccak256 iterated on 32 zero bytes, with the number of times
kept in a signed number. -/
theorem C95_seedHash (P : Prims) (d : Config) (height : U64) :
    seedHash P d height = if d.seedEpochLength = 0 then .error (.panic .divZero)
      else .ok (Spec.Dag.seed P.keccak256 (iterations height.toNat d.seedEpochLength.toNat)) := by
  by_cases h0 : d.seedEpochLength = 0
  · rw [if_pos h0, seedHash]
    rw [h0, if_neg (show ¬ height < (0 : U64) from fun h => absurd (show height.toNat < 0 from h) (by omega)), udiv, if_pos rfl]
    rfl
  · rw [if_neg h0, seedHash_eq P d h0]
    refine congrArg (fun n => Except.ok (Spec.Dag.seed P.keccak256 n)) ?_
    rw [iterations, BitVec.toInt_eq_toNat_cond, BitVec.toNat_udiv]
    obtain ⟨q, hq⟩ : ∃ q, q = height.toNat / d.seedEpochLength.toNat := ⟨_, rfl⟩
    have hlt : q < 2 ^ 64 := hq ▸ lt_of_le_of_lt (Nat.div_le_self _ _) height.isLt
    rw [← hq]
    by_cases h : q < 2 ^ 63
    · rw [if_pos h, if_pos (by omega)]
      omega
    · rw [if_neg h, if_neg (by omega)]
      omega

/-! ## The cache -/

/-- **C95** `generateCache` into any array below 4 GiB: it returns exactly for a positive whole number of rows, with the published cache,
and panics for every other length. -/
theorem C95_generateCache (P : Prims) (rounds : Int) (seed : List Byte) (dest : List U32) (h32 : dest.length < 2 ^ 30) :
    generateCache P rounds dest seed =
      if 16 ≤ dest.length ∧ dest.length % 16 = 0 then .ok (Spec.Disk.cacheWords P.keccak512 (4 * dest.length) rounds.toNat seed)
      else .error (.panic .slice) := by
  by_cases h : 16 ≤ dest.length ∧ dest.length % 16 = 0
  · rw [if_pos h, Spec.Disk.cacheWords]
    rw [(generateCache_eq P seed rounds (dest.length / 16) (by omega) (by omega) dest (by omega)).1,
      show 4 * dest.length / 64 = dest.length / 16 by omega]
  · rw [if_neg h]
    by_cases h1 : dest.length < 16
    · exact generateCache_short P rounds dest seed h1
    · exact generateCache_ragged P rounds dest seed fun h2 => h ⟨by omega, h2⟩

section
variable (P : Prims) (d : Config) (e : U64)

/-- the cache of an epoch whose cache size is `c` -/
def cacheAt (c : Nat) : List U32 :=
  Spec.Disk.cacheWords P.keccak512 c d.cacheRounds.toNat
    (Spec.Dag.seed P.keccak256 (iterations ((e.toNat * d.epochLength.toNat + 1) % 2 ^ 64) d.seedEpochLength.toNat))

/-- the item of the dataset with that number -/
def itemWords (c k : Nat) : List U32 :=
  Spec.Ethash.words (Spec.Ethash.itemOf P.keccak512 (cacheAt P d e c) d.datasetParents.toNat (BitVec.ofNat 32 k))

/-- its L1 cache: the items that fit into L1CacheNumItems words, zeros in the remaining words -/
def l1At (c : Nat) : List U32 :=
  if d.l1Enabled then
    ((List.range (d.l1CacheNumItems.toNat / 16)).flatMap (itemWords P d e c)) ++ List.replicate (d.l1CacheNumItems.toNat % 16) 0
  else []

theorem cacheAt_length (c : Nat) (hw : Whole c) (h32 : c < 2 ^ 32) : (cacheAt P d e c).length = 16 * (c / 64) := by
  obtain ⟨h1, h2⟩ := hw
  rw [cacheAt, Spec.Disk.cacheWords]
  exact (generateCache_eq P _ d.cacheRounds (c / 64) (by omega) (by omega) (List.replicate (16 * (c / 64)) 0) (List.length_replicate ..)).2

theorem l1At_length (c : Nat) : (l1At P d e c).length = if d.l1Enabled then d.l1CacheNumItems.toNat else 0 := by
  rw [l1At]
  cases d.l1Enabled with
  | false => rfl
  | true =>
    rw [if_pos rfl, if_pos rfl, List.length_append, List.length_replicate,
      flatMap_length_const _ 16 (fun j => by rw [itemWords, words_eq, wordView_length, itemOf_length]) _, List.length_range]
    omega

variable (fuel : Nat) (hf : 2 ^ 63 < fuel) (fs : FS) (o : GenEnv) (hdir : d.storageDir = "")
include hf hdir

/-- **C95** For every configuration that keeps the caches in memory: the cache and the L1 cache of an epoch whose cache size is a positive
whole number of rows (up to three bytes more do not matter), … -/
theorem C95_generate (c : Nat) (hc : CacheSizeIs d e.toNat c) (hw : Whole c) (h32 : c < 2 ^ 32) (hs : d.seedEpochLength ≠ 0) :
    generate P fuel d e fs o = .ok (⟨cacheAt P d e c, l1At P d e c⟩, fs) := by
  have hlen := cacheAt_length P d e c hw h32
  obtain ⟨h1, h2⟩ := hw
  have hcn : (BitVec.ofNat 64 c).toNat = c := by rw [BitVec.toNat_ofNat]; omega
  have hgen : generateCache P d.cacheRounds (freshCache (BitVec.ofNat 64 c)) (Spec.Dag.seed P.keccak256
      (iterations ((e.toNat * d.epochLength.toNat + 1) % 2 ^ 64) d.seedEpochLength.toNat)) = .ok (cacheAt P d e c) := by
    have hl : (freshCache (BitVec.ofNat 64 c)).length = 16 * (c / 64) := by
      rw [freshCache, List.length_replicate, BitVec.toNat_udiv, hcn]
      show c / 4 = _
      omega
    rw [(generateCache_eq P _ d.cacheRounds (c / 64) (by omega) (by omega) _ hl).1]
    rfl
  rw [generate, (C95_cacheSize d e (BitVec.ofNat 64 c) fuel hf).2 (by rw [hcn]; exact hc), ok_bind, C95_seedHash, if_neg hs, ok_bind,
    if_pos hdir, generateInMemory, show (e * d.epochLength + 1).toNat = (e.toNat * d.epochLength.toNat + 1) % 2 ^ 64 by
      rw [BitVec.toNat_add, BitVec.toNat_mul]
      show (_ % _ + 1) % _ = _
      omega, hgen, ok_bind, l1At]
  cases d.l1Enabled with
  | false => rfl
  | true =>
    rw [if_pos rfl, if_pos rfl, memoryL1, generateL1Cache_all P d.datasetParents _ _ (by rw [hlen]; omega), List.length_replicate,
      List.drop_replicate]
    have he : (fun j => Spec.Ethash.words (Spec.Large.itemAt P.keccak512 (cacheAt P d e c) d.datasetParents.toNat (BitVec.ofNat 32 j))) =
        itemWords P d e c := by
      funext j
      rw [itemAt_eq P _ _ (by rw [hlen]; omega) (by rw [hlen]; omega)]
      rfl
    rw [he, show d.l1CacheNumItems.toNat - 16 * (d.l1CacheNumItems.toNat / 16) = d.l1CacheNumItems.toNat % 16 by omega]
    rfl

/-- **C95** … and it is generated for no other sizes (of less than 4 GiB), nor with SeedEpochLength = 0. -/
theorem C95_generate_iff (h32 : ∀ c, CacheSizeIs d e.toNat c → c < 2 ^ 32) :
    (∃ r, generate P fuel d e fs o = .ok r) ↔ d.seedEpochLength ≠ 0 ∧ ∃ c, CacheSizeIs d e.toNat c ∧ Whole c := by
  constructor
  · rintro ⟨r, h⟩
    rw [generate] at h
    obtain ⟨s, hs⟩ : ∃ s, cacheSize fuel d e = .ok s := by
      cases hcs : cacheSize fuel d e with
      | ok s => exact ⟨s, rfl⟩
      | error x => rw [hcs] at h; cases h
    rw [hs, ok_bind, C95_seedHash] at h
    by_cases h0 : d.seedEpochLength = 0
    · rw [if_pos h0] at h; cases h
    · have hsz := (C95_cacheSize d e s fuel hf).1 hs
      have hlt := h32 _ hsz
      have hl : (freshCache s).length = s.toNat / 4 := by
        rw [freshCache, List.length_replicate, BitVec.toNat_udiv]
        rfl
      refine ⟨h0, s.toNat, hsz, ?_⟩
      rw [if_neg h0, ok_bind, if_pos hdir, generateInMemory, C95_generateCache P _ _ _ (by omega), hl] at h
      by_cases hw : 16 ≤ s.toNat / 4 ∧ s.toNat / 4 % 16 = 0
      · exact ⟨by omega, by omega⟩
      · rw [if_neg hw] at h; cases h
  · rintro ⟨h0, c, hc, hw⟩
    exact ⟨_, C95_generate P d e fuel hf fs o hdir c hc hw (h32 c hc) h0⟩

end

/-! ## Compute -/

section
variable (P : Prims) (d : Config) (fuel : Nat) (hf : 2 ^ 63 < fuel) (fs : FS) (o : GenEnv) (hdir : d.storageDir = "") (hash : List Byte)
  (hh : hash.length = 32) (height nonce : U64)

/-- four items of the dataset -/
def pageWords (e : U64) (c k : Nat) : List U32 := (List.range 4).flatMap fun j => itemWords P d e c (4 * k + j)

theorem pageWords_length (e : U64) (c k : Nat) : (pageWords P d e c k).length = 64 := by
  rw [pageWords, flatMap_length_const _ 16 (fun j => by rw [itemWords, words_eq, wordView_length, itemOf_length]) _, List.length_range]

theorem page_lookup (e : U64) (c : Nat) (hw : Whole c) (h32 : c < 2 ^ 32) (k : Nat) :
    lookup2048 P d.datasetParents (cacheAt P d e c) (BitVec.ofNat 32 k) = .ok (pageWords P d e c k) := by
  have hlen := cacheAt_length P d e c hw h32
  have h64 := hw.1
  exact (C39_lookups P d.datasetParents _ (by omega) (by omega) k).2.2

/-- what `Compute` needs at a height, for an algorithm with pages of that many bytes -/
def Works (page : Nat) : Prop :=
  d.epochLength ≠ 0 ∧ d.seedEpochLength ≠ 0 ∧
  (∃ s, DatasetSizeIs d (height.toNat / d.epochLength.toNat) s ∧ s / page % 2 ^ 32 ≠ 0) ∧
  ∃ c, CacheSizeIs d (height.toNat / d.epochLength.toNat) c ∧ Whole c

/-- the caches are below 4 GiB (C92 is about the others) -/
def Small : Prop := ∀ c, CacheSizeIs d (height.toNat / d.epochLength.toNat) c → c < 2 ^ 32

theorem datasetSize_lt {e s : Nat} (h : DatasetSizeIs d e s) : s < 2 ^ 64 := by
  have first : ∀ r b s, IsFirst r b s → s < 2 ^ 64 := by
    rintro r b s ⟨k, rfl, _⟩
    rw [tried]
    omega
  rw [DatasetSizeIs] at h
  cases hd : d.datasetSizes with
  | none => rw [hd] at h; exact first _ _ _ h
  | some t =>
    rw [hd, show tableOf (some t) = some (t.maxEpoch.toNat, t.table.map (·.toNat)) from rfl] at h
    by_cases he : e < t.maxEpoch.toNat
    · simp only [IsSizeOf, if_pos he] at h
      obtain ⟨x, _, rfl⟩ := List.mem_map.1 (List.mem_of_getElem? h)
      exact x.isLt
    · simp only [IsSizeOf, if_neg he] at h
      exact first _ _ _ h

include hf hdir

theorem prepare_works (s c : Nat) (he : d.epochLength ≠ 0) (hse : d.seedEpochLength ≠ 0)
    (hs : DatasetSizeIs d (height.toNat / d.epochLength.toNat) s) (hc : CacheSizeIs d (height.toNat / d.epochLength.toNat) c) (hw : Whole c)
    (h32 : c < 2 ^ 32) : Clients.prepare fuel d (fun e => Prod.fst <$> generate P fuel d e fs o) height =
      .ok (BitVec.ofNat 64 s, ⟨cacheAt P d (height / d.epochLength) c, l1At P d (height / d.epochLength) c⟩) := by
  have hs64 := datasetSize_lt d hs
  have hen : (height / d.epochLength).toNat = height.toNat / d.epochLength.toNat := BitVec.toNat_udiv ..
  rw [← hen] at hs hc
  have hsn : (BitVec.ofNat 64 s).toNat = s := by rw [BitVec.toNat_ofNat]; omega
  rw [Clients.prepare, calcEpoch, udiv, if_neg he, ok_bind, (C95_datasetSize d _ (BitVec.ofNat 64 s) fuel hf).2 (by rw [hsn]; exact hs), ok_bind,
    C95_generate P d _ fuel hf fs o hdir c hc hw h32 hse]
  rfl

theorem prepare_only (h32 : Small d height) (r : U64 × Loaded)
    (h : Clients.prepare fuel d (fun e => Prod.fst <$> generate P fuel d e fs o) height = .ok r) :
    d.epochLength ≠ 0 ∧ d.seedEpochLength ≠ 0 ∧ ∃ s c, DatasetSizeIs d (height.toNat / d.epochLength.toNat) s ∧
      CacheSizeIs d (height.toNat / d.epochLength.toNat) c ∧ Whole c ∧
      r = (BitVec.ofNat 64 s, ⟨cacheAt P d (height / d.epochLength) c, l1At P d (height / d.epochLength) c⟩) := by
  have hen : (height / d.epochLength).toNat = height.toNat / d.epochLength.toNat := BitVec.toNat_udiv ..
  have h' := h
  rw [Clients.prepare, calcEpoch, udiv] at h
  by_cases he : d.epochLength = 0
  · rw [if_pos he] at h; cases h
  · rw [if_neg he, ok_bind] at h
    cases hd : datasetSize fuel d (height / d.epochLength) with
    | error x => rw [hd] at h; cases h
    | ok s =>
      rw [hd, ok_bind] at h
      have hs := (C95_datasetSize d _ s fuel hf).1 hd
      cases hg : generate P fuel d (height / d.epochLength) fs o with
      | error x => rw [hg] at h; cases h
      | ok l =>
        obtain ⟨h0, c, hc, hw⟩ := (C95_generate_iff P d _ fuel hf fs o hdir (by rw [hen]; exact h32)).1 ⟨l, hg⟩
        rw [hen] at hs hc
        refine ⟨he, h0, s.toNat, c, hs, hc, hw, ?_⟩
        rw [prepare_works P d fuel hf fs o hdir height s.toNat c he h0 hs hc hw (h32 c hc)] at h'
        exact (Except.ok.inj h').symm

include hh

/-- **C95** Ethash: what `Compute` returns, … -/
theorem C95_ethash (s c : Nat) (he : d.epochLength ≠ 0) (hse : d.seedEpochLength ≠ 0)
    (hs : DatasetSizeIs d (height.toNat / d.epochLength.toNat) s) (hp : s / 128 % 2 ^ 32 ≠ 0)
    (hc : CacheSizeIs d (height.toNat / d.epochLength.toNat) c) (hw : Whole c) (h32 : c < 2 ^ 32) :
    Clients.ethash P fuel d (fun e => Prod.fst <$> generate P fuel d e fs o) hash height nonce =
      .ok (some (Spec.Ethash.hashimoto P.keccak512 P.keccak256 (2 * (s / 128 % 2 ^ 32)) (itemWords P d (height / d.epochLength) c) hash nonce)) := by
  have hlen := cacheAt_length P d (height / d.epochLength) c hw h32
  have hsn : (BitVec.ofNat 64 s).toNat = s := by have := datasetSize_lt d hs; rw [BitVec.toNat_ofNat]; omega
  have h64 := hw.1
  rw [Clients.ethash, if_neg (by omega), prepare_works P d fuel hf fs o hdir height s c he hse hs hc hw h32, ok_bind]
  dsimp only
  rw [Ethash.hashimoto_all P hash hh nonce _ (by rw [hsn]; exact hp) _ (itemWords P d (height / d.epochLength) c) fun k _ =>
    ⟨(C39_lookups P d.datasetParents _ (by omega) (by omega) k).1, by rw [itemWords, words_eq, wordView_length, itemOf_length]⟩, hsn]
  rfl

/-- **C95** … and for which configurations and heights it returns anything. -/
theorem C95_ethash_iff (h32 : Small d height) :
    (∃ r, Clients.ethash P fuel d (fun e => Prod.fst <$> generate P fuel d e fs o) hash height nonce = .ok r) ↔ Works d height 128 := by
  constructor
  · rintro ⟨r, h⟩
    rw [Clients.ethash, if_neg (by omega)] at h
    cases hpr : Clients.prepare fuel d (fun e => Prod.fst <$> generate P fuel d e fs o) height with
    | error x => rw [hpr] at h; cases h
    | ok p =>
      obtain ⟨he, hse, s, c, hs, hc, hw, rfl⟩ := prepare_only P d fuel hf fs o hdir height h32 p hpr
      refine ⟨he, hse, ⟨s, hs, fun h0 => ?_⟩, c, hc, hw⟩
      have hsn : (BitVec.ofNat 64 s).toNat = s := by have := datasetSize_lt d hs; rw [BitVec.toNat_ofNat]; omega
      rw [hpr, ok_bind] at h
      dsimp only at h
      rw [Ethash.hashimoto_zero P hash hh nonce _ (by rw [hsn]; exact h0)] at h
      cases h
  · rintro ⟨he, hse, ⟨s, hs, hp⟩, c, hc, hw⟩
    exact ⟨_, C95_ethash P d fuel hf fs o hdir hash hh height nonce s c he hse hs hp hc hw (h32 c hc)⟩

/-- **C95** Octopus, likewise: … -/
theorem C95_octopus (s c : Nat) (he : d.epochLength ≠ 0) (hse : d.seedEpochLength ≠ 0)
    (hs : DatasetSizeIs d (height.toNat / d.epochLength.toNat) s) (hp : s / 256 % 2 ^ 32 ≠ 0)
    (hc : CacheSizeIs d (height.toNat / d.epochLength.toNat) c) (hw : Whole c) (h32 : c < 2 ^ 32) :
    ∃ x, Spec.Octopus.IsC (Spec.Octopus.generator (Spec.Octopus.word hash 0).toNat)
        (Spec.Octopus.generator (Spec.Octopus.word hash 1).toNat) (Spec.Octopus.word hash 2).toNat x ∧
      Clients.octopus P fuel d (fun e => Prod.fst <$> generate P fuel d e fs o) hash height nonce =
        .ok (some (Spec.Octopus.digest P.keccak512 P.keccak256 (s / 256 % 2 ^ 32) (itemWords P d (height / d.epochLength) c) hash nonce.toNat
          (Spec.Octopus.generator (Spec.Octopus.word hash 0).toNat) (Spec.Octopus.generator (Spec.Octopus.word hash 1).toNat) x
          (Spec.Octopus.generator (Spec.Octopus.word hash 3).toNat))) := by
  have hlen := cacheAt_length P d (height / d.epochLength) c hw h32
  have hsn : (BitVec.ofNat 64 s).toNat = s := by have := datasetSize_lt d hs; rw [BitVec.toNat_ofNat]; omega
  have h64 := hw.1
  obtain ⟨x, hx, e1⟩ := Octopus.octopus_all P fuel (by omega) hash hh nonce (BitVec.ofNat 64 s) (by rw [hsn]; exact hp)
    (lookup512 P d.datasetParents (cacheAt P d (height / d.epochLength) c)) (itemWords P d (height / d.epochLength) c) fun k _ =>
    ⟨(C39_lookups P d.datasetParents _ (by omega) (by omega) k).1, by rw [itemWords, words_eq, wordView_length, itemOf_length]⟩
  refine ⟨x, hx, ?_⟩
  rw [Clients.octopus, if_neg (by omega), prepare_works P d fuel hf fs o hdir height s c he hse hs hc hw h32, ok_bind]
  dsimp only
  rw [e1, hsn]
  rfl

theorem C95_octopus_iff (h32 : Small d height) :
    (∃ r, Clients.octopus P fuel d (fun e => Prod.fst <$> generate P fuel d e fs o) hash height nonce = .ok r) ↔ Works d height 256 := by
  constructor
  · rintro ⟨r, h⟩
    rw [Clients.octopus, if_neg (by omega)] at h
    cases hpr : Clients.prepare fuel d (fun e => Prod.fst <$> generate P fuel d e fs o) height with
    | error x => rw [hpr] at h; cases h
    | ok p =>
      obtain ⟨he, hse, s, c, hs, hc, hw, rfl⟩ := prepare_only P d fuel hf fs o hdir height h32 p hpr
      refine ⟨he, hse, ⟨s, hs, fun h0 => ?_⟩, c, hc, hw⟩
      have hsn : (BitVec.ofNat 64 s).toNat = s := by have := datasetSize_lt d hs; rw [BitVec.toNat_ofNat]; omega
      rw [hpr, ok_bind] at h
      dsimp only at h
      rw [Octopus.octopus_small P fuel (by omega) hash hh nonce _ (by rw [hsn]; exact h0)] at h
      cases h
  · rintro ⟨he, hse, ⟨s, hs, hp⟩, c, hc, hw⟩
    obtain ⟨x, _, h⟩ := C95_octopus P d fuel hf fs o hdir hash hh height nonce s c he hse hs hp hc hw (h32 c hc)
    exact ⟨_, h⟩

/-- **C95** KAWPOW needs an L1 cache of at least 4096 words as well. With one, `Compute` returns the published function over it; … -/
theorem C95_kawpow (s c : Nat) (he : d.epochLength ≠ 0) (hse : d.seedEpochLength ≠ 0)
    (hs : DatasetSizeIs d (height.toNat / d.epochLength.toNat) s) (hp : s / 256 % 2 ^ 32 ≠ 0)
    (hc : CacheSizeIs d (height.toNat / d.epochLength.toNat) c) (hw : Whole c) (h32 : c < 2 ^ 32) (hl : d.l1Enabled = true)
    (hn : 4096 ≤ d.l1CacheNumItems.toNat) :
    Clients.kawpow P fuel d (fun e => Prod.fst <$> generate P fuel d e fs o) hash height nonce =
      .ok (some (Spec.Progpow.full Spec.Progpow.kawpow hash height.toNat nonce.toNat (s / 256 % 2 ^ 32)
        (pageWords P d (height / d.epochLength) c) fun i => (l1At P d (height / d.epochLength) c).getD i 0)) := by
  have hsn : (BitVec.ofNat 64 s).toNat = s := by have := datasetSize_lt d hs; rw [BitVec.toNat_ofNat]; omega
  have hni : Progpow.numItems (BitVec.ofNat 64 s) = s / 256 % 2 ^ 32 := by rw [Progpow.numItems, hsn]
  rw [Clients.kawpow, if_neg (by omega), prepare_works P d fuel hf fs o hdir height s c he hse hs hc hw h32, ok_bind]
  dsimp only
  rw [Progpow.kawpow_ok hash (by omega) height nonce _ (by rw [hni]; omega) _ (pageWords P d (height / d.epochLength) c)
    (fun i _ => ⟨page_lookup P d _ c hw h32 i, pageWords_length ..⟩) _ (by rw [l1At_length, hl, if_pos rfl]; exact hn), hni]
  rfl

/-- **C95** … without any it panics at the first read from it, … -/
theorem C95_kawpow_noL1 (hw : Works d height 256) (h32 : Small d height) (hl : d.l1Enabled = false ∨ d.l1CacheNumItems = 0) :
    Clients.kawpow P fuel d (fun e => Prod.fst <$> generate P fuel d e fs o) hash height nonce = .error (.panic .index) := by
  obtain ⟨he, hse, ⟨s, hs, hp⟩, c, hc, hw⟩ := hw
  have hsn : (BitVec.ofNat 64 s).toNat = s := by have := datasetSize_lt d hs; rw [BitVec.toNat_ofNat]; omega
  have hl0 : l1At P d (height / d.epochLength) c = [] := by
    rw [← List.length_eq_zero_iff, l1At_length]
    rcases hl with h | h
    · rw [h]; rfl
    · rw [h]; exact ite_self _
  rw [Clients.kawpow, if_neg (by omega), prepare_works P d fuel hf fs o hdir height s c he hse hs hc hw (h32 c hc), ok_bind, hl0]
  dsimp only
  rw [Progpow.kawpow_noL1 hash (by omega) height nonce _ (by rw [Progpow.numItems, hsn]; exact hp) _
    (fun i => pageWords P d (height / d.epochLength) c i.toNat) fun i => by
      have := page_lookup P d (height / d.epochLength) c hw (h32 c hc) i.toNat
      rwa [BitVec.ofNat_toNat, BitVec.setWidth_eq] at this]
  rfl

/-- **C95** … and it never returns for other configurations and heights. -/
theorem C95_kawpow_only (h32 : Small d height)
    (h : ∃ r, Clients.kawpow P fuel d (fun e => Prod.fst <$> generate P fuel d e fs o) hash height nonce = .ok r) : Works d height 256 := by
  obtain ⟨r, h⟩ := h
  rw [Clients.kawpow, if_neg (by omega)] at h
  cases hpr : Clients.prepare fuel d (fun e => Prod.fst <$> generate P fuel d e fs o) height with
  | error x => rw [hpr] at h; cases h
  | ok p =>
    obtain ⟨he, hse, s, c, hs, hc, hw, rfl⟩ := prepare_only P d fuel hf fs o hdir height h32 p hpr
    refine ⟨he, hse, ⟨s, hs, fun h0 => ?_⟩, c, hc, hw⟩
    have hsn : (BitVec.ofNat 64 s).toNat = s := by have := datasetSize_lt d hs; rw [BitVec.toNat_ofNat]; omega
    rw [hpr, ok_bind] at h
    dsimp only at h
    rw [Progpow.kawpow_zero hash (by omega) height nonce _ (by rw [Progpow.numItems, hsn]; exact h0)] at h
    cases h

/-- **C95** FiroPoW needs an L1 cache of at least 4096 words as well. With one, `Compute` returns the published function over it; … -/
theorem C95_firopow (s c : Nat) (he : d.epochLength ≠ 0) (hse : d.seedEpochLength ≠ 0)
    (hs : DatasetSizeIs d (height.toNat / d.epochLength.toNat) s) (hp : s / 256 % 2 ^ 32 ≠ 0)
    (hc : CacheSizeIs d (height.toNat / d.epochLength.toNat) c) (hw : Whole c) (h32 : c < 2 ^ 32) (hl : d.l1Enabled = true)
    (hn : 4096 ≤ d.l1CacheNumItems.toNat) :
    Clients.firopow P fuel d (fun e => Prod.fst <$> generate P fuel d e fs o) hash height nonce =
      .ok (some (Spec.Progpow.full Spec.Progpow.firopow hash height.toNat nonce.toNat (s / 256 % 2 ^ 32)
        (pageWords P d (height / d.epochLength) c) fun i => (l1At P d (height / d.epochLength) c).getD i 0)) := by
  have hsn : (BitVec.ofNat 64 s).toNat = s := by have := datasetSize_lt d hs; rw [BitVec.toNat_ofNat]; omega
  have hni : Progpow.numItems (BitVec.ofNat 64 s) = s / 256 % 2 ^ 32 := by rw [Progpow.numItems, hsn]
  rw [Clients.firopow, if_neg (by omega), prepare_works P d fuel hf fs o hdir height s c he hse hs hc hw h32, ok_bind]
  dsimp only
  rw [Progpow.firopow_ok hash (by omega) height nonce _ (by rw [hni]; omega) _ (pageWords P d (height / d.epochLength) c)
    (fun i _ => ⟨page_lookup P d _ c hw h32 i, pageWords_length ..⟩) _ (by rw [l1At_length, hl, if_pos rfl]; exact hn), hni]
  rfl

/-- **C95** … without any it panics at the first read from it, … -/
theorem C95_firopow_noL1 (hw : Works d height 256) (h32 : Small d height) (hl : d.l1Enabled = false ∨ d.l1CacheNumItems = 0) :
    Clients.firopow P fuel d (fun e => Prod.fst <$> generate P fuel d e fs o) hash height nonce = .error (.panic .index) := by
  obtain ⟨he, hse, ⟨s, hs, hp⟩, c, hc, hw⟩ := hw
  have hsn : (BitVec.ofNat 64 s).toNat = s := by have := datasetSize_lt d hs; rw [BitVec.toNat_ofNat]; omega
  have hl0 : l1At P d (height / d.epochLength) c = [] := by
    rw [← List.length_eq_zero_iff, l1At_length]
    rcases hl with h | h
    · rw [h]; rfl
    · rw [h]; exact ite_self _
  rw [Clients.firopow, if_neg (by omega), prepare_works P d fuel hf fs o hdir height s c he hse hs hc hw (h32 c hc), ok_bind, hl0]
  dsimp only
  rw [Progpow.firopow_noL1 hash (by omega) height nonce _ (by rw [Progpow.numItems, hsn]; exact hp) _
    (fun i => pageWords P d (height / d.epochLength) c i.toNat) fun i => by
      have := page_lookup P d (height / d.epochLength) c hw (h32 c hc) i.toNat
      rwa [BitVec.ofNat_toNat, BitVec.setWidth_eq] at this]
  rfl

/-- **C95** … and it never returns for other configurations and heights. -/
theorem C95_firopow_only (h32 : Small d height)
    (h : ∃ r, Clients.firopow P fuel d (fun e => Prod.fst <$> generate P fuel d e fs o) hash height nonce = .ok r) : Works d height 256 := by
  obtain ⟨r, h⟩ := h
  rw [Clients.firopow, if_neg (by omega)] at h
  cases hpr : Clients.prepare fuel d (fun e => Prod.fst <$> generate P fuel d e fs o) height with
  | error x => rw [hpr] at h; cases h
  | ok p =>
    obtain ⟨he, hse, s, c, hs, hc, hw, rfl⟩ := prepare_only P d fuel hf fs o hdir height h32 p hpr
    refine ⟨he, hse, ⟨s, hs, fun h0 => ?_⟩, c, hc, hw⟩
    have hsn : (BitVec.ofNat 64 s).toNat = s := by have := datasetSize_lt d hs; rw [BitVec.toNat_ofNat]; omega
    rw [hpr, ok_bind] at h
    dsimp only at h
    rw [Progpow.firopow_zero hash (by omega) height nonce _ (by rw [Progpow.numItems, hsn]; exact h0)] at h
    cases h

end

/-! ## Configurations that meet the hypotheses -/

/-- a small configuration of one's own -/
def toy : Config :=
  { cacheInitBytes := 1024, cacheGrowthBytes := 128, datasetInitBytes := 4096, datasetGrowthBytes := 256, mixBytes := 128, datasetParents := 2,
    epochLength := 10, seedEpochLength := 10, cacheRounds := 3, cachesCount := 1, l1Enabled := true, l1CacheNumItems := 4096 }

theorem toy_cache : CacheSizeIs toy 0 832 := by
  refine show IsFirst 64 1024 832 from ⟨1, by decide, by decide, fun j hj => ?_⟩
  obtain rfl : j = 0 := by omega
  decide

theorem toy_dataset : DatasetSizeIs toy 0 3968 :=
  show IsFirst 128 4096 3968 from ⟨0, by decide, by decide, fun j hj => absurd hj (by omega)⟩

example : Works toy 5 128 ∧ Works toy 5 256 ∧ Small toy 5 ∧ toy.storageDir = "" ∧ toy.l1Enabled = true ∧ 4096 ≤ toy.l1CacheNumItems.toNat := by
  refine ⟨⟨by decide, by decide, ⟨3968, toy_dataset, by decide⟩, 832, toy_cache, by decide, by decide⟩,
    ⟨by decide, by decide, ⟨3968, toy_dataset, by decide⟩, 832, toy_cache, by decide, by decide⟩, fun c hc => ?_, rfl, rfl, by decide⟩
  rw [hc.unique toy_cache]
  decide

/-- an initial size that is not a whole number of rows: the size is 168, which is not whole -/
example : CacheSizeIs { toy with cacheInitBytes := 1000 } 0 168 ∧ ¬ Whole 168 := by
  refine ⟨show IsFirst 64 1000 168 from ⟨6, by decide, by decide, fun j hj => ?_⟩, fun h => absurd h.2 (by decide)⟩
  have : j = 0 ∨ j = 1 ∨ j = 2 ∨ j = 3 ∨ j = 4 ∨ j = 5 := by omega
  rcases this with rfl | rfl | rfl | rfl | rfl | rfl <;> decide

/-- a growth of one row: the cache of epoch 1 has 128 bytes, although the formula allows 1087 -/
example (fuel : Nat) (hf : 2 ^ 63 < fuel) : cacheSize fuel { toy with cacheGrowthBytes := 64 } 1 = .ok 128 :=
  C95_cache_two_rows _ rfl 8 0 (by decide) (by decide) 1 (by decide) (by decide) (by decide) fuel hf

end Verif.Props
