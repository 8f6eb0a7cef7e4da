import Verif.Model.Clients
import Verif.Spec.Compute
import Verif.Props.Disk
import Verif.Props.Hashimoto
import Verif.Props.Progpow
import Verif.Props.Octopus
import Verif.Model.Heavy
import Verif.Model.Autolykos
import Verif.Model.Beam
import Verif.Model.Cuckoo

/-! # `Compute` of the DAG-based clients: properties C61 and C64 -/

set_option autoImplicit false

namespace Verif.Props

open Go Dag Spec.Dag

attribute [local irreducible] Tables.ethashCacheSizes Tables.ethashDatasetSizes Tables.firopowDatasetSizes Tables.octopusCacheSizes
  Tables.octopusDatasetSizes

/-! ## C61: wrong lengths -/

/-- a computation after which only `pure (some …)` follows does not end with `none` -/
theorem bind_some_ne {α β : Type} (x : Go α) (f : α → β) : (x >>= fun r => (pure (some (f r)) : Go (Option β))) ≠ .ok none := by
  cases x with
  | error e => intro h; cases h
  | ok a => intro h; injection h with h; cases h

theorem bind_ne {α β : Type} (x : Go α) (f : α → Go (Option β)) (h : ∀ a, f a ≠ .ok none) : (x >>= f) ≠ .ok none := by
  cases x with
  | error e => intro h; cases h
  | ok a => exact h a

section
variable (P : Prims) (fuel : Nat) (d : Config) (getCache : U64 → Go Loaded) (hash : List Byte) (height nonce : U64)

/-- **C61** Whatever the configuration, the height and the cache, and even if the cache cannot be obtained: the error is returned exactly
when the hash does not have 32 bytes. -/
theorem C61_ethash : Clients.ethash P fuel d getCache hash height nonce = .ok none ↔ hash.length ≠ 32 := by
  rw [Clients.ethash]
  by_cases h : hash.length ≠ 32
  · rw [if_pos h]; exact ⟨fun _ => h, fun _ => rfl⟩
  · rw [if_neg h]; exact ⟨fun h' => absurd h' (bind_ne _ _ fun a => bind_some_ne _ id), fun h' => absurd h' h⟩

theorem C61_kawpow : Clients.kawpow P fuel d getCache hash height nonce = .ok none ↔ hash.length ≠ 32 := by
  rw [Clients.kawpow]
  by_cases h : hash.length ≠ 32
  · rw [if_pos h]; exact ⟨fun _ => h, fun _ => rfl⟩
  · rw [if_neg h]; exact ⟨fun h' => absurd h' (bind_ne _ _ fun a => bind_some_ne _ id), fun h' => absurd h' h⟩

theorem C61_firopow : Clients.firopow P fuel d getCache hash height nonce = .ok none ↔ hash.length ≠ 32 := by
  rw [Clients.firopow]
  by_cases h : hash.length ≠ 32
  · rw [if_pos h]; exact ⟨fun _ => h, fun _ => rfl⟩
  · rw [if_neg h]; exact ⟨fun h' => absurd h' (bind_ne _ _ fun a => bind_some_ne _ id), fun h' => absurd h' h⟩

theorem C61_octopus : Clients.octopus P fuel d getCache hash height nonce = .ok none ↔ hash.length ≠ 32 := by
  rw [Clients.octopus]
  by_cases h : hash.length ≠ 32
  · rw [if_pos h]; exact ⟨fun _ => h, fun _ => rfl⟩
  · rw [if_neg h]; exact ⟨fun h' => absurd h' (bind_ne _ _ fun a => bind_some_ne _ id), fun h' => absurd h' h⟩

end

/-- **C61** the same for Kaspa's heavyhash … -/
theorem C61_heavyhash {F : Type} (N : Heavy.Num F) (P : Prims) (fuel : Nat) (hash : List Byte) (timestamp nonce : U64) :
    Heavy.compute N P fuel hash timestamp nonce = .ok none ↔ hash.length ≠ 32 := by
  rw [Heavy.compute]
  by_cases h : hash.length ≠ 32
  · rw [if_pos h]; exact ⟨fun _ => h, fun _ => rfl⟩
  · rw [if_neg h]; exact ⟨fun h' => absurd h' (bind_some_ne _ id), fun h' => absurd h' h⟩

/-- **C61** BeamHash III rejects headers and solutions of the wrong length, the header first. -/
theorem C61_beam (P : Prims) (fuel : Nat) (c : Beam.Client) (header soln : List Byte) :
    (header.length ≠ 40 → c.verify P fuel header soln = .ok (false, some .headerLen)) ∧
    (header.length = 40 → soln.length ≠ 104 → c.verify P fuel header soln = .ok (false, some .solnLen)) ∧
    (header.length = 40 → soln.length = 104 → c.verify P fuel header soln = Beam.verify P fuel c.personal header soln) := by
  refine ⟨fun h => ?_, fun h h' => ?_, fun h h' => ?_⟩
  · rw [Beam.Client.verify, if_pos h]; rfl
  · rw [Beam.Client.verify, if_neg (not_not.mpr h), if_pos h']; rfl
  · rw [Beam.Client.verify, if_neg (not_not.mpr h), if_neg (not_not.mpr h')]

/-- **C61** Cuckoo Cycle rejects proofs of the wrong length, whatever the header. -/
theorem C61_cuckoo (P : Prims) (c : Cuckoo.Client) (fuel : Nat) (header : List Byte) (sols : List U64)
    (h : (sols.length : Int) ≠ c.proofSize) : Cuckoo.verify P c fuel header sols = .ok (false, some .wrongLength) := by
  rw [Cuckoo.verify, if_pos h]; rfl

/-- **C61** … and for Autolykos. -/
theorem C61_autolykos (P : Prims) (c : Autolykos.Client) (msg : List Byte) (height nonce : U64) :
    Autolykos.Client.compute P c msg height nonce = .ok none ↔ msg.length ≠ 32 := by
  rw [Autolykos.Client.compute]
  by_cases h : msg.length ≠ 32
  · rw [if_pos h]; exact ⟨fun _ => h, fun _ => rfl⟩
  · rw [if_neg h]; exact ⟨fun h' => absurd h' (bind_some_ne _ id), fun h' => absurd h' h⟩

/-! ## C64: from the height to the digest -/

/-- the epochs for which the sizes exist (C33, C34), the cache is below 4 GiB and the dataset below 256 GiB -/
def served (c : Spec.Chain) (e : Nat) : Prop :=
  usable c e ∧ (c.ticker = Spec.Chain.etc.ticker → e < 2045) ∧ c.dataInit + c.dataGrowth * e < 2 ^ 38

/-- the dataset parameters of the configurations -/
theorem datasetSize_client {dir : String} {d : Config} {c : Spec.Chain} (h : (d, c) ∈ clients dir) (e : U64) (he : served c e.toNat)
    (fuel : Nat) (hf : 2 ^ 63 < fuel) :
    ∃ s, datasetSize fuel d e = .ok s ∧ IsSize c.row (c.dataInit + c.dataGrowth * e.toNat) s.toNat := by
  obtain ⟨hu, hetc, hb⟩ := he
  simp only [clients, List.mem_cons, List.not_mem_nil, or_false, Prod.mk.injEq] at h
  rcases h with ⟨rfl, rfl⟩ | ⟨rfl, rfl⟩ | ⟨rfl, rfl⟩ | ⟨rfl, rfl⟩ | ⟨rfl, rfl⟩
  · exact C31_DatasetSize dir _ (by simp [shippedMix]) e hu.1 (lt_trans hb (by decide)) fuel hf
  · exact C34_etc_table dir e (hetc rfl) fuel
  · exact C31_DatasetSize dir _ (by simp [shippedMix]) e hu.1 (lt_trans hb (by decide)) fuel hf
  · exact C31_DatasetSize dir _ (by simp [shippedMix]) e hu.1 (lt_trans hb (by decide)) fuel hf
  · exact C31_DatasetSize dir _ (by simp [shippedMix]) e hu.1 (lt_trans hb (by decide)) fuel hf

/-- the tables end before epoch 2045 -/
theorem datasetSize_gap {dir : String} {d : Config} {c : Spec.Chain} (h : (d, c) ∈ clients dir) (e : U64) (h1 : 2045 ≤ e.toNat)
    (h2 : e.toNat < 2048) (fuel : Nat) (hf : 2 ^ 63 < fuel) : datasetSize fuel d e = .error (.panic .index) := by
  simp only [clients, List.mem_cons, List.not_mem_nil, or_false, Prod.mk.injEq] at h
  rcases h with ⟨rfl, rfl⟩ | ⟨rfl, rfl⟩ | ⟨rfl, rfl⟩ | ⟨rfl, rfl⟩ | ⟨rfl, rfl⟩
  · exact (C33_datasetSize_panics_iff dir _ (by simp [shippedMix]) e fuel hf).1.mpr ⟨h1, h2⟩
  · obtain ⟨hl, _⟩ := C32_tables Tables.ethashDatasetSizes 128 (2 ^ 30) (2 ^ 23) (by simp [tables])
    rw [datasetSize_in (t := table64 Tables.ethashDatasetSizes) rfl (by omega), idx_table_err _ e (by omega)]
  · exact (C33_datasetSize_panics_iff dir _ (by simp [shippedMix]) e fuel hf).1.mpr ⟨h1, h2⟩
  · exact (C33_datasetSize_panics_iff dir _ (by simp [shippedMix]) e fuel hf).1.mpr ⟨h1, h2⟩
  · exact (C33_datasetSize_panics_iff dir _ (by simp [shippedMix]) e fuel hf).1.mpr ⟨h1, h2⟩

/-- what `GetCache` is relied on for: the published cache and L1 cache of the epoch -/
def Provides (P : Prims) (c : Spec.Chain) (getCache : U64 → Go Loaded) (e : U64) : Prop :=
  ∃ w, Spec.IsCache P.keccak256 P.keccak512 c e.toNat w ∧ getCache e = .ok ⟨w, Spec.l1Of P.keccak512 c w⟩

/-- what `generate` gives in any sound directory is such a cache -/
theorem provides_generate (P : Prims) (dir : String) (d : Config) (c : Spec.Chain) (h : (d, c) ∈ clients dir) (e : U64)
    (he : usable c e.toNat) (fuel : Nat) (hf : 2 ^ 63 < fuel) (fs : FS) (hs : dir ≠ "" → Sound P.keccak256 P.keccak512 dir fs) (o : GenEnv) :
    Provides P c (fun e => Prod.fst <$> generate P fuel d e fs o) e := by
  obtain ⟨w, fs', h1, h2⟩ := C47_generate P dir d c h e he fuel hf fs hs o
  refine ⟨w, h1, ?_⟩
  show Prod.fst <$> generate P fuel d e fs o = _
  rw [h2]
  rfl

section
variable (P : Prims) {dir : String} {d : Config} {c : Spec.Chain} (h : (d, c) ∈ clients dir) (height : U64)
  (he : served c (height.toNat / c.epochLength)) (fuel : Nat) (hf : 2 ^ 63 < fuel) (getCache : U64 → Go Loaded)
  (hg : ∀ e : U64, e.toNat = height.toNat / c.epochLength → Provides P c getCache e)
include h he hf hg

/-- what precedes the hashing -/
theorem prepare_client : ∃ size w, Clients.prepare fuel d getCache height = .ok (size, ⟨w, Spec.l1Of P.keccak512 c w⟩) ∧
    Spec.At P.keccak256 P.keccak512 c height.toNat w size.toNat ∧ 256 ≤ size.toNat ∧ size.toNat < 2 ^ 38 ∧ 16 ≤ w.length ∧
    w.length ≤ 2 ^ 32 := by
  obtain ⟨h1, hm, hdir⟩ := clients_match dir d c h
  have hel : d.epochLength ≠ 0 := by
    intro h0
    have := hm.epochLength
    have := hm.epochLengthPos
    rw [h0] at *
    simp at *
    omega
  obtain ⟨e, he1⟩ : ∃ e, e = height / d.epochLength := ⟨_, rfl⟩
  have hen : e.toNat = height.toNat / c.epochLength := by rw [he1, BitVec.toNat_udiv, hm.epochLength]
  rw [← hen] at he
  obtain ⟨size, hs1, hs2⟩ := datasetSize_client h e he fuel hf
  obtain ⟨w, hw1, hw2⟩ := hg e hen
  refine ⟨size, w, ?_, ⟨by rw [← hen]; exact hw1, by rw [← hen]; exact hs2⟩, ?_, ?_, ?_⟩
  · rw [Clients.prepare, calcEpoch, udiv, if_neg hel, ok_bind, ← he1, hs1, ok_bind, hw2]
    rfl
  · obtain ⟨p, hp, hpp, _⟩ := hs2
    have hr : 128 ≤ c.row := by
      have := chains_of h
      simp only [chains, List.mem_cons, List.not_mem_nil, or_false] at this
      rcases this with rfl | rfl | rfl | rfl | rfl <;> decide
    have := Nat.mul_le_mul hr hpp.two_le
    omega
  · obtain ⟨p, hp, hpp, hb, _⟩ := hs2
    have := he.2.2
    omega
  · obtain ⟨s, ⟨p, hp, hpp, hb, _⟩, hw⟩ := hw1
    have hb2 := he.1.2
    have hr : d.cacheRounds.toNat = c.rounds := hm.rounds
    have hsz : (BitVec.ofNat 64 s).toNat = s := by rw [BitVec.toNat_ofNat]; exact Nat.mod_eq_of_lt (by omega)
    have := pubCache_length P d (BitVec.ofNat 64 s) (Spec.epochSeed P.keccak256 c e.toNat) p hpp.one_lt.le (by omega) (by rw [hsz, hp])
    rw [pubCache, hr, hsz, ← hw] at this
    have := hpp.two_le
    omega

variable (hash : List Byte) (hh : hash.length = 32) (nonce : U64)
include hh

/-- **C64** Ethash, with Ethereum's or Ethereum Classic's parameters -/
theorem C64_ethash_of : ∃ r, Clients.ethash P fuel d getCache hash height nonce = .ok (some r) ∧
    Spec.IsEthash P.keccak256 P.keccak512 c hash height.toNat nonce r := by
  obtain ⟨size, w, h1, h2, h3, h4, h5, h6⟩ := prepare_client P h height he fuel hf getCache hg
  have hp := (clients_match dir d c h).2.1.parents
  refine ⟨_, ?_, w, size.toNat, h2, rfl⟩
  rw [Clients.ethash, if_neg (by omega), h1, ok_bind]
  simp only
  rw [C22_light P d.datasetParents w h5 h6 hash hh nonce size (by omega) h4, hp]
  rfl

omit h he hf hg hh in
theorem serves_lookup2048 (w : List U32) (h5 : 16 ≤ w.length) (h6 : w.length ≤ 2 ^ 32) (hp : d.datasetParents.toNat = c.parents) (size : U64) :
    serves (lookup2048 P d.datasetParents w) size 64 (Spec.datasetRow P.keccak512 c w) := by
  intro i _
  constructor
  · have := (C39_lookups P d.datasetParents w h5 h6 i.toNat).2.2
    rw [BitVec.ofNat_toNat, BitVec.setWidth_eq, hp] at this
    exact this
  · rw [Spec.datasetRow, flatMap_length_const _ 16 (fun j => by rw [Spec.datasetItem, ← hp, words_eq, wordView_length, itemOf_length]) _,
      List.length_range]

omit he hf hg hh in
theorem l1Of_length (w : List U32) (hl : c.l1 ≠ 0) : (Spec.l1Of P.keccak512 c w).length = 4096 := by
  have : c.l1 = 16384 := by
    simp only [clients, List.mem_cons, List.not_mem_nil, or_false, Prod.mk.injEq] at h
    rcases h with ⟨rfl, rfl⟩ | ⟨rfl, rfl⟩ | ⟨rfl, rfl⟩ | ⟨rfl, rfl⟩ | ⟨rfl, rfl⟩ <;> first | rfl | exact absurd rfl hl
  have hp := (clients_match dir d c h).2.1.parents
  rw [Spec.l1Of, if_neg hl, Spec.Disk.l1Words, ← hp,
    flatMap_length_const _ 16 (fun j => by rw [words_eq, wordView_length, itemOf_length]) _, List.length_range, this]

/-- **C64** KAWPOW -/
theorem C64_kawpow_of (hl : c.l1 ≠ 0) : ∃ r, Clients.kawpow P fuel d getCache hash height nonce = .ok (some r) ∧
    Spec.IsProgpow P.keccak256 P.keccak512 Spec.Progpow.kawpow c hash height.toNat nonce.toNat r := by
  obtain ⟨size, w, h1, h2, h3, h4, h5, h6⟩ := prepare_client P h height he fuel hf getCache hg
  have hp := (clients_match dir d c h).2.1.parents
  refine ⟨_, ?_, w, size.toNat, h2, rfl⟩
  rw [Clients.kawpow, if_neg (by omega), h1, ok_bind]
  simp only
  rw [C63_kawpow hash hh height nonce size h3 (by omega) _ _ (serves_lookup2048 P w h5 h6 hp size) _ (l1Of_length P h w hl)]
  rfl

/-- **C64** FiroPoW -/
theorem C64_firopow_of (hl : c.l1 ≠ 0) : ∃ r, Clients.firopow P fuel d getCache hash height nonce = .ok (some r) ∧
    Spec.IsProgpow P.keccak256 P.keccak512 Spec.Progpow.firopow c hash height.toNat nonce.toNat r := by
  obtain ⟨size, w, h1, h2, h3, h4, h5, h6⟩ := prepare_client P h height he fuel hf getCache hg
  have hp := (clients_match dir d c h).2.1.parents
  refine ⟨_, ?_, w, size.toNat, h2, rfl⟩
  rw [Clients.firopow, if_neg (by omega), h1, ok_bind]
  simp only
  rw [C63_firopow hash hh height nonce size h3 (by omega) _ _ (serves_lookup2048 P w h5 h6 hp size) _ (l1Of_length P h w hl)]
  rfl

/-- **C64** Octopus -/
theorem C64_octopus_of : ∃ r, Clients.octopus P fuel d getCache hash height nonce = .ok (some r) ∧
    Spec.IsOctopus P.keccak256 P.keccak512 c hash height.toNat nonce.toNat r := by
  obtain ⟨size, w, h1, h2, h3, h4, h5, h6⟩ := prepare_client P h height he fuel hf getCache hg
  have hp := (clients_match dir d c h).2.1.parents
  obtain ⟨x, hx, e1⟩ := C21_light P d.datasetParents w h5 h6 fuel (by omega) hash hh nonce size h3 h4
  refine ⟨_, ?_, w, size.toNat, x, h2, hx, rfl⟩
  rw [Clients.octopus, if_neg (by omega), h1, ok_bind]
  simp only
  rw [e1, hp]
  rfl

end

/-! With `GetCache` giving what `generate` gives (from memory, or from any directory whose files are absent or right, whatever system calls
fail), `Compute` of each client is the published function of its chain. -/

section
variable (P : Prims) (dir : String) (height : U64) (fuel : Nat) (hf : 2 ^ 63 < fuel) (fs : FS)
  (hs : dir ≠ "" → Sound P.keccak256 P.keccak512 dir fs) (o : GenEnv) (hash : List Byte) (hh : hash.length = 32) (nonce : U64)
include hf hs hh

theorem C64_ethereum (he : served .eth (height.toNat / 30000)) :
    ∃ r, Clients.ethash P fuel (ethereum dir) (fun e => Prod.fst <$> generate P fuel (ethereum dir) e fs o) hash height nonce =
      .ok (some r) ∧ Spec.IsEthash P.keccak256 P.keccak512 .eth hash height.toNat nonce r :=
  have h : (ethereum dir, Spec.Chain.eth) ∈ clients dir := by simp [clients]
  C64_ethash_of P h height he fuel hf _ (fun e hen => provides_generate P dir _ _ h e (hen ▸ he.1) fuel hf fs hs o) hash hh nonce

theorem C64_ethereumClassic (he : served .etc (height.toNat / 60000)) :
    ∃ r, Clients.ethash P fuel (ethereumClassic dir) (fun e => Prod.fst <$> generate P fuel (ethereumClassic dir) e fs o) hash height nonce =
      .ok (some r) ∧ Spec.IsEthash P.keccak256 P.keccak512 .etc hash height.toNat nonce r :=
  have h : (ethereumClassic dir, Spec.Chain.etc) ∈ clients dir := by simp [clients]
  C64_ethash_of P h height he fuel hf _ (fun e hen => provides_generate P dir _ _ h e (hen ▸ he.1) fuel hf fs hs o) hash hh nonce

theorem C64_ravencoin (he : served .rvn (height.toNat / 7500)) :
    ∃ r, Clients.kawpow P fuel (ravencoin dir) (fun e => Prod.fst <$> generate P fuel (ravencoin dir) e fs o) hash height nonce =
      .ok (some r) ∧ Spec.IsProgpow P.keccak256 P.keccak512 Spec.Progpow.kawpow .rvn hash height.toNat nonce.toNat r :=
  have h : (ravencoin dir, Spec.Chain.rvn) ∈ clients dir := by simp [clients]
  C64_kawpow_of P h height he fuel hf _ (fun e hen => provides_generate P dir _ _ h e (hen ▸ he.1) fuel hf fs hs o) hash hh nonce (by decide)

theorem C64_firo (he : served .firo (height.toNat / 1300)) :
    ∃ r, Clients.firopow P fuel (firo dir) (fun e => Prod.fst <$> generate P fuel (firo dir) e fs o) hash height nonce =
      .ok (some r) ∧ Spec.IsProgpow P.keccak256 P.keccak512 Spec.Progpow.firopow .firo hash height.toNat nonce.toNat r :=
  have h : (firo dir, Spec.Chain.firo) ∈ clients dir := by simp [clients]
  C64_firopow_of P h height he fuel hf _ (fun e hen => provides_generate P dir _ _ h e (hen ▸ he.1) fuel hf fs hs o) hash hh nonce (by decide)

theorem C64_conflux (he : served .cfx (height.toNat / 524288)) :
    ∃ r, Clients.octopus P fuel (conflux dir) (fun e => Prod.fst <$> generate P fuel (conflux dir) e fs o) hash height nonce =
      .ok (some r) ∧ Spec.IsOctopus P.keccak256 P.keccak512 .cfx hash height.toNat nonce.toNat r :=
  have h : (conflux dir, Spec.Chain.cfx) ∈ clients dir := by simp [clients]
  C64_octopus_of P h height he fuel hf _ (fun e hen => provides_generate P dir _ _ h e (hen ▸ he.1) fuel hf fs hs o) hash hh nonce

end

/-- heights for which the hypotheses hold -/
example : served .eth (15537393 / 30000) ∧ served .etc (19000000 / 60000) ∧ served .rvn (3500000 / 7500) ∧ served .firo (900000 / 1300) ∧
    served .cfx (100000000 / 524288) := by
  refine ⟨⟨⟨Or.inl ?_, ?_⟩, ?_, ?_⟩, ⟨⟨Or.inl ?_, ?_⟩, ?_, ?_⟩, ⟨⟨Or.inl ?_, ?_⟩, ?_, ?_⟩, ⟨⟨Or.inl ?_, ?_⟩, ?_, ?_⟩, ⟨⟨Or.inl ?_, ?_⟩, ?_, ?_⟩⟩ <;>
    decide

/-- **C64** The published functions are functions: there is only one result for a chain, hash, height and nonce. -/
theorem C64_unique (H256 H512 : Spec.Bytes → Spec.Bytes) (c : Spec.Chain) (hash : Spec.Bytes) (height : Nat) :
    (∀ nonce r r', Spec.IsEthash H256 H512 c hash height nonce r → Spec.IsEthash H256 H512 c hash height nonce r' → r = r') ∧
    (∀ v nonce r r', Spec.IsProgpow H256 H512 v c hash height nonce r → Spec.IsProgpow H256 H512 v c hash height nonce r' → r = r') ∧
    (∀ nonce r r', Spec.IsOctopus H256 H512 c hash height nonce r → Spec.IsOctopus H256 H512 c hash height nonce r' → r = r') := by
  refine ⟨?_, ?_, ?_⟩
  · rintro nonce r r' ⟨w, s, h, rfl⟩ ⟨w', s', h', rfl⟩
    obtain ⟨rfl, rfl⟩ := h.unique h'
    rfl
  · rintro v nonce r r' ⟨w, s, h, rfl⟩ ⟨w', s', h', rfl⟩
    obtain ⟨rfl, rfl⟩ := h.unique h'
    rfl
  · rintro nonce r r' ⟨w, s, x, h, hx, rfl⟩ ⟨w', s', x', h', hx', rfl⟩
    obtain ⟨rfl, rfl⟩ := h.unique h'
    rw [C20_c_unique _ _ _ _ _ hx hx']

/-- **C64** At the heights of the epochs 2045 to 2047 every client panics, and so does Ethereum Classic's from epoch 2048 on. -/
theorem C64_panics (P : Prims) (fuel : Nat) (hf : 2 ^ 63 < fuel) (dir : String) (getCache : U64 → Go Loaded) (hash : List Byte)
    (hh : hash.length = 32) (height nonce : U64) :
    (∀ d c, (d, c) ∈ clients dir → 2045 ≤ height.toNat / c.epochLength → height.toNat / c.epochLength < 2048 →
      Clients.ethash P fuel d getCache hash height nonce = .error (.panic .index) ∧
      Clients.kawpow P fuel d getCache hash height nonce = .error (.panic .index) ∧
      Clients.firopow P fuel d getCache hash height nonce = .error (.panic .index) ∧
      Clients.octopus P fuel d getCache hash height nonce = .error (.panic .index)) ∧
    (2048 ≤ height.toNat / 60000 →
      Clients.ethash P fuel (ethereumClassic dir) getCache hash height nonce = .error (.panic .divZero)) := by
  have hce : ∀ d c, (d, c) ∈ clients dir → ∃ e, calcEpoch d height = .ok e ∧ e.toNat = height.toNat / c.epochLength := by
    intro d c h
    obtain ⟨h1, hm, hdir⟩ := clients_match dir d c h
    refine ⟨height / d.epochLength, ?_, by rw [BitVec.toNat_udiv, hm.epochLength]⟩
    rw [calcEpoch, udiv, if_neg]
    intro h0
    have h1 := hm.epochLength
    have h2 := hm.epochLengthPos
    rw [h0] at h1
    simp at h1
    omega
  constructor
  · intro d c h h1 h2
    obtain ⟨e, he, hen⟩ := hce d c h
    rw [← hen] at h1 h2
    have hp : Clients.prepare fuel d getCache height = .error (.panic .index) := by
      rw [Clients.prepare, he, ok_bind, datasetSize_gap h e h1 h2 fuel hf]
      rfl
    refine ⟨?_, ?_, ?_, ?_⟩
    · rw [Clients.ethash, if_neg (by omega), hp]; rfl
    · rw [Clients.kawpow, if_neg (by omega), hp]; rfl
    · rw [Clients.firopow, if_neg (by omega), hp]; rfl
    · rw [Clients.octopus, if_neg (by omega), hp]; rfl
  · intro h1
    obtain ⟨e, he, hen⟩ := hce (ethereumClassic dir) .etc (by simp [clients])
    have h2 : 2048 ≤ e.toNat := by rw [hen]; exact h1
    rw [Clients.ethash, if_neg (by omega), Clients.prepare, he, ok_bind, C34_etc_panics dir e h2 fuel (by omega)]
    rfl

end Verif.Props
