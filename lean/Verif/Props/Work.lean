import Verif.Proof.WorkHashes
import Mathlib.Data.Finset.Card
import Mathlib.Data.Finset.Range
import Verif.Model.Configs
import Verif.Props.Equihash

/-! # How much a verifier has to look at: property C87

The bounds hold for every height, nonce and header, whatever the size of the dataset. They count evaluations of the external hash functions
(`evaluate`), words of a cache of given length (`word`) and dataset items (`item`). -/

set_option autoImplicit false

namespace Verif.Props

open Go Spec Proof

attribute [local irreducible] Tables.ethashCacheSizes Tables.ethashDatasetSizes Tables.firopowDatasetSizes Tables.octopusCacheSizes
  Tables.octopusDatasetSizes

/-! ## The algorithms without a dataset -/

/-- **C87.** Autolykos: the header, the first element, the seed of the indices, `k` elements and the result. -/
theorem C87_autolykos (c : Autolykos.Client) (msg : List Byte) (height nonce : U64) :
    DeterminedBy evaluate (c.k.toNat + 4) (fun P => c.compute P msg height nonce) := Work.autolykos_client c msg height nonce

/-- **C87.** HeavyHash: two evaluations, whatever the number of matrices that are generated. -/
theorem C87_heavy {F : Type} (N : Heavy.Num F) (fuel : Nat) (hash : List Byte) (timestamp nonce : U64) :
    DeterminedBy evaluate 2 (fun P => Heavy.compute N P fuel hash timestamp nonce) := Work.heavy_compute N fuel hash timestamp nonce

/-- **C87.** Cuckoo cycle: the header is hashed once. -/
theorem C87_cuckoo (c : Cuckoo.Client) (fuel : Nat) (header : List Byte) (sols : List U64) :
    DeterminedBy evaluate 1 (fun P => Cuckoo.verify P c fuel header sols) := Work.cuckoo c fuel header sols

/-- **C87.** BeamHash III: the header and the nonce are hashed once. -/
theorem C87_beam (c : Beam.Client) (fuel : Nat) (header soln : List Byte) :
    DeterminedBy evaluate 1 (fun P => c.verify P fuel header soln) := Work.beam fuel c header soln

/-- **C87.** Equihash: one evaluation for every index of the solution, with the twist at most 16. -/
theorem C87_equihash (c : Equihash.Client) (h : (eqParams c).WF) (header soln : List Byte) (fuel : Nat) :
    DeterminedBy evaluate (2 ^ c.k.toNat * (if c.twist then 16 else 1)) (fun P => c.verify P fuel header soln) :=
  Work.equihash h fuel header soln

/-! ## The algorithms with a dataset -/

/-- **C87.** The functions of the dataset: Ethash and Octopus read 128 items of it, ProgPoW one in each round. -/
theorem C87_items (P : Prims) (fuel : Nat) (hash : List Byte) (height nonce seed size : U64) (cfg : Progpow.Config) (l1 : List U32) :
    DeterminedBy item 128 (fun lookup => Ethash.hashimoto P hash nonce size lookup) ∧
    DeterminedBy item 128 (fun lookup => Octopus.octopus P fuel hash nonce size lookup) ∧
    DeterminedBy item cfg.roundCount (fun lookup => Progpow.hash cfg height seed size lookup l1) :=
  ⟨Work.hashimoto_items P hash nonce size, Work.octopus_items P fuel hash nonce size, Work.progpow_items cfg height seed size l1⟩

/-- **C87.** An item of `size` hashes takes `2 * size` evaluations, and `16 * (parents + 1)` words of the cache for each of the hashes. -/
theorem C87_item (P : Prims) (parents index size : U32) (cache : List U32) (n : Nat) :
    DeterminedBy evaluate (size.toNat * 2) (fun P => Dag.generateDatasetItemUint P parents cache index size) ∧
    DeterminedBy word (size.toNat * (16 * (parents.toNat + 1))) (fun c : Sized n => Dag.generateDatasetItemUint P parents c.1 index size) :=
  ⟨Work.itemUint_evals parents cache index size, Work.itemUint_words P parents index size⟩

/-- what `Compute` does after the length of the hash has been checked -/
theorem after_prepare {O ι β α : Type} {ask : O → ι → β} {n : Nat} (fuel : Nat) (d : Dag.Config) (getCache : U64 → Go Dag.Loaded)
    (hash : List Byte) (height : U64) (f : O → U64 → Dag.Loaded → Go α) (h : ∀ size cache, DeterminedBy ask n (fun o => f o size cache)) :
    DeterminedBy ask n (fun o => (if hash.length ≠ 32 then pure none
      else do
        let (size, cache) ← Clients.prepare fuel d getCache height
        let r ← f o size cache
        pure (some r) : Go (Option α))) := by
  refine Work.cond' (Work.mono (Work.const _) (Nat.zero_le _)) ?_
  refine Work.mono (n := 0 + (n + 0)) (Work.bind (Work.const _) fun p => ?_) (by omega)
  obtain ⟨size, cache⟩ := p
  exact Work.bind (h size cache) fun _ => Work.const _

/-- **C87.** `Compute` of the Ethash client: 258 evaluations. -/
theorem C87_ethash (fuel : Nat) (d : Dag.Config) (getCache : U64 → Go Dag.Loaded) (hash : List Byte) (height nonce : U64) :
    DeterminedBy evaluate 258 (fun P => Clients.ethash P fuel d getCache hash height nonce) :=
  after_prepare fuel d getCache hash height (fun P size cache => Ethash.hashimoto P hash nonce size (Dag.lookup512 P d.datasetParents cache.cache))
    fun size cache => Work.hashimoto_evals _ 2 (fun i => Work.itemUint_evals d.datasetParents cache.cache i 1) hash nonce size

/-- **C87.** … of the Octopus client: 258 evaluations. -/
theorem C87_octopus (fuel : Nat) (d : Dag.Config) (getCache : U64 → Go Dag.Loaded) (hash : List Byte) (height nonce : U64) :
    DeterminedBy evaluate 258 (fun P => Clients.octopus P fuel d getCache hash height nonce) :=
  after_prepare fuel d getCache hash height
    (fun P size cache => Octopus.octopus P fuel hash nonce size (Dag.lookup512 P d.datasetParents cache.cache))
    fun size cache => Work.octopus_evals _ 2 (fun i => Work.itemUint_evals d.datasetParents cache.cache i 1) fuel hash nonce size

/-- **C87.** … of the KawPow client: 512 evaluations. -/
theorem C87_kawpow (fuel : Nat) (d : Dag.Config) (getCache : U64 → Go Dag.Loaded) (hash : List Byte) (height nonce : U64) :
    DeterminedBy evaluate 512 (fun P => Clients.kawpow P fuel d getCache hash height nonce) := by
  refine after_prepare fuel d getCache hash height
    (fun P size cache => Progpow.kawpow hash height nonce size (Dag.lookup2048 P d.datasetParents cache.cache) cache.l1) fun size cache => ?_
  exact Work.comp (n := 64) (m := 8) (g := fun P => Dag.lookup2048 P d.datasetParents cache.cache)
    (Work.kawpow_items hash height nonce size cache.l1) fun i => Work.itemUint_evals d.datasetParents cache.cache i 4

/-- **C87.** … of the FiroPow client: 512 evaluations. -/
theorem C87_firopow (fuel : Nat) (d : Dag.Config) (getCache : U64 → Go Dag.Loaded) (hash : List Byte) (height nonce : U64) :
    DeterminedBy evaluate 512 (fun P => Clients.firopow P fuel d getCache hash height nonce) := by
  refine after_prepare fuel d getCache hash height
    (fun P size cache => Progpow.firopow hash height nonce size (Dag.lookup2048 P d.datasetParents cache.cache) cache.l1) fun size cache => ?_
  exact Work.comp (n := 64) (m := 8) (g := fun P => Dag.lookup2048 P d.datasetParents cache.cache)
    (Work.firopow_items hash height nonce size cache.l1) fun i => Work.itemUint_evals d.datasetParents cache.cache i 4

/-! ## Words of the caches -/

/-- the cache manager that hands out `cache` and `l1` -/
def handing (cache l1 : List U32) : U64 → Go Dag.Loaded := fun _ => .ok ⟨cache, l1⟩

/-- `Compute` as a function of what the manager hands out -/
theorem after_handing {O ι β α : Type} {ask : O → ι → β} {n : Nat} (fuel : Nat) (d : Dag.Config) (cache l1 : O → List U32)
    (hash : List Byte) (height : U64) (f : U64 → Dag.Loaded → Go α) (h : ∀ size, DeterminedBy ask n (fun o => f size ⟨cache o, l1 o⟩)) :
    DeterminedBy ask n (fun o => (if hash.length ≠ 32 then pure none
      else do
        let (size, cache) ← Clients.prepare fuel d (handing (cache o) (l1 o)) height
        let r ← f size cache
        pure (some r) : Go (Option α))) := by
  refine Work.cond' (Work.mono (Work.const _) (Nat.zero_le _)) ?_
  have e : ∀ o, (do
      let (size, cache) ← Clients.prepare fuel d (handing (cache o) (l1 o)) height
      let r ← f size cache
      pure (some r) : Go (Option α)) = (do
      let epoch ← Dag.calcEpoch d height
      let size ← Dag.datasetSize fuel d epoch
      let r ← f size ⟨cache o, l1 o⟩
      pure (some r)) := fun o => by
    unfold Clients.prepare handing
    cases Dag.calcEpoch d height with
    | error e => rfl
    | ok epoch =>
      show ((Dag.datasetSize fuel d epoch >>= _) >>= _) = (Dag.datasetSize fuel d epoch >>= _)
      cases Dag.datasetSize fuel d epoch <;> rfl
  simp only [e]
  refine Work.mono (n := 0 + (0 + (n + 0))) ?_ (by omega)
  exact Work.bind (Work.const _) fun _ => Work.bind (Work.const _) fun size => Work.bind (h size) fun _ => Work.const _

/-- **C87.** The words of the cache that `Compute` of the Ethash client reads: 16 rows and 16 for each parent, of 128 items. -/
theorem C87_ethash_words (P : Prims) (fuel : Nat) (d : Dag.Config) (l1 : List U32) (hash : List Byte) (height nonce : U64) (n : Nat) :
    DeterminedBy word (128 * (16 * (d.datasetParents.toNat + 1))) (fun c : Sized n => Clients.ethash P fuel d (handing c.1 l1) hash height nonce) := by
  refine after_handing fuel d (fun c : Sized n => c.1) (fun _ => l1) hash height
    (fun size cache => Ethash.hashimoto P hash nonce size (Dag.lookup512 P d.datasetParents cache.cache)) fun size => ?_
  refine Work.mono (Work.comp (g := fun c : Sized n => Dag.lookup512 P d.datasetParents c.1) (Work.hashimoto_items P hash nonce size)
    fun i => Work.itemUint_words P d.datasetParents i 1) ?_
  rw [show (1 : U32).toNat = 1 from rfl, Nat.one_mul]

/-- **C87.** … of the Octopus client. -/
theorem C87_octopus_words (P : Prims) (fuel : Nat) (d : Dag.Config) (l1 : List U32) (hash : List Byte) (height nonce : U64) (n : Nat) :
    DeterminedBy word (128 * (16 * (d.datasetParents.toNat + 1))) (fun c : Sized n => Clients.octopus P fuel d (handing c.1 l1) hash height nonce) := by
  refine after_handing fuel d (fun c : Sized n => c.1) (fun _ => l1) hash height
    (fun size cache => Octopus.octopus P fuel hash nonce size (Dag.lookup512 P d.datasetParents cache.cache)) fun size => ?_
  refine Work.mono (Work.comp (g := fun c : Sized n => Dag.lookup512 P d.datasetParents c.1) (Work.octopus_items P fuel hash nonce size)
    fun i => Work.itemUint_words P d.datasetParents i 1) ?_
  rw [show (1 : U32).toNat = 1 from rfl, Nat.one_mul]

/-- **C87.** … of the KawPow and FiroPow clients: 64 items of four hashes. -/
theorem C87_progpow_words (P : Prims) (fuel : Nat) (d : Dag.Config) (l1 : List U32) (hash : List Byte) (height nonce : U64) (n : Nat) :
    DeterminedBy word (256 * (16 * (d.datasetParents.toNat + 1))) (fun c : Sized n => Clients.kawpow P fuel d (handing c.1 l1) hash height nonce) ∧
    DeterminedBy word (256 * (16 * (d.datasetParents.toNat + 1))) (fun c : Sized n => Clients.firopow P fuel d (handing c.1 l1) hash height nonce) := by
  have hm : 64 * ((4 : U32).toNat * (16 * (d.datasetParents.toNat + 1))) ≤ 256 * (16 * (d.datasetParents.toNat + 1)) := by
    rw [show (4 : U32).toNat = 4 from rfl]
    omega
  constructor
  · refine after_handing fuel d (fun c : Sized n => c.1) (fun _ => l1) hash height
      (fun size cache => Progpow.kawpow hash height nonce size (Dag.lookup2048 P d.datasetParents cache.cache) cache.l1) fun size => ?_
    exact Work.mono (Work.comp (g := fun c : Sized n => Dag.lookup2048 P d.datasetParents c.1)
      (Work.kawpow_items hash height nonce size l1) fun i => Work.itemUint_words P d.datasetParents i 4) hm
  · refine after_handing fuel d (fun c : Sized n => c.1) (fun _ => l1) hash height
      (fun size cache => Progpow.firopow hash height nonce size (Dag.lookup2048 P d.datasetParents cache.cache) cache.l1) fun size => ?_
    exact Work.mono (Work.comp (g := fun c : Sized n => Dag.lookup2048 P d.datasetParents c.1)
      (Work.firopow_items hash height nonce size l1) fun i => Work.itemUint_words P d.datasetParents i 4) hm

/-- **C87.** … and 11264 words of the L1 cache: 11 for each of 16 lanes in 64 rounds. -/
theorem C87_l1_words (P : Prims) (fuel : Nat) (d : Dag.Config) (cache : List U32) (hash : List Byte) (height nonce : U64) (n : Nat) :
    DeterminedBy word 11264 (fun l1 : Sized n => Clients.kawpow P fuel d (handing cache l1.1) hash height nonce) ∧
    DeterminedBy word 11264 (fun l1 : Sized n => Clients.firopow P fuel d (handing cache l1.1) hash height nonce) := by
  constructor
  · refine after_handing fuel d (fun _ => cache) (fun l1 : Sized n => l1.1) hash height
      (fun size cache => Progpow.kawpow hash height nonce size (Dag.lookup2048 P d.datasetParents cache.cache) cache.l1) fun size => ?_
    exact Work.kawpow_words hash height nonce size (Dag.lookup2048 P d.datasetParents cache)
  · refine after_handing fuel d (fun _ => cache) (fun l1 : Sized n => l1.1) hash height
      (fun size cache => Progpow.firopow hash height nonce size (Dag.lookup2048 P d.datasetParents cache.cache) cache.l1) fun size => ?_
    exact Work.firopow_words hash height nonce size (Dag.lookup2048 P d.datasetParents cache)

/-! ## Making the caches -/

/-- **C87.** The seed of a height takes one evaluation for every epoch before it. -/
theorem C87_seed (d : Dag.Config) (height : U64) :
    DeterminedBy evaluate (height.toNat / d.seedEpochLength.toNat) (fun P => Dag.seedHash P d height) := Work.seedHash_evals d height

/-- **C87.** A cache of `m` rows takes `m * (rounds + 1)` evaluations, an L1 cache of `m` rows `2 * m`. -/
theorem C87_cache (rounds : Int) (parents : U32) (dest cache : List U32) (seed : List Byte) (m : Nat) (hm : 1 ≤ m) (hd : dest.length = 16 * m) :
    DeterminedBy evaluate (m * (rounds.toNat + 1)) (fun P => Dag.generateCache P rounds dest seed) ∧
    DeterminedBy evaluate (m * 2) (fun P => Dag.generateL1Cache P parents dest cache) := by
  refine ⟨Work.mono (Work.generateCache_evals rounds dest seed) ?_, Work.mono (Work.generateL1Cache_evals parents dest cache) ?_⟩
  · rw [hd, show (4 * (16 * m) + 63) / 64 = m by omega, show 4 * (16 * m) / 64 = m by omega, Nat.mul_comm rounds.toNat, Nat.mul_succ]
    omega
  · rw [hd, show 4 * (16 * m) / 64 = m by omega]

/-! ## What is not looked at -/

theorem exists_not_mem (n : Nat) (l : List Nat) (h : l.length < n) : ∃ i < n, i ∉ l := by
  by_contra hc
  have hs : Finset.range n ⊆ l.toFinset := fun i hi => by
    rw [List.mem_toFinset]
    by_contra hn
    exact hc ⟨i, Finset.mem_range.mp hi, hn⟩
  have := Finset.card_le_card hs
  rw [Finset.card_range] at this
  have := List.toFinset_card_le l
  omega

/-- **C87.** A cache larger than what is read has words that do not matter: whatever the header, some word of the cache can be replaced by any other
without a change of the result. -/
theorem C87_unread (P : Prims) (fuel : Nat) (d : Dag.Config) (cache l1 : List U32) (hash : List Byte) (height nonce : U64)
    (h : 128 * (16 * (d.datasetParents.toNat + 1)) < cache.length) :
    ∃ i < cache.length, ∀ w : U32,
      Clients.ethash P fuel d (handing (cache.set i w) l1) hash height nonce = Clients.ethash P fuel d (handing cache l1) hash height nonce := by
  obtain ⟨asked, ha, hd⟩ := C87_ethash_words P fuel d l1 hash height nonce cache.length ⟨cache, rfl⟩
  obtain ⟨i, hi, hn⟩ := exists_not_mem cache.length asked (by omega)
  refine ⟨i, hi, fun w => hd ⟨cache.set i w, List.length_set⟩ fun q hq => ?_⟩
  show (cache.set i w)[q]? = cache[q]?
  rw [List.getElem?_set_ne]
  rintro rfl
  exact hn hq

/-! ## Examples -/

/-- a constant hash function -/
def constant (b : Byte) : Prims where
  blake2bRaw _ _ n := List.replicate n b
  blake2b256 _ := List.replicate 32 b
  keccak256 _ := List.replicate 32 b
  keccak512 _ := List.replicate 64 b
  cshake256 _ _ n := List.replicate n b
  blake2bRaw_length := by simp
  blake2b256_length := by simp
  keccak256_length := by simp
  keccak512_length := by simp
  cshake256_length := by simp

/-- Ergo: 36 evaluations do, and none at all would not. -/
example (msg : List Byte) (height nonce : U64) : DeterminedBy evaluate 36 (fun P => Autolykos.newErgo.compute P msg height nonce) :=
  C87_autolykos Autolykos.newErgo msg height nonce

example : ¬ DeterminedBy evaluate 0 (fun P => Dag.seedHash P (Dag.ethereum "") 30000) := fun h => by
  obtain ⟨asked, ha, hd⟩ := h (constant 0)
  have h0 : asked = [] := List.eq_nil_of_length_eq_zero (Nat.le_zero.mp ha)
  have := hd (constant 1) fun q hq => by
    rw [h0] at hq
    cases hq
  revert this
  decide +kernel

/-- The bounds for the shipped clients: Flux with the twist, Zcash without it. -/
example (header soln : List Byte) (fuel : Nat) : DeterminedBy evaluate 256 (fun P => Equihash.newFlux.verify P fuel header soln) :=
  C87_equihash Equihash.newFlux (eqShipped_wf _ (by simp [eqShipped])) header soln fuel

example (header soln : List Byte) (fuel : Nat) : DeterminedBy evaluate 512 (fun P => Equihash.newZCash.verify P fuel header soln) :=
  C87_equihash Equihash.newZCash (eqShipped_wf _ (by simp [eqShipped])) header soln fuel

/-- Ethereum: 526336 words, an eighth of the smallest cache of 16776896 bytes. -/
example (P : Prims) (fuel : Nat) (l1 : List U32) (hash : List Byte) (height nonce : U64) :
    DeterminedBy word 526336 (fun c : Sized 4194224 => Clients.ethash P fuel (Dag.ethereum "") (handing c.1 l1) hash height nonce) :=
  C87_ethash_words P fuel (Dag.ethereum "") l1 hash height nonce 4194224

example (P : Prims) (fuel : Nat) (hash : List Byte) (height nonce : U64) :
    ∃ i < 4194224, ∀ w : U32, Clients.ethash P fuel (Dag.ethereum "") (handing ((List.replicate 4194224 0).set i w) []) hash height nonce =
      Clients.ethash P fuel (Dag.ethereum "") (handing (List.replicate 4194224 0) []) hash height nonce := by
  have h := C87_unread P fuel (Dag.ethereum "") (List.replicate 4194224 0) [] hash height nonce
  rw [List.length_replicate] at h
  exact h (by decide)

end Verif.Props
