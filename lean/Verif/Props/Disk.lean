import Verif.Proof.Disk
import Verif.Spec.Chains
import Verif.Props.Dag

/-! # The cache files: properties C46-C48 -/

set_option autoImplicit false

namespace Verif.Props

open Go Dag Spec.Dag

attribute [local irreducible] Tables.ethashCacheSizes Tables.ethashDatasetSizes Tables.firopowDatasetSizes Tables.octopusCacheSizes
  Tables.octopusDatasetSizes

/-! ## C46: what is accepted as a cache file -/

/-- **C46** When the system calls succeed, a file is accepted exactly when it starts with the magic, and the result is the words after
it; nothing else about the file matters. -/
theorem C46_accepted_iff (content : List Byte) (lock : Bool) (o : MapEnv) (hm : o.mapFails = false) (hl : (lock && o.lockFails) = false)
    (w : List U32) : memoryMapContent content lock o = .ok (some w) ↔
      ∃ rest, content = Spec.Disk.magic ++ rest ∧ w = Spec.Ethash.words rest := by
  constructor
  · intro h
    by_cases h0 : content = []
    · rw [memoryMapContent_fail _ _ _ (Or.inr h0)] at h; simp at h
    by_cases h4 : content.length < 4
    · rw [memoryMapContent_tiny _ _ _ hm h0 h4] at h; simp at h
    by_cases h8 : content.length < 8
    · rw [memoryMapContent_half _ _ _ hm (by omega) h8] at h
      by_cases hx : content.take 4 = Spec.Disk.magic.take 4
      · rw [if_pos hx] at h; simp at h
      · rw [if_neg hx] at h; simp at h
    by_cases hw : content.take 8 = Spec.Disk.magic
    · have hc : content = Spec.Disk.magic ++ content.drop 8 := by rw [← hw, List.take_append_drop]
      rw [hc, memoryMapContent_magic _ _ hm _ hl] at h
      refine ⟨content.drop 8, hc, ?_⟩
      rw [words_eq]
      injection h with h
      injection h with h
      exact h.symm
    · rw [memoryMapContent_wrong _ _ _ hm (by omega) hw] at h; simp at h
  · rintro ⟨rest, rfl, rfl⟩
    rw [memoryMapContent_magic _ _ hm _ hl, words_eq]

/-- **C46** Files that are neither accepted nor shorter than the magic give an error, and so do empty ones. -/
theorem C46_rejected (content : List Byte) (lock : Bool) (o : MapEnv)
    (h : content = [] ∨ (8 ≤ content.length ∧ content.take 8 ≠ Spec.Disk.magic)) : memoryMapContent content lock o = .ok none := by
  cases hm : o.mapFails with
  | true => exact memoryMapContent_fail _ _ _ (Or.inl hm)
  | false =>
    rcases h with h | ⟨h1, h2⟩
    · exact memoryMapContent_fail _ _ _ (Or.inr h)
    · exact memoryMapContent_wrong _ _ _ hm h1 h2

/-- **C46** Files of one to seven bytes panic, except those that have four or more bytes of which the first four are already wrong: they
give an error. -/
theorem C46_short (content : List Byte) (lock : Bool) (o : MapEnv) (hm : o.mapFails = false) (h0 : content ≠ [])
    (h8 : content.length < 8) : memoryMapContent content lock o =
      if 4 ≤ content.length ∧ content.take 4 ≠ Spec.Disk.magic.take 4 then .ok none else .error (.panic .index) := by
  by_cases h4 : content.length < 4
  · rw [memoryMapContent_tiny _ _ _ hm h0 h4, if_neg (by omega)]
  · rw [memoryMapContent_half _ _ _ hm (by omega) h8]
    by_cases hx : content.take 4 = Spec.Disk.magic.take 4
    · rw [if_pos hx, if_neg (fun h => h.2 hx)]
    · rw [if_neg hx, if_pos ⟨by omega, hx⟩]

/-- **C46** `memoryMap` fails when there is no such file or it cannot be opened, and otherwise looks only at the contents. -/
theorem C46_memoryMap (fs : FS) (path : String) (lock : Bool) (o : MapEnv) :
    (fs path = none ∨ o.openFails = true → memoryMap fs path lock o = .ok none) ∧
    (∀ content, fs path = some content → o.openFails = false → memoryMap fs path lock o = memoryMapContent content lock o) := by
  constructor
  · intro h
    rw [memoryMap]
    by_cases ho : o.openFails = true
    · rw [if_pos ho]
    · rw [if_neg ho, h.resolve_right ho]
  · intro content h ho
    rw [memoryMap, if_neg (by simp [ho]), h]

/-- a truncated file with the right magic is accepted; a three-byte file panics -/
example : memoryMapContent [0xfe, 0xca, 0xdd, 0xba, 0xad, 0xde, 0xe1, 0xfe, 1, 0, 0, 0, 7] false ⟨false, false, false⟩ = .ok (some [1]) ∧
    memoryMapContent [0xfe, 0xca, 0xdd] false ⟨false, false, false⟩ = .error (.panic .index) := ⟨rfl, rfl⟩

/-! ## The shipped configurations -/

/-- each shipped configuration with the parameters its chain publishes -/
def clients (dir : String) : List (Config × Spec.Chain) :=
  [(ethereum dir, .eth), (ethereumClassic dir, .etc), (ravencoin dir, .rvn), (firo dir, .firo), (conflux dir, .cfx)]

/-- the epochs with a size (C33) and a cache below 4 GiB -/
def usable (c : Spec.Chain) (e : Nat) : Prop := (e < 2045 ∨ 2048 ≤ e) ∧ c.cacheInit + c.cacheGrowth * e ≤ 2 ^ 32

/-- what the configurations have to do with the chains, except for the dataset sizes -/
structure Matches (d : Config) (c : Spec.Chain) : Prop where
  cacheInit : d.cacheInitBytes.toNat = c.cacheInit
  cacheGrowth : d.cacheGrowthBytes.toNat = c.cacheGrowth
  growthPos : 65536 ≤ c.cacheGrowth
  initPos : 256 ≤ c.cacheInit
  rounds : d.cacheRounds.toNat = c.rounds
  parents : d.datasetParents.toNat = c.parents
  epochLength : d.epochLength.toNat = c.epochLength
  epochLengthSmall : c.epochLength < 2 ^ 32
  epochLengthPos : 0 < c.epochLength
  seedsPos : 0 < c.seeds
  seeds : seedsPerEpoch d = c.seeds
  sel : d.seedEpochLength ≠ 0
  l1Enabled : d.l1Enabled = true ↔ c.l1 ≠ 0
  l1Size : d.l1Enabled = true → d.l1CacheSize.toNat = c.l1
  l1Ok : L1Ok d
  cachesCount : d.cachesCount = 3

theorem clients_match (dir : String) (d : Config) (c : Spec.Chain) (h : (d, c) ∈ clients dir) : d ∈ shipped dir ∧ Matches d c ∧
    d.storageDir = dir := by
  simp only [clients, List.mem_cons, List.not_mem_nil, or_false, Prod.mk.injEq] at h
  rcases h with ⟨rfl, rfl⟩ | ⟨rfl, rfl⟩ | ⟨rfl, rfl⟩ | ⟨rfl, rfl⟩ | ⟨rfl, rfl⟩
  · exact ⟨by simp [shipped], ⟨rfl, rfl, by decide, by decide, rfl, rfl, rfl, by decide, by decide, by decide, rfl,
      by simp only [ethereum]; decide, by simp [ethereum, Spec.Chain.eth], by simp [ethereum], by simp [L1Ok, ethereum], rfl⟩, rfl⟩
  · exact ⟨by simp [shipped], ⟨rfl, rfl, by decide, by decide, rfl, rfl, rfl, by decide, by decide, by decide, rfl,
      by simp only [ethereumClassic]; decide, by simp [ethereumClassic, Spec.Chain.etc], by simp [ethereumClassic], by simp [L1Ok, ethereumClassic], rfl⟩, rfl⟩
  · exact ⟨by simp [shipped], ⟨rfl, rfl, by decide, by decide, rfl, rfl, rfl, by decide, by decide, by decide, rfl,
      by simp only [ravencoin]; decide, by simp [ravencoin, Spec.Chain.rvn], fun _ => rfl, fun _ => by simp [ravencoin], rfl⟩, rfl⟩
  · exact ⟨by simp [shipped], ⟨rfl, rfl, by decide, by decide, rfl, rfl, rfl, by decide, by decide, by decide, rfl,
      by simp only [firo]; decide, by simp [firo, Spec.Chain.firo], fun _ => rfl, fun _ => by simp [firo], rfl⟩, rfl⟩
  · exact ⟨by simp [shipped], ⟨rfl, rfl, by decide, by decide, rfl, rfl, rfl, by decide, by decide, by decide, rfl,
      by simp only [conflux]; decide, by simp [conflux, Spec.Chain.cfx], by simp [conflux], by simp [L1Ok, conflux], rfl⟩, rfl⟩

/-- epochs are below 2^16 when the cache is below 4 GiB -/
theorem usable_small {d : Config} {c : Spec.Chain} (hm : Matches d c) {e : Nat} (h : usable c e) : e ≤ 65536 := by
  have h1 := h.2
  have h2 := hm.growthPos
  have h3 : 65536 * e ≤ c.cacheGrowth * e := Nat.mul_le_mul_right e h2
  omega

section
variable (P : Prims) {dir : String} {d : Config} {c : Spec.Chain} (h : (d, c) ∈ clients dir)
include h

theorem seedHash_client (e : Nat) (he : e ≤ 65536) :
    seedHash P d (BitVec.ofNat 64 e * d.epochLength + 1) = .ok (Spec.epochSeed P.keccak256 c e) := by
  obtain ⟨h1, hm, _⟩ := clients_match dir d c h
  have hen : (BitVec.ofNat 64 e).toNat = e := by rw [BitVec.toNat_ofNat]; exact Nat.mod_eq_of_lt (by omega)
  rw [C36_epoch_seed P dir d h1 (BitVec.ofNat 64 e), hen, hm.seeds]
  · rfl
  · rw [hen, hm.epochLength]
    have h2 := hm.epochLengthSmall
    have h3 : e * c.epochLength ≤ 65536 * 2 ^ 32 := Nat.mul_le_mul he (by omega)
    omega

theorem keyOf_client (e : Nat) (he : e ≤ 65536) : keyOf P d (BitVec.ofNat 64 e) = (Spec.epochSeed P.keccak256 c e).take 8 := by
  have h1 := seedHash_client P h e he
  rw [seedHash_eq P d (clients_match dir d c h).2.1.sel] at h1
  injection h1 with h1
  rw [keyOf, h1]

omit h in
theorem hex_eq (k : List Byte) : (hexString k).toList = Spec.hex k := by
  have hd : ∀ n < 16, hexDigit n = ['0', '1', '2', '3', '4', '5', '6', '7', '8', '9', 'a', 'b', 'c', 'd', 'e', 'f'].getD n '0' := by decide
  rw [hexString, String.toList_ofList, Spec.hex]
  rw [List.flatMap_def, List.flatMap_def]
  refine congrArg List.flatten (List.map_congr_left ?_)
  intro x _
  have := x.isLt
  rw [hd _ (by omega), hd _ (by omega)]

theorem name_client : d.name ++ "-R" ++ toString d.revision = c.ticker := by
  simp only [clients, List.mem_cons, List.not_mem_nil, or_false, Prod.mk.injEq] at h
  rcases h with ⟨rfl, rfl⟩ | ⟨rfl, rfl⟩ | ⟨rfl, rfl⟩ | ⟨rfl, rfl⟩ | ⟨rfl, rfl⟩ <;>
    simp only [ethereum, ethereumClassic, ravencoin, firo, conflux] <;> decide

theorem cachePath_client (e : Nat) : cacheStorageLocation d ((Spec.epochSeed P.keccak256 c e).take 8) = Spec.filePath P.keccak256 dir "cache" c e := by
  apply String.toList_inj.mp
  rw [Spec.filePath, String.toList_ofList, ← hex_eq, ← name_client h, cachePath_toList, (clients_match dir d c h).2.2]
  simp [String.toList_append]

theorem l1Path_client (e : Nat) : l1StorageLocation d ((Spec.epochSeed P.keccak256 c e).take 8) = Spec.filePath P.keccak256 dir "l1" c e := by
  apply String.toList_inj.mp
  rw [Spec.filePath, String.toList_ofList, ← hex_eq, ← name_client h, l1Path_toList, (clients_match dir d c h).2.2]
  simp [String.toList_append]

theorem isFileOf_client (k : Nat) (hk : k ≤ 65536) (q : String) : isFileOf P d (BitVec.ofNat 64 k) q ↔
    (q = Spec.filePath P.keccak256 dir "cache" c k ∨ q = Spec.filePath P.keccak256 dir "l1" c k) := by
  rw [isFileOf, keyOf_client P h k hk, cachePath_client P h, l1Path_client P h]

end

/-- the five chains -/
def chains : List Spec.Chain := [.eth, .etc, .rvn, .firo, .cfx]

theorem chains_of {dir : String} {d : Config} {c : Spec.Chain} (h : (d, c) ∈ clients dir) : c ∈ chains := by
  simp only [clients, List.mem_cons, List.not_mem_nil, or_false, Prod.mk.injEq] at h
  simp only [chains, List.mem_cons, List.not_mem_nil, or_false]
  tauto

section
variable (H256 : Spec.Bytes → Spec.Bytes) (dir : String)

theorem filePath_toList (kind : String) (c : Spec.Chain) (e : Nat) : (Spec.filePath H256 dir kind c e).toList =
    dir.toList ++ '/' :: (kind.toList ++ '-' :: (c.ticker.toList ++ '-' :: Spec.hex ((Spec.epochSeed H256 c e).take 8))) := by
  rw [Spec.filePath, String.toList_ofList]
  simp

theorem hex_inj (a b : List Byte) (h : Spec.hex a = Spec.hex b) : a = b := by
  rw [← hex_eq, ← hex_eq] at h
  exact hexString_inj a b (String.toList_inj.mp h)

/-- the two kinds of files -/
def kinds : List String := ["cache", "l1"]

/-- a file belongs to one kind and one chain, and its name determines the key -/
theorem filePath_inj {k k' : String} {c c' : Spec.Chain} {e e' : Nat} (hk : k ∈ kinds) (hk' : k' ∈ kinds) (hc : c ∈ chains)
    (hc' : c' ∈ chains) (h : Spec.filePath H256 dir k c e = Spec.filePath H256 dir k' c' e') :
    k = k' ∧ c = c' ∧ (Spec.epochSeed H256 c e).take 8 = (Spec.epochSeed H256 c' e').take 8 := by
  have h := congrArg String.toList h
  rw [filePath_toList, filePath_toList] at h
  obtain ⟨A, hA⟩ : ∃ A, A = (Spec.epochSeed H256 c e).take 8 := ⟨_, rfl⟩
  obtain ⟨B, hB⟩ : ∃ B, B = (Spec.epochSeed H256 c' e').take 8 := ⟨_, rfl⟩
  rw [← hA, ← hB] at h ⊢
  clear hA hB
  simp only [kinds, List.mem_cons, List.not_mem_nil, or_false] at hk hk'
  simp only [chains, List.mem_cons, List.not_mem_nil, or_false] at hc hc'
  have key : k = k' ∧ c = c' := by
    rcases hk with rfl | rfl <;> rcases hk' with rfl | rfl <;> rcases hc with rfl | rfl | rfl | rfl | rfl <;>
      rcases hc' with rfl | rfl | rfl | rfl | rfl <;>
      first | exact ⟨rfl, rfl⟩ | (exfalso; simp [Spec.Chain.eth, Spec.Chain.etc, Spec.Chain.rvn, Spec.Chain.firo, Spec.Chain.cfx] at h)
  obtain ⟨rfl, rfl⟩ := key
  refine ⟨rfl, rfl, ?_⟩
  simp only [List.append_cancel_left_eq, List.cons.injEq, true_and] at h
  exact hex_inj _ _ h

/-- no final path is a temporary path -/
theorem tempPath_ne {k k' : String} {c c' : Spec.Chain} {e e' n : Nat} (hk : k ∈ kinds) (hk' : k' ∈ kinds) (hc : c ∈ chains)
    (hc' : c' ∈ chains) (hl : (Spec.epochSeed H256 c e).length = (Spec.epochSeed H256 c' e').length) :
    Spec.filePath H256 dir k c e ≠ tempPath (Spec.filePath H256 dir k' c' e') n := by
  intro h
  have h := congrArg String.toList h
  rw [tempPath_toList, filePath_toList, filePath_toList] at h
  obtain ⟨A, hA⟩ : ∃ A, A = (Spec.epochSeed H256 c e).take 8 := ⟨_, rfl⟩
  obtain ⟨B, hB⟩ : ∃ B, B = (Spec.epochSeed H256 c' e').take 8 := ⟨_, rfl⟩
  have hl : A.length = B.length := by rw [hA, hB, List.length_take, List.length_take, hl]
  rw [← hA, ← hB] at h
  clear hA hB
  simp only [kinds, List.mem_cons, List.not_mem_nil, or_false] at hk hk'
  simp only [chains, List.mem_cons, List.not_mem_nil, or_false] at hc hc'
  have key : k = k' ∧ c = c' := by
    rcases hk with rfl | rfl <;> rcases hk' with rfl | rfl <;> rcases hc with rfl | rfl | rfl | rfl | rfl <;>
      rcases hc' with rfl | rfl | rfl | rfl | rfl <;>
      first | exact ⟨rfl, rfl⟩ | (exfalso; simp [Spec.Chain.eth, Spec.Chain.etc, Spec.Chain.rvn, Spec.Chain.firo, Spec.Chain.cfx] at h)
  obtain ⟨rfl, rfl⟩ := key
  have h := congrArg List.length h
  have h1 := hexString_length A
  have h2 := hexString_length B
  rw [hex_eq] at h1 h2
  simp only [List.length_append, List.length_cons, h1, h2] at h
  omega

end

/-! ## C47: the same contents with and without files -/

/-- no two epochs below 2^16 share the eight bytes of the seed that name their files -/
def NoClash (H256 : Spec.Bytes → Spec.Bytes) : Prop := ∀ c ∈ chains, ∀ e e', e ≤ 65536 → e' ≤ 65536 →
  (Spec.epochSeed H256 c e).take 8 = (Spec.epochSeed H256 c e').take 8 → e = e'

/-- every file of a chain and an epoch is absent or holds what was published for them -/
def Sound (H256 H512 : Spec.Bytes → Spec.Bytes) (dir : String) (fs : FS) : Prop :=
  ∀ c ∈ chains, ∀ e, usable c e → ∀ w, Spec.IsCache H256 H512 c e w →
    (fs (Spec.filePath H256 dir "cache" c e) = none ∨ fs (Spec.filePath H256 dir "cache" c e) = some (Spec.Disk.file w)) ∧
    (c.l1 ≠ 0 → fs (Spec.filePath H256 dir "l1" c e) = none ∨
      fs (Spec.filePath H256 dir "l1" c e) = some (Spec.Disk.file (Spec.l1Of H512 c w)))

theorem seedLength (P : Prims) (c : Spec.Chain) (e : Nat) : (Spec.epochSeed P.keccak256 c e).length = 32 := seed_length P _

/-- the state of a path after a run of `generate` for epoch `e` of chain `c` -/
def Changed (H256 H512 : Spec.Bytes → Spec.Bytes) (dir : String) (c : Spec.Chain) (e : Nat) (w : List U32) (fs fs' : FS) (q : String) : Prop :=
  fs' q = fs q ∨
  (q = Spec.filePath H256 dir "cache" c e ∧ fs' q = some (Spec.Disk.file w)) ∨
  (c.l1 ≠ 0 ∧ q = Spec.filePath H256 dir "l1" c e ∧ fs' q = some (Spec.Disk.file (Spec.l1Of H512 c w))) ∨
  (fs' q = none ∧ ∃ k, k + 3 ≤ e ∧ (q = Spec.filePath H256 dir "cache" c k ∨ q = Spec.filePath H256 dir "l1" c k))

/-- everything about a run of `generate` -/
theorem generate_client (P : Prims) (dir : String) (d : Config) (c : Spec.Chain) (h : (d, c) ∈ clients dir) (e : U64)
    (he : usable c e.toNat) (fuel : Nat) (hf : 2 ^ 63 < fuel) (fs : FS) (hs : dir ≠ "" → Sound P.keccak256 P.keccak512 dir fs) (o : GenEnv) :
    ∃ w fs', Spec.IsCache P.keccak256 P.keccak512 c e.toNat w ∧
      generate P fuel d e fs o = .ok (⟨w, Spec.l1Of P.keccak512 c w⟩, fs') ∧
      ((fs' = fs ∧ (dir = "" ∨ (fs (Spec.filePath P.keccak256 dir "cache" c e.toNat) ≠ none ∧
          (c.l1 ≠ 0 → fs (Spec.filePath P.keccak256 dir "l1" c e.toNat) ≠ none)))) ∨
        ∀ k, k + 3 ≤ e.toNat → ∀ kind ∈ kinds, o.removeFails (Spec.filePath P.keccak256 dir kind c k) = false →
          fs' (Spec.filePath P.keccak256 dir kind c k) = none) ∧
      (dir = "" → fs' = fs) ∧
      (∀ q, q ≠ tempPath (Spec.filePath P.keccak256 dir "cache" c e.toNat) o.cacheWrite.suffix →
        q ≠ tempPath (Spec.filePath P.keccak256 dir "l1" c e.toNat) o.l1Write.suffix →
        Changed P.keccak256 P.keccak512 dir c e.toNat w fs fs' q) ∧
      (dir ≠ "" → NoClash P.keccak256 →
        (o.cacheWrite.Fine → fs' (Spec.filePath P.keccak256 dir "cache" c e.toNat) = some (Spec.Disk.file w)) ∧
        (c.l1 ≠ 0 → o.l1Write.Fine →
          fs' (Spec.filePath P.keccak256 dir "l1" c e.toNat) = some (Spec.Disk.file (Spec.l1Of P.keccak512 c w)))) := by
  obtain ⟨h1, hm, hdir⟩ := clients_match dir d c h
  have hsm := usable_small hm he
  have hofe : BitVec.ofNat 64 e.toNat = e := by rw [BitVec.ofNat_toNat, BitVec.setWidth_eq]
  have hb : cacheBound d e = c.cacheInit + c.cacheGrowth * e.toNat := by rw [cacheBound, hm.cacheInit, hm.cacheGrowth]
  obtain ⟨size, hsz, hsize⟩ := C31_CacheSize dir d h1 e he.1 (by rw [hb]; have := he.2; omega) fuel hf
  have hsize' := hsize
  obtain ⟨n, hsn, hnp, hnb, _⟩ := hsize'
  have hn1 : 1 ≤ n := hnp.one_lt.le
  have hn2 : n < 2 ^ 26 := by rw [hb] at hnb; have := he.2; omega
  obtain ⟨sd, hsd⟩ : ∃ s, s = Spec.epochSeed P.keccak256 c e.toNat := ⟨_, rfl⟩
  have hseed := seedHash_client P h e.toNat hsm
  rw [hofe, ← hsd] at hseed
  have hw : Spec.IsCache P.keccak256 P.keccak512 c e.toNat (pubCache P d size sd) :=
    ⟨size.toNat, hb ▸ hsize, by rw [pubCache, hm.rounds, hsd]⟩
  have hl1 : pubL1 P d size sd = Spec.l1Of P.keccak512 c (pubCache P d size sd) := by
    rw [pubL1, Spec.l1Of]
    by_cases hE : d.l1Enabled = true
    · rw [if_pos hE, if_neg (hm.l1Enabled.mp hE), hm.parents, hm.l1Size hE]
    · rw [if_neg hE, if_pos (by by_contra hh; exact hE (hm.l1Enabled.mpr hh))]
  have hcp : cacheStorageLocation d (sd.take 8) = Spec.filePath P.keccak256 dir "cache" c e.toNat := by
    rw [hsd]; exact cachePath_client P h _
  have hlp : l1StorageLocation d (sd.take 8) = Spec.filePath P.keccak256 dir "l1" c e.toNat := by
    rw [hsd]; exact l1Path_client P h _
  have hF : d.storageDir ≠ "" → FilesOk P d size sd fs := by
    intro hne
    rw [hdir] at hne
    have := hs hne c (chains_of h) e.toNat he _ hw
    rw [FilesOk, hcp, hlp, hl1]
    exact ⟨this.1, fun hE => this.2 (hm.l1Enabled.mp hE)⟩
  obtain ⟨fs', e1, e2, e3, e4, e5⟩ := generate_eq P d e size sd n hn1 hn2 hsn fuel hsz hm.sel hseed hm.l1Ok (by omega)
    (by rw [hm.cachesCount]; omega) (by rw [hm.cachesCount]; omega) (by rw [hm.cachesCount]; omega) fs o hF
  refine ⟨_, fs', hw, by rw [e1, hl1], ?_, by rw [← hdir]; exact e2, ?_, ?_⟩
  · rw [hcp, hlp, hdir] at e3
    rcases e3 with ⟨e3, e3'⟩ | e3
    · exact Or.inl ⟨e3, e3'.imp_right fun x => ⟨x.1, fun y => x.2 (hm.l1Enabled.mpr y)⟩⟩
    · refine Or.inr ?_
      intro k hk kind hkind hrf
      refine e3 k (by rw [hm.cachesCount]; omega) _ ?_ hrf
      rw [isFileOf_client P h k (by omega)]
      simp only [kinds, List.mem_cons, List.not_mem_nil, or_false] at hkind
      rcases hkind with rfl | rfl
      · exact Or.inl rfl
      · exact Or.inr rfl
  · intro q hq1 hq2
    rw [hcp, hlp] at e4
    rcases e4 q hq1 hq2 with h5 | ⟨h5, k, hk, h6, _⟩
    · rw [PathOk, hcp, hlp, hl1] at h5
      rcases h5 with h5 | h5 | ⟨hE, h5⟩
      · exact Or.inl h5
      · exact Or.inr (Or.inl h5)
      · exact Or.inr (Or.inr (Or.inl ⟨hm.l1Enabled.mp hE, h5⟩))
    · rw [hm.cachesCount] at hk
      exact Or.inr (Or.inr (Or.inr ⟨h5, k, by omega, (isFileOf_client P h k (by omega) q).mp h6⟩))
  · intro hne hnc
    have hno : ∀ kind ∈ kinds, ¬ ∃ k : Nat, (k : Int) ≤ e.toNat - d.cachesCount ∧
        isFileOf P d (BitVec.ofNat 64 k) (Spec.filePath P.keccak256 dir kind c e.toNat) := by
      rintro kind hkind ⟨k, hk, hq⟩
      rw [hm.cachesCount] at hk
      have hc := chains_of h
      have hkey : (Spec.epochSeed P.keccak256 c e.toNat).take 8 = (Spec.epochSeed P.keccak256 c k).take 8 := by
        rcases (isFileOf_client P h k (by omega) _).mp hq with h6 | h6
        · exact (filePath_inj _ _ hkind (by simp [kinds]) hc hc h6).2.2
        · exact (filePath_inj _ _ hkind (by simp [kinds]) hc hc h6).2.2
      have := hnc c hc _ _ hsm (by omega) hkey
      omega
    have h5 := e5 (by rw [hdir]; exact hne)
    rw [Stored, hcp, hlp, hl1] at h5
    exact ⟨fun hg => (h5.1 hg).resolve_right (hno _ (by simp [kinds])),
      fun hl hg => (h5.2 (hm.l1Enabled.mpr hl) hg).resolve_right (hno _ (by simp [kinds]))⟩

/-- no system call of the mapping fails -/
def Readable (o : MapEnv) : Prop := o.openFails = false ∧ o.mapFails = false ∧ o.lockFails = false

theorem memoryMap_readable (fs : FS) (path : String) (lock : Bool) (o : MapEnv) (ho : Readable o) (w : List U32)
    (h : fs path = some (Spec.Disk.file w)) : memoryMap fs path lock o = .ok (some w) := by
  rw [memoryMap, if_neg (by simp [ho.1]), h]
  simp only [Spec.Disk.file]
  rw [memoryMapContent_magic _ _ ho.2.1 _ (by rw [ho.2.2, Bool.and_false]), bytes_eq, wordView_bytesLE]

/-- a run that can map the files of its epoch changes nothing -/
theorem generate_mapped (P : Prims) (dir : String) (d : Config) (c : Spec.Chain) (h : (d, c) ∈ clients dir) (e : U64)
    (he : usable c e.toNat) (fuel : Nat) (hf : 2 ^ 63 < fuel) (fs : FS) (hs : Sound P.keccak256 P.keccak512 dir fs) (o : GenEnv)
    (h1 : Readable o.cacheRead) (h2 : Readable o.l1Read) (hc : fs (Spec.filePath P.keccak256 dir "cache" c e.toNat) ≠ none)
    (hl : c.l1 ≠ 0 → fs (Spec.filePath P.keccak256 dir "l1" c e.toNat) ≠ none) (r : Loaded) (fs' : FS)
    (hr : generate P fuel d e fs o = .ok (r, fs')) : fs' = fs := by
  obtain ⟨w, _, hw, _⟩ := generate_client P dir d c h e he fuel hf fs (fun _ => hs) o
  obtain ⟨hd, hm, hdir⟩ := clients_match dir d c h
  have hold := hs c (chains_of h) e.toNat he w hw
  have hsm := usable_small hm he
  have hseed := seedHash_client P h e.toNat hsm
  rw [BitVec.ofNat_toNat, BitVec.setWidth_eq] at hseed
  rw [generate] at hr
  cases hsz : cacheSize fuel d e with
  | error x => rw [hsz] at hr; simp [bind, Except.bind] at hr
  | ok size =>
    rw [hsz, ok_bind, hseed, ok_bind] at hr
    by_cases hdir : d.storageDir = ""
    · rw [if_pos hdir] at hr
      cases hg : generateInMemory P d size (Spec.epochSeed P.keccak256 c e.toNat) with
      | error x => rw [hg] at hr; simp [bind, Except.bind] at hr
      | ok l =>
        rw [hg, ok_bind] at hr
        injection hr with hr
        injection hr with _ hr
        exact hr.symm
    · rw [if_neg hdir, generateOnDisk, slc_ok _ _ _ (by omega) (by rw [seedLength]; omega), ok_bind, List.drop_zero] at hr
      simp only [cachePath_client P h, l1Path_client P h] at hr
      rw [memoryMap_readable fs _ _ _ h1 w (hold.1.resolve_left hc), ok_bind] at hr
      have : ∃ l, tryL1 d fs (Spec.filePath P.keccak256 dir "l1" c e.toNat) o.l1Read = .ok (some l) := by
        rw [tryL1]
        by_cases hE : d.l1Enabled = true
        · rw [if_pos hE]
          have hl0 := hm.l1Enabled.mp hE
          exact ⟨_, memoryMap_readable fs _ _ _ h2 _ ((hold.2 hl0).resolve_left (hl hl0))⟩
        · rw [if_neg hE]; exact ⟨_, rfl⟩
      obtain ⟨l, hl⟩ := this
      rw [hl, ok_bind] at hr
      injection hr with hr
      injection hr with _ hr
      exact hr.symm

/-- **C47** In memory or on disk, from every directory whose files are absent or right, and whatever system calls fail, `generate`
gives the published cache and L1 cache of the epoch, … -/
theorem C47_generate (P : Prims) (dir : String) (d : Config) (c : Spec.Chain) (h : (d, c) ∈ clients dir) (e : U64)
    (he : usable c e.toNat) (fuel : Nat) (hf : 2 ^ 63 < fuel) (fs : FS) (hs : dir ≠ "" → Sound P.keccak256 P.keccak512 dir fs) (o : GenEnv) :
    ∃ w fs', Spec.IsCache P.keccak256 P.keccak512 c e.toNat w ∧
      generate P fuel d e fs o = .ok (⟨w, Spec.l1Of P.keccak512 c w⟩, fs') := by
  obtain ⟨w, fs', h1, h2, _⟩ := generate_client P dir d c h e he fuel hf fs hs o
  exact ⟨w, fs', h1, h2⟩

/-- **C47** … and leaves every file of every chain and epoch absent or right. -/
theorem C47_sound (P : Prims) (dir : String) (hnc : NoClash P.keccak256) (d : Config) (c : Spec.Chain) (h : (d, c) ∈ clients dir) (e : U64)
    (he : usable c e.toNat) (fuel : Nat) (hf : 2 ^ 63 < fuel) (fs : FS) (hs : Sound P.keccak256 P.keccak512 dir fs) (o : GenEnv) :
    ∀ r fs', generate P fuel d e fs o = .ok (r, fs') → Sound P.keccak256 P.keccak512 dir fs' := by
  obtain ⟨w, fs', hw, e1, _, _, e4, _⟩ := generate_client P dir d c h e he fuel hf fs (fun _ => hs) o
  intro r fs'' hr
  rw [e1] at hr
  injection hr with hr
  obtain ⟨_, rfl⟩ := Prod.mk.injEq .. ▸ hr
  have hc := chains_of h
  have hsm := usable_small (clients_match dir d c h).2.1 he
  intro c' hc' e' he' w' hw'
  have hsm' : e' ≤ 65536 := by
    have : ∃ d', (d', c') ∈ clients dir := by
      simp only [chains, List.mem_cons, List.not_mem_nil, or_false] at hc'
      simp only [clients, List.mem_cons, List.not_mem_nil, or_false, Prod.mk.injEq]
      rcases hc' with rfl | rfl | rfl | rfl | rfl
      · exact ⟨ethereum dir, by simp⟩
      · exact ⟨ethereumClassic dir, by simp⟩
      · exact ⟨ravencoin dir, by simp⟩
      · exact ⟨firo dir, by simp⟩
      · exact ⟨conflux dir, by simp⟩
    obtain ⟨d', hd'⟩ := this
    exact usable_small (clients_match dir d' c' hd').2.1 he'
  have hold := hs c' hc' e' he' w' hw'
  have hl : ∀ n, (Spec.epochSeed P.keccak256 c' e').length = (Spec.epochSeed P.keccak256 c n).length := fun n => by
    rw [seedLength, seedLength]
  have ck : "cache" ∈ kinds := by simp [kinds]
  have lk : "l1" ∈ kinds := by simp [kinds]
  constructor
  · rcases e4 (Spec.filePath P.keccak256 dir "cache" c' e') (tempPath_ne _ _ ck ck hc' hc (hl _)) (tempPath_ne _ _ ck lk hc' hc (hl _))
      with h5 | ⟨h5, h6⟩ | ⟨_, h5, _⟩ | h5
    · rw [h5]; exact hold.1
    · obtain ⟨_, rfl, hk⟩ := filePath_inj _ _ ck ck hc' hc h5
      have := hnc c' hc' e' e.toNat hsm' hsm hk
      subst this
      rw [h6, hw.unique hw']
      exact Or.inr rfl
    · exact absurd (filePath_inj _ _ ck lk hc' hc h5).1 (by decide)
    · exact Or.inl h5.1
  · intro hl1
    rcases e4 (Spec.filePath P.keccak256 dir "l1" c' e') (tempPath_ne _ _ lk ck hc' hc (hl _)) (tempPath_ne _ _ lk lk hc' hc (hl _))
      with h5 | ⟨h5, _⟩ | ⟨_, h5, h6⟩ | h5
    · rw [h5]; exact hold.2 hl1
    · exact absurd (filePath_inj _ _ lk ck hc' hc h5).1 (by decide)
    · obtain ⟨_, rfl, hk⟩ := filePath_inj _ _ lk lk hc' hc h5
      have := hnc c' hc' e' e.toNat hsm' hsm hk
      subst this
      rw [h6, hw.unique hw']
      exact Or.inr rfl
    · exact Or.inl h5.1

/-- a run of `generate` for some client and epoch, with any outcomes of the system calls, or the removal of a file by somebody else -/
inductive DirStep (P : Prims) (fuel : Nat) (dir : String) : FS → FS → Prop
  | generate (d : Config) (c : Spec.Chain) (e : U64) (o : GenEnv) (fs fs' : FS) (r : Loaded) : (d, c) ∈ clients dir → usable c e.toNat →
      Dag.generate P fuel d e fs o = .ok (r, fs') → DirStep P fuel dir fs fs'
  | removed (path : String) (fs : FS) : DirStep P fuel dir fs (fs.remove path)

/-- any number of such steps -/
inductive DirSteps (P : Prims) (fuel : Nat) (dir : String) : FS → FS → Prop
  | nil (fs : FS) : DirSteps P fuel dir fs fs
  | cons {fs fs' fs'' : FS} : DirSteps P fuel dir fs fs' → DirStep P fuel dir fs' fs'' → DirSteps P fuel dir fs fs''

theorem sound_steps (P : Prims) (fuel : Nat) (hf : 2 ^ 63 < fuel) (dir : String) (hnc : NoClash P.keccak256) (fs fs' : FS)
    (h : DirSteps P fuel dir fs fs') (hs : Sound P.keccak256 P.keccak512 dir fs) : Sound P.keccak256 P.keccak512 dir fs' := by
  induction h with
  | nil => exact hs
  | cons _ hstep ih =>
    cases hstep with
    | generate d c e o _ _ r hdc he hg => exact C47_sound P dir hnc d c hdc e he fuel hf _ ih o r _ hg
    | removed path =>
      intro c hc e he w hw
      obtain ⟨h1, h2⟩ := ih c hc e he w hw
      refine ⟨?_, fun hl => ?_⟩
      · by_cases hp : Spec.filePath P.keccak256 dir "cache" c e = path
        · exact Or.inl (by rw [hp]; exact FS.remove_same _ _)
        · rw [FS.remove_other _ _ _ hp]; exact h1
      · by_cases hp : Spec.filePath P.keccak256 dir "l1" c e = path
        · exact Or.inl (by rw [hp]; exact FS.remove_same _ _)
        · rw [FS.remove_other _ _ _ hp]; exact h2 hl

/-- **C47** After any history of runs of any of the clients in a directory that was empty at first, with any failures and any removals in
between, `generate` gives the same as without a directory. -/
theorem C47_agree (P : Prims) (hnc : NoClash P.keccak256) (fuel : Nat) (hf : 2 ^ 63 < fuel) (dir : String) (fs : FS)
    (hh : DirSteps P fuel dir (fun _ => none) fs) (cfg : String → Config) (c : Spec.Chain) (hd : (cfg dir, c) ∈ clients dir)
    (hd' : (cfg "", c) ∈ clients "") (e : U64) (he : usable c e.toNat) (o o' : GenEnv) (fs0 : FS) :
    ∃ r fs', generate P fuel (cfg dir) e fs o = .ok (r, fs') ∧ generate P fuel (cfg "") e fs0 o' = .ok (r, fs0) ∧
      Spec.IsCache P.keccak256 P.keccak512 c e.toNat r.cache ∧ r.l1 = Spec.l1Of P.keccak512 c r.cache := by
  have hs : Sound P.keccak256 P.keccak512 dir fs :=
    sound_steps P fuel hf dir hnc _ _ hh (fun _ _ _ _ _ _ => ⟨Or.inl rfl, fun _ => Or.inl rfl⟩)
  obtain ⟨w, fs', hw, e1, _⟩ := generate_client P dir (cfg dir) c hd e he fuel hf fs (fun _ => hs) o
  obtain ⟨w', fs'', hw', e1', _, e2, _⟩ := generate_client P "" (cfg "") c hd' e he fuel hf fs0 (fun h => absurd rfl h) o'
  have := hw.unique hw'
  subst this
  rw [e2 rfl] at e1'
  exact ⟨_, fs', e1, e1', hw, rfl⟩

/-- the hypothesis about the configuration is met by each client -/
example (dir : String) : (ravencoin dir, Spec.Chain.rvn) ∈ clients dir ∧ (ravencoin "", Spec.Chain.rvn) ∈ clients "" ∧
    usable .rvn 12345 := ⟨by simp [clients], by simp [clients], Or.inr (by decide), by decide⟩

theorem leEncode_take (n : Nat) : ∀ (m v : Nat), (Spec.leEncode (n + m) v).take n = Spec.leEncode n v := by
  induction n with
  | zero => intro m v; rfl
  | succ n ih =>
    intro m v
    rw [show n + 1 + m = (n + m) + 1 by omega, Spec.leEncode, List.take_succ_cons, ih, Spec.leEncode]

/-- there are functions without clashes -/
example : NoClash (fun b => Spec.leEncode 32 (Spec.leValue b + 1)) := by
  have hseed : ∀ n, n < 2 ^ 64 → seed (fun b => Spec.leEncode 32 (Spec.leValue b + 1)) n = Spec.leEncode 32 n := by
    intro n
    induction n with
    | zero => intro _; rfl
    | succ n ih =>
      intro hn
      rw [seed, ih (by omega), Spec.leValue_eq, Spec.leNat_leEncode, Nat.mod_eq_of_lt (by omega)]
  intro c hc e e' he he' h
  have hs : 0 < c.seeds ∧ c.seeds ≤ 2 := by
    simp only [chains, List.mem_cons, List.not_mem_nil, or_false] at hc
    rcases hc with rfl | rfl | rfl | rfl | rfl <;> decide
  have h1 : c.seeds * e ≤ 2 * 65536 := Nat.mul_le_mul hs.2 he
  have h2 : c.seeds * e' ≤ 2 * 65536 := Nat.mul_le_mul hs.2 he'
  rw [Spec.epochSeed, Spec.epochSeed, hseed _ (by omega), hseed _ (by omega), leEncode_take 8 24, leEncode_take 8 24] at h
  have h := congrArg leNat h
  rw [Spec.leNat_leEncode, Spec.leNat_leEncode, Nat.mod_eq_of_lt (by omega), Nat.mod_eq_of_lt (by omega)] at h
  exact Nat.eq_of_mul_eq_mul_left hs.1 h

/-! ## C48: the cleanup -/

/-- **C48** After epoch `e` the cleanup removes the files named by the seeds of the epochs 0 to `e - CachesCount` (those whose removal
does not fail) and changes nothing else, for every configuration. -/
theorem C48_cleanup (P : Prims) (d : Config) (hsel : d.seedEpochLength ≠ 0) (e : U64) (he : e.toNat < 2 ^ 63)
    (h0 : 0 ≤ d.cachesCount) (h1 : d.cachesCount < 2 ^ 63) (fails : String → Bool) (fs : FS) :
    ∃ fs', cleanup P d e fails fs = .ok fs' ∧ ∀ q,
      ((∃ (k : Nat) (sd : List Byte), (k : Int) ≤ e.toNat - d.cachesCount ∧ seedHash P d (BitVec.ofNat 64 k * d.epochLength + 1) = .ok sd ∧
          (q = cacheStorageLocation d (sd.take 8) ∨ q = l1StorageLocation d (sd.take 8))) ∧ fails q = false ∧ fs' q = none) ∨
      ((¬ (∃ (k : Nat) (sd : List Byte), (k : Int) ≤ e.toNat - d.cachesCount ∧ seedHash P d (BitVec.ofNat 64 k * d.epochLength + 1) = .ok sd ∧
          (q = cacheStorageLocation d (sd.take 8) ∨ q = l1StorageLocation d (sd.take 8))) ∨ fails q = true) ∧ fs' q = fs q) := by
  obtain ⟨fs', e1, h2, h3⟩ := cleanup_eq P d hsel e he (by omega) h1 (by omega) fails fs
  refine ⟨fs', e1, ?_⟩
  intro q
  have hiff : (∃ (k : Nat) (sd : List Byte), (k : Int) ≤ e.toNat - d.cachesCount ∧ seedHash P d (BitVec.ofNat 64 k * d.epochLength + 1) = .ok sd ∧
          (q = cacheStorageLocation d (sd.take 8) ∨ q = l1StorageLocation d (sd.take 8))) ↔
      ∃ k : Nat, (k : Int) ≤ e.toNat - d.cachesCount ∧ isFileOf P d (BitVec.ofNat 64 k) q := by
    constructor
    · rintro ⟨k, sd, hk, hs, hq⟩
      rw [seedHash_eq P d hsel] at hs
      injection hs with hs
      exact ⟨k, hk, by rw [isFileOf, keyOf, hs]; exact hq⟩
    · rintro ⟨k, hk, hq⟩
      exact ⟨k, _, hk, seedHash_eq P d hsel _, hq⟩
  rw [hiff]
  by_cases hx : (∃ k : Nat, (k : Int) ≤ e.toNat - d.cachesCount ∧ isFileOf P d (BitVec.ofNat 64 k) q) ∧ fails q = false
  · obtain ⟨⟨k, hk, hq⟩, hf⟩ := hx
    exact Or.inl ⟨⟨k, hk, hq⟩, hf, h2 k hk q hq hf⟩
  · refine Or.inr ⟨?_, ?_⟩
    · by_contra hc
      push Not at hc
      exact hx ⟨hc.1, by simpa using hc.2⟩
    · rcases h3 q with h4 | ⟨_, k, hk, hq, hf⟩
      · exact h4
      · exact absurd ⟨⟨k, hk, hq⟩, hf⟩ hx

/-- **C48** When the cache file or the L1 file of the epoch was missing, no file of an epoch up to `e - 3` is left (unless its removal
fails); … -/
theorem C48_removed (P : Prims) (dir : String) (hdir : dir ≠ "") (d : Config) (c : Spec.Chain) (h : (d, c) ∈ clients dir) (e : U64)
    (he : usable c e.toNat) (fuel : Nat) (hf : 2 ^ 63 < fuel) (fs : FS) (hs : Sound P.keccak256 P.keccak512 dir fs) (o : GenEnv)
    (hmiss : fs (Spec.filePath P.keccak256 dir "cache" c e.toNat) = none ∨
      (c.l1 ≠ 0 ∧ fs (Spec.filePath P.keccak256 dir "l1" c e.toNat) = none)) :
    ∃ r fs', generate P fuel d e fs o = .ok (r, fs') ∧ ∀ k, k + 3 ≤ e.toNat → ∀ kind ∈ kinds,
      o.removeFails (Spec.filePath P.keccak256 dir kind c k) = false → fs' (Spec.filePath P.keccak256 dir kind c k) = none := by
  obtain ⟨w, fs', _, e1, e2, _⟩ := generate_client P dir d c h e he fuel hf fs (fun _ => hs) o
  refine ⟨_, fs', e1, ?_⟩
  rcases e2 with ⟨_, e2⟩ | e2
  · exfalso
    rcases e2 with e2 | ⟨e2, e3⟩
    · exact hdir e2
    · rcases hmiss with hm | ⟨hl, hm⟩
      · exact e2 hm
      · exact e3 hl hm
  · exact e2

/-- the empty directory meets the hypotheses -/
example (P : Prims) (dir : String) : Sound P.keccak256 P.keccak512 dir (fun _ => none) ∧ usable .eth 100 :=
  ⟨fun _ _ _ _ _ _ => ⟨Or.inl rfl, fun _ => Or.inl rfl⟩, Or.inl (by decide), by decide⟩

/-- **C48** … the files of later epochs and of the other chains survive every run: they are as before, or they are the ones that were
just written; … -/
theorem C48_survive (P : Prims) (dir : String) (hnc : NoClash P.keccak256) (d : Config) (c : Spec.Chain) (h : (d, c) ∈ clients dir) (e : U64)
    (he : usable c e.toNat) (fuel : Nat) (hf : 2 ^ 63 < fuel) (fs : FS) (hs : dir ≠ "" → Sound P.keccak256 P.keccak512 dir fs) (o : GenEnv) :
    ∃ w fs', generate P fuel d e fs o = .ok (⟨w, Spec.l1Of P.keccak512 c w⟩, fs') ∧
      ∀ c' ∈ chains, ∀ k, k ≤ 65536 → (c' ≠ c ∨ e.toNat < k + 3) → ∀ kind ∈ kinds,
        fs' (Spec.filePath P.keccak256 dir kind c' k) = fs (Spec.filePath P.keccak256 dir kind c' k) ∨
        (c' = c ∧ k = e.toNat ∧ fs' (Spec.filePath P.keccak256 dir kind c' k) =
          some (Spec.Disk.file (if kind = "cache" then w else Spec.l1Of P.keccak512 c w))) := by
  obtain ⟨w, fs', _, e1, _, _, e4, _⟩ := generate_client P dir d c h e he fuel hf fs hs o
  refine ⟨w, fs', e1, ?_⟩
  have hc := chains_of h
  have hsm := usable_small (clients_match dir d c h).2.1 he
  intro c' hc' k hk hrec kind hkind
  have hl : ∀ n, (Spec.epochSeed P.keccak256 c' k).length = (Spec.epochSeed P.keccak256 c n).length := fun n => by
    rw [seedLength, seedLength]
  have ck : "cache" ∈ kinds := by simp [kinds]
  have lk : "l1" ∈ kinds := by simp [kinds]
  rcases e4 (Spec.filePath P.keccak256 dir kind c' k) (tempPath_ne _ _ hkind ck hc' hc (hl _)) (tempPath_ne _ _ hkind lk hc' hc (hl _))
    with h5 | ⟨h5, h6⟩ | ⟨_, h5, h6⟩ | ⟨_, j, hj, h5⟩
  · exact Or.inl h5
  · obtain ⟨rfl, rfl, hkey⟩ := filePath_inj _ _ hkind ck hc' hc h5
    exact Or.inr ⟨rfl, hnc c' hc' k e.toNat hk hsm hkey, by rw [h6, if_pos rfl]⟩
  · obtain ⟨rfl, rfl, hkey⟩ := filePath_inj _ _ hkind lk hc' hc h5
    exact Or.inr ⟨rfl, hnc c' hc' k e.toNat hk hsm hkey, by rw [h6, if_neg (by decide)]⟩
  · exfalso
    have : c' = c ∧ (Spec.epochSeed P.keccak256 c' k).take 8 = (Spec.epochSeed P.keccak256 c j).take 8 := by
      rcases h5 with h5 | h5
      · exact (filePath_inj _ _ hkind ck hc' hc h5).2
      · exact (filePath_inj _ _ hkind lk hc' hc h5).2
    obtain ⟨rfl, hkey⟩ := this
    have := hnc c' hc' k j hk (by omega) hkey
    subst this
    rcases hrec with h | h
    · exact h rfl
    · omega

/-- **C48** … and nothing is touched that is neither a file of this chain nor a temporary file of this run. -/
theorem C48_foreign (P : Prims) (dir : String) (d : Config) (c : Spec.Chain) (h : (d, c) ∈ clients dir) (e : U64)
    (he : usable c e.toNat) (fuel : Nat) (hf : 2 ^ 63 < fuel) (fs : FS) (hs : dir ≠ "" → Sound P.keccak256 P.keccak512 dir fs) (o : GenEnv) :
    ∃ r fs', generate P fuel d e fs o = .ok (r, fs') ∧
      ∀ q, (∀ kind ∈ kinds, ∀ k, q ≠ Spec.filePath P.keccak256 dir kind c k) →
        q ≠ tempPath (Spec.filePath P.keccak256 dir "cache" c e.toNat) o.cacheWrite.suffix →
        q ≠ tempPath (Spec.filePath P.keccak256 dir "l1" c e.toNat) o.l1Write.suffix → fs' q = fs q := by
  obtain ⟨w, fs', _, e1, _, _, e4, _⟩ := generate_client P dir d c h e he fuel hf fs hs o
  refine ⟨_, fs', e1, ?_⟩
  intro q hq h1 h2
  have ck : "cache" ∈ kinds := by simp [kinds]
  have lk : "l1" ∈ kinds := by simp [kinds]
  rcases e4 q h1 h2 with h5 | ⟨h5, _⟩ | ⟨_, h5, _⟩ | ⟨_, j, _, h5 | h5⟩
  · exact h5
  · exact absurd h5 (hq _ ck _)
  · exact absurd h5 (hq _ lk _)
  · exact absurd h5 (hq _ ck _)
  · exact absurd h5 (hq _ lk _)

end Verif.Props
