import Verif.Props.DagParams
import Verif.Proof.FilesSeqProg

/-! # DAG configurations of one's own with a directory: property C96

C47 says that the caches of the shipped configurations are the same in memory and on disk, whatever the outcomes of the system calls. That needs `L1CacheSize` to be
four times `L1CacheNumItems`: the L1 cache on disk is as large as the former says, the one in memory (and the one that replaces a file that could not be written) as
large as the latter. -/

set_option autoImplicit false

namespace Verif.Props

open Go Dag Spec.DagParams Ethash

section
variable (P : Prims) (d : Config) (e : U64)

/-- an L1 cache of `m` words: the items that fit into them, zeros in the remaining words -/
def l1Of (c m : Nat) : List U32 := ((List.range (m / 16)).flatMap (itemWords P d e c)) ++ List.replicate (m % 16) 0

theorem l1Of_words (c m : Nat) : (l1Of P d e c m).length = m := by
  rw [l1Of, List.length_append, List.length_replicate,
    flatMap_length_const _ 16 (fun j => by rw [itemWords, words_eq, wordView_length, itemOf_length]) _, List.length_range]
  omega

/-- the seed of an epoch -/
def seedAt : List Byte :=
  Spec.Dag.seed P.keccak256 (iterations ((e.toNat * d.epochLength.toNat + 1) % 2 ^ 64) d.seedEpochLength.toNat)

/-- neither the cache nor the L1 cache of the epoch is in the directory -/
def NoFiles (fs : FS) : Prop :=
  fs (cacheStorageLocation d ((seedAt P d e).take 8)) = none ∧ fs (l1StorageLocation d ((seedAt P d e).take 8)) = none

variable (fs : FS) (o : GenEnv)

theorem l1Of_gen (c : Nat) (hw : Whole c) (h32 : c < 2 ^ 32) (m : Nat) :
    generateL1Cache P d.datasetParents (List.replicate m 0) (cacheAt P d e c) = .ok (l1Of P d e c m) := by
  have hlen := cacheAt_length P d e c hw h32
  obtain ⟨h1, h2⟩ := hw
  rw [generateL1Cache_all P d.datasetParents _ _ (by rw [hlen]; omega), List.length_replicate, List.drop_replicate]
  have he : (fun j => Spec.Ethash.words (Spec.Large.itemAt P.keccak512 (cacheAt P d e c) d.datasetParents.toNat (BitVec.ofNat 32 j))) =
      itemWords P d e c := by
    funext j
    rw [itemAt_eq P _ _ (by rw [hlen]; omega) (by rw [hlen]; omega)]
    rfl
  rw [he, show m - 16 * (m / 16) = m % 16 by omega]
  rfl

/-- all system calls up to the reading of the file succeed -/
def AllFine (o : WriteEnv) : Prop := o.Fine ∧ o.reading.openFails = false ∧ o.reading.mapFails = false ∧ o.reading.lockFails = false

theorem fillContent_tail (m t : Nat) (ht : t < 4) (generator : List U32 → Go (List U32)) (data : List U32)
    (hg : generator (List.replicate m 0) = .ok data) :
    fillContent (8 + 4 * m + t) generator = .ok (Spec.Disk.magic ++ (bytesLE data ++ List.replicate t 0)) := by
  simp only [fillContent]
  have h1 : wordView (List.replicate (8 + 4 * m + t) (0 : Byte)) = List.replicate (m + 2) 0 := by
    rw [show 8 + 4 * m + t = 4 * (m + 2) + t by omega, List.replicate_add, ← bytesLE_replicate,
      Files.wordView_tail _ _ (by rw [List.length_replicate]; exact ht)]
  have h2 : dumpMagic.take (m + 2) = dumpMagic := List.take_of_length_le (by simp [dumpMagic])
  rw [h1, List.length_replicate, h2, List.drop_replicate, show m + 2 - dumpMagic.length = m by simp [dumpMagic],
    slc_ok _ _ _ (by simp) (Nat.le_refl _), ok_bind, List.take_length, List.drop_left, hg, ok_bind, List.take_left, List.drop_replicate,
    List.length_append, List.length_replicate, show 8 + 4 * m + t - 4 * (dumpMagic.length + m) = t by simp [dumpMagic]; omega, byteView_eq]
  refine congrArg Except.ok ?_
  rw [← magic_bytes, bytesLE, bytesLE, bytesLE, List.flatMap_append, List.append_assoc]

theorem memoryMap_tail (f : FS) (path : String) (lock : Bool) (r : MapEnv) (w : List U32) (t : List Byte) (ht : t.length < 4)
    (h : f path = some (Spec.Disk.magic ++ (bytesLE w ++ t))) :
    (memoryMap f path lock r = .ok none ∨ memoryMap f path lock r = .ok (some w)) ∧
      (r.openFails = false → r.mapFails = false → r.lockFails = false → memoryMap f path lock r = .ok (some w)) := by
  rw [memoryMap]
  by_cases h1 : r.openFails = true
  · rw [if_pos h1]
    exact ⟨Or.inl rfl, fun h => by simp [h1] at h⟩
  rw [if_neg h1, h]
  dsimp only
  by_cases hm : r.mapFails = true
  · exact ⟨Or.inl (memoryMapContent_fail _ _ _ (Or.inl hm)), fun _ h => by simp [hm] at h⟩
  have hm : r.mapFails = false := by simpa using hm
  cases hl : (lock && r.lockFails) with
  | true => exact ⟨Or.inl (memoryMapContent_magic_lock _ _ hm _ hl), fun _ _ h => by simp [h] at hl⟩
  | false => rw [memoryMapContent_magic _ _ hm _ hl, Files.wordView_tail w t ht]; exact ⟨Or.inr rfl, fun _ _ _ => rfl⟩

/-- `memoryMapAndGenerate` with a size that need not be a multiple of four: nothing is returned or the data, the latter if all system calls
succeed -/
theorem memoryMapAndGenerate_any (f : FS) (path : String) (size : U64) (lock : Bool) (generator : List U32 → Go (List U32))
    (o : WriteEnv) (data : List U32) (hs : size.toNat / 4 = data.length) (hs2 : size.toNat + 8 < 2 ^ 63)
    (hg : generator (List.replicate data.length 0) = .ok data) :
    ∃ r fs', memoryMapAndGenerate f path size lock generator o = .ok (r, fs') ∧ (r = none ∨ r = some data) ∧
      (AllFine o → r = some data) ∧ (o.mkdirFails = true → r = none) := by
  obtain ⟨t, ht, hst⟩ : ∃ t, t < 4 ∧ size.toNat = 4 * data.length + t := ⟨size.toNat % 4, by omega, by omega⟩
  have hn : (8 + size : U64).toNat = 8 + 4 * data.length + t := by
    rw [BitVec.toNat_add, hst]
    have : (8 + (4 * data.length + t)) % 2 ^ 64 = 8 + (4 * data.length + t) := Nat.mod_eq_of_lt (by omega)
    exact this.trans (by omega)
  have hi : (8 + size : U64).toInt = ((8 + 4 * data.length + t : Nat) : Int) := by
    rw [BitVec.toInt_eq_toNat_of_lt (by omega), hn]
  have hbad : ∀ g : FS, ¬ o.Fine → ∃ r fs', (Except.ok (none, g) : Go (Option (List U32) × FS)) = .ok (r, fs') ∧
      (r = none ∨ r = some data) ∧ (AllFine o → r = some data) ∧ (o.mkdirFails = true → r = none) :=
    fun g h => ⟨_, _, rfl, Or.inl rfl, fun hf => absurd hf.1 h, fun _ => rfl⟩
  simp only [memoryMapAndGenerate]
  rw [hi]
  by_cases h1 : o.mkdirFails = true
  · rw [if_pos h1]; exact hbad _ fun h => by simp [WriteEnv.Fine, h1] at h
  rw [if_neg h1]
  by_cases h2 : o.createFails = true
  · rw [if_pos h2]; exact hbad _ fun h => by simp [WriteEnv.Fine, h2] at h
  rw [if_neg h2]
  by_cases h3 : (o.truncateFails || decide (((8 + 4 * data.length + t : Nat) : Int) < 0)) = true
  · rw [if_pos h3]
    refine hbad _ fun h => ?_
    rw [h.2.2.1, Bool.false_or, decide_eq_true_eq] at h3
    omega
  rw [if_neg h3]
  by_cases h4 : (o.mapFails || decide (((8 + 4 * data.length + t : Nat) : Int) = 0)) = true
  · rw [if_pos h4]
    refine hbad _ fun h => ?_
    rw [h.2.2.2.1, Bool.false_or, decide_eq_true_eq] at h4
    omega
  rw [if_neg h4, Int.toNat_natCast]
  simp only [fillAndRename]
  rw [fillContent_tail _ _ ht _ _ hg, ok_bind]
  by_cases h5 : (o.unmapFails || o.closeFails || o.renameFails) = true
  · rw [if_pos h5]
    exact hbad _ fun h => by rw [h.2.2.2.2.1, h.2.2.2.2.2.1, h.2.2.2.2.2.2] at h5; simp at h5
  rw [if_neg h5]
  obtain ⟨k1, k2⟩ := memoryMap_tail _ path lock o.reading data (List.replicate t 0) (by rw [List.length_replicate]; exact ht)
    (FS.write_same ((f.write (tempPath path o.suffix) (Spec.Disk.magic ++ (bytesLE data ++ List.replicate t 0))).remove
      (tempPath path o.suffix)) path (Spec.Disk.magic ++ (bytesLE data ++ List.replicate t 0)))
  rcases k1 with k1 | k1
  · rw [k1, ok_bind]
    refine ⟨_, _, rfl, Or.inl rfl, fun h => ?_, fun h => absurd h h1⟩
    have := k2 h.2.1 h.2.2.1 h.2.2.2
    rw [k1] at this
    injection this
  · rw [k1, ok_bind]
    exact ⟨_, _, rfl, Or.inr rfl, fun _ => rfl, fun h => absurd h h1⟩

/-- a size whose sum with the eight bytes of the magic is negative or zero as an `int64` -/
theorem memoryMapAndGenerate_refused (f : FS) (path : String) (size : U64) (lock : Bool) (generator : List U32 → Go (List U32))
    (o : WriteEnv) (h1 : 2 ^ 63 ≤ size.toNat + 8) (h2 : size.toNat + 8 ≤ 2 ^ 64) :
    ∃ fs', memoryMapAndGenerate f path size lock generator o = .ok (none, fs') := by
  have hn : (8 + size : U64).toNat = (8 + size.toNat) % 2 ^ 64 := BitVec.toNat_add ..
  have hi : (8 + size : U64).toInt ≤ 0 := by
    rw [BitVec.toInt]
    by_cases h : size.toNat + 8 = 2 ^ 64
    · rw [hn, show 8 + size.toNat = 2 ^ 64 by omega]; decide
    · rw [if_neg (by omega)]; omega
  simp only [memoryMapAndGenerate]
  by_cases h1 : o.mkdirFails = true
  · rw [if_pos h1]; exact ⟨_, rfl⟩
  rw [if_neg h1]
  by_cases h2 : o.createFails = true
  · rw [if_pos h2]; exact ⟨_, rfl⟩
  rw [if_neg h2]
  by_cases h3 : (o.truncateFails || decide ((8 + size : U64).toInt < 0)) = true
  · rw [if_pos h3]; exact ⟨_, rfl⟩
  rw [if_neg h3]
  have h0 : (8 + size : U64).toInt = 0 := by
    rw [Bool.or_eq_true, decide_eq_true_eq] at h3
    omega
  rw [if_pos (by rw [h0, decide_eq_true rfl, Bool.or_true])]
  exact ⟨_, rfl⟩

/-- a size whose sum with the eight bytes of the magic wraps around to less than these -/
theorem memoryMapAndGenerate_wrap (f : FS) (path : String) (size : U64) (lock : Bool) (generator : List U32 → Go (List U32))
    (o : WriteEnv) (h : 2 ^ 64 < size.toNat + 8) (ho : o.Fine) :
    memoryMapAndGenerate f path size lock generator o = .error (.panic .slice) := by
  obtain ⟨a1, a2, a3, a4, _⟩ := ho
  have hlt := size.isLt
  obtain ⟨n, hn0, hn8, hn⟩ : ∃ n, 0 < n ∧ n < 8 ∧ (8 + size : U64).toNat = n := by
    refine ⟨size.toNat + 8 - 2 ^ 64, by omega, by omega, ?_⟩
    rw [BitVec.toNat_add]
    show (8 + size.toNat) % 2 ^ 64 = _
    omega
  have hi : (8 + size : U64).toInt = (n : Int) := by rw [BitVec.toInt_eq_toNat_of_lt (by omega), hn]
  simp only [memoryMapAndGenerate]
  rw [hi, if_neg (by simp [a1]), if_neg (by simp [a2]),
    if_neg (by rw [a3, Bool.false_or, decide_eq_true_eq]; omega),
    if_neg (by rw [a4, Bool.false_or, decide_eq_true_eq]; omega), Int.toNat_natCast]
  simp only [fillAndRename, fillContent]
  have hs : ∀ w : List U32, w.length ≤ 1 → slc (dumpMagic.take w.length ++ w.drop dumpMagic.length) dumpMagic.length
      (dumpMagic.take w.length ++ w.drop dumpMagic.length).length = .error (.panic .slice) := by
    intro w hw
    match w with
    | [] => rfl
    | [_] => rfl
  rw [hs _ (by rw [wordView_length, List.length_replicate]; omega)]
  rfl

theorem provideCache_any (c : Nat) (hw : Whole c) (h32 : c < 2 ^ 32) (path : String) (f : FS) (o : WriteEnv) :
    ∃ fs', provideCache P d (BitVec.ofNat 64 c) (seedAt P d e) path f o = .ok (cacheAt P d e c, fs') := by
  have hlen := cacheAt_length P d e c hw h32
  obtain ⟨h1, h2⟩ := hw
  have hcn : (BitVec.ofNat 64 c).toNat = c := by rw [BitVec.toNat_ofNat]; omega
  have hg : generateCache P d.cacheRounds (List.replicate (cacheAt P d e c).length 0) (seedAt P d e) = .ok (cacheAt P d e c) := by
    rw [(generateCache_eq P _ d.cacheRounds (c / 64) (by omega) (by omega) _ (by rw [List.length_replicate, hlen])).1]
    rfl
  obtain ⟨r, fs', he, hr, _⟩ := memoryMapAndGenerate_any f path (BitVec.ofNat 64 c) d.cachesLockMmap
    (fun buffer => generateCache P d.cacheRounds buffer (seedAt P d e)) o (cacheAt P d e c) (by rw [hcn, hlen]; omega) (by omega) hg
  rw [provideCache, he, ok_bind]
  rcases hr with rfl | rfl
  · simp only
    have : freshCache (BitVec.ofNat 64 c) = List.replicate (cacheAt P d e c).length 0 := by
      rw [freshCache, BitVec.toNat_udiv, hcn, hlen]
      exact congrArg (List.replicate · 0) (show c / 4 = _ by omega)
    rw [this, hg, ok_bind]
    exact ⟨fs', rfl⟩
  · exact ⟨fs', rfl⟩

theorem provideL1_any (c : Nat) (hw : Whole c) (h32 : c < 2 ^ 32) (hm : d.l1CacheSize.toNat + 8 < 2 ^ 63)
    (path : String) (f : FS) (o : WriteEnv) : ∃ l fs', provideL1 P d (cacheAt P d e c) path f o = .ok (l, fs') ∧
      (l = l1Of P d e c (d.l1CacheSize.toNat / 4) ∨ l = l1Of P d e c d.l1CacheNumItems.toNat) ∧
      (AllFine o → l = l1Of P d e c (d.l1CacheSize.toNat / 4)) ∧
      (o.mkdirFails = true → l = l1Of P d e c d.l1CacheNumItems.toNat) := by
  obtain ⟨m, hmm⟩ : ∃ m, m = d.l1CacheSize.toNat / 4 := ⟨_, rfl⟩
  rw [← hmm]
  have hl := l1Of_words P d e c m
  have hg : generateL1Cache P d.datasetParents (List.replicate (l1Of P d e c m).length 0) (cacheAt P d e c) = .ok (l1Of P d e c m) := by
    rw [hl]; exact l1Of_gen P d e c hw h32 m
  obtain ⟨r, fs', he, hr, hfine, hmk⟩ := memoryMapAndGenerate_any f path d.l1CacheSize d.cachesLockMmap
    (fun buffer => generateL1Cache P d.datasetParents buffer (cacheAt P d e c)) o (l1Of P d e c m) (by omega) (by omega) hg
  rw [provideL1, he, ok_bind]
  rcases hr with rfl | rfl
  · simp only
    rw [memoryL1, l1Of_gen P d e c hw h32, ok_bind]
    exact ⟨_, fs', rfl, Or.inr rfl, fun h => by simpa using hfine h, fun _ => rfl⟩
  · exact ⟨_, fs', rfl, Or.inl rfl, fun _ => rfl, fun h => by simpa using hmk h⟩

theorem seedAt_length : (seedAt P d e).length = 32 := seed_length ..

variable (fuel : Nat) (hf : 2 ^ 63 < fuel) (hdir : d.storageDir ≠ "") (hs : d.seedEpochLength ≠ 0)
  (c : Nat) (hc : CacheSizeIs d e.toNat c) (hw : Whole c) (h32 : c < 2 ^ 32) (hF : NoFiles P d e fs)
include hf hdir hs hc hw h32 hF

theorem generate_disk : ∃ fs1, generate P fuel d e fs o = (do
    let (l1, fs) ← ensureL1 P d (cacheAt P d e c) (l1StorageLocation d ((seedAt P d e).take 8)) (if d.l1Enabled then none else some []) fs1
      o.l1Write
    let fs ← cleanup P d e o.removeFails fs
    return (⟨cacheAt P d e c, l1⟩, fs)) := by
  have hcn : (BitVec.ofNat 64 c).toNat = c := by rw [BitVec.toNat_ofNat]; omega
  have hno : ∀ (p : String) (lock : Bool) (r : MapEnv), fs p = none → memoryMap fs p lock r = .ok none := by
    intro p lock r h
    rw [memoryMap, h]
    cases r.openFails <;> rfl
  obtain ⟨fs1, e1⟩ := provideCache_any P d e c hw h32 (cacheStorageLocation d ((seedAt P d e).take 8)) fs o.cacheWrite
  refine ⟨fs1, ?_⟩
  rw [generate, (C95_cacheSize d e (BitVec.ofNat 64 c) fuel hf).2 (by rw [hcn]; exact hc), ok_bind, C95_seedHash, if_neg hs, ok_bind,
    if_neg hdir, show (e * d.epochLength + 1).toNat = (e.toNat * d.epochLength.toNat + 1) % 2 ^ 64 by
      rw [BitVec.toNat_add, BitVec.toNat_mul]
      show (_ % _ + 1) % _ = _
      omega, generateOnDisk]
  change (slc (seedAt P d e) 0 8 >>= _) = _
  rw [slc_ok _ _ _ (by omega) (by rw [seedAt_length]; omega), ok_bind]
  simp only [List.drop_zero]
  rw [hno _ _ _ hF.1, ok_bind]
  have ht : tryL1 d fs (l1StorageLocation d ((seedAt P d e).take 8)) o.l1Read = .ok (if d.l1Enabled then none else some []) := by
    rw [tryL1]
    cases d.l1Enabled with
    | true => rw [if_pos rfl, if_pos rfl]; exact hno _ _ _ hF.2
    | false => rfl
  rw [ht, ok_bind]
  cases d.l1Enabled <;> (dsimp only [ensureCache]; rw [← seedAt, e1]; rfl)

omit hf hdir hc hw h32 hF in
theorem cleanup_ok (f : FS) : ∃ fs', cleanup P d e o.removeFails f = .ok fs' := by
  obtain ⟨fs', h, _⟩ := cleanup_loop P d hs o.removeFails (BitVec.ofInt 64 (e.toInt - d.cachesCount)).toInt
    ((BitVec.ofInt 64 (e.toInt - d.cachesCount)).toInt + 1).toNat f
  exact ⟨fs', h⟩

/-- **C96** A configuration with a directory that does not contain the files of the epoch: whatever the outcomes of the system calls, the
cache is the one that a client without a directory computes, and the L1 cache has `L1CacheSize / 4` or `L1CacheNumItems` words: the
former if all calls succeed, the latter for example if the directory cannot be created. -/
theorem C96_generate (hm : d.l1CacheSize.toNat + 8 < 2 ^ 63) : ∃ l fs', generate P fuel d e fs o =
      .ok (⟨cacheAt P d e c, l⟩, fs') ∧ (d.l1Enabled = false → l = []) ∧
    (d.l1Enabled = true → (l = l1Of P d e c (d.l1CacheSize.toNat / 4) ∨ l = l1Of P d e c d.l1CacheNumItems.toNat) ∧
      (AllFine o.l1Write → l = l1Of P d e c (d.l1CacheSize.toNat / 4)) ∧ (o.l1Write.mkdirFails = true → l = l1Of P d e c d.l1CacheNumItems.toNat)) := by
  obtain ⟨fs1, he⟩ := generate_disk P d e fs o fuel hf hdir hs c hc hw h32 hF
  rw [he]
  cases hE : d.l1Enabled with
  | false =>
    obtain ⟨fs2, h2⟩ := cleanup_ok P d e o hs fs1
    refine ⟨[], fs2, ?_, fun _ => rfl, fun h => by simp at h⟩
    simp only [ensureL1]
    rw [if_neg (by simp), ok_bind]
    simp only
    rw [h2]
    rfl
  | true =>
    obtain ⟨l, fs2, e2, h1, h2, h3⟩ := provideL1_any P d e c hw h32 hm (l1StorageLocation d ((seedAt P d e).take 8)) fs1 o.l1Write
    obtain ⟨fs3, e3⟩ := cleanup_ok P d e o hs fs2
    refine ⟨l, fs3, ?_, fun h => by simp at h, fun _ => ⟨h1, h2, h3⟩⟩
    rw [if_pos rfl, ensureL1, e2, ok_bind]
    simp only
    rw [e3]
    rfl

/-- system calls that all succeed -/
def calm : GenEnv :=
  ⟨⟨false, false, false⟩, ⟨false, false, false⟩, ⟨false, 0, false, false, false, false, false, false, false, ⟨false, false, false⟩⟩,
    ⟨false, 0, false, false, false, false, false, false, false, ⟨false, false, false⟩⟩, fun _ => false⟩

omit hf hdir hs hc hw h32 hF in
theorem calm_fine : AllFine calm.l1Write := ⟨⟨rfl, rfl, rfl, rfl, rfl, rfl, rfl⟩, rfl, rfl, rfl⟩

/-- **C96** So the caches do not depend on the directory and on the outcomes of the system calls exactly if `L1CacheSize / 4` is
`L1CacheNumItems` (or there is no L1 cache). -/
theorem C96_same (hm : d.l1CacheSize.toNat + 8 < 2 ^ 63) :
    (∀ o, Prod.fst <$> generate P fuel d e fs o = Prod.fst <$> generate P fuel { d with storageDir := "" } e fs o) ↔
      (d.l1Enabled = true → d.l1CacheSize.toNat / 4 = d.l1CacheNumItems.toNat) := by
  have hmem : ∀ o, Prod.fst <$> generate P fuel { d with storageDir := "" } e fs o = .ok ⟨cacheAt P d e c, l1At P d e c⟩ := by
    intro o
    rw [C95_generate P { d with storageDir := "" } e fuel hf fs o rfl c hc hw h32 hs]
    rfl
  have hdisk := fun o => C96_generate P d e fs o fuel hf hdir hs c hc hw h32 hF hm
  have hAt : d.l1Enabled = true → l1At P d e c = l1Of P d e c d.l1CacheNumItems.toNat := fun hE => by rw [l1At, if_pos hE]; rfl
  constructor
  · intro h hE
    have h := h calm
    obtain ⟨l, fs', e1, _, h2⟩ := hdisk calm
    rw [hmem, e1] at h
    injection h with h
    injection h with _ h
    rw [(h2 hE).2.1 calm_fine, hAt hE] at h
    have := congrArg List.length h
    rw [l1Of_words, l1Of_words] at this
    omega
  · intro h o
    obtain ⟨l, fs', e1, h1, h2⟩ := hdisk o
    rw [hmem, e1]
    cases hE : d.l1Enabled with
    | false => rw [h1 hE, l1At, if_neg (by simp [hE])]; rfl
    | true =>
      have hq : d.l1CacheSize.toNat / 4 = d.l1CacheNumItems.toNat := h hE
      rw [hAt hE]
      rcases (h2 hE).1 with h3 | h3
      · rw [h3, hq]; rfl
      · rw [h3]; rfl

/-- **C96** With an `L1CacheSize` of 2^63 - 8 up to 2^64 - 8 no file can be made, so that the caches are those in memory. -/
theorem C96_huge (h1 : 2 ^ 63 ≤ d.l1CacheSize.toNat + 8) (h2 : d.l1CacheSize.toNat + 8 ≤ 2 ^ 64) :
    Prod.fst <$> generate P fuel d e fs o = Prod.fst <$> generate P fuel { d with storageDir := "" } e fs o := by
  obtain ⟨fs1, he⟩ := generate_disk P d e fs o fuel hf hdir hs c hc hw h32 hF
  rw [C95_generate P { d with storageDir := "" } e fuel hf fs o rfl c hc hw h32 hs, he]
  have hAt : l1At P { d with storageDir := "" } e c = if d.l1Enabled then l1Of P d e c d.l1CacheNumItems.toNat else [] := by
    rw [l1At]; rfl
  rw [hAt]
  cases hE : d.l1Enabled with
  | false =>
    obtain ⟨fs2, h2⟩ := cleanup_ok P d e o hs fs1
    rw [if_neg (by simp), if_neg (by simp), ensureL1, ok_bind]
    simp only
    rw [h2]
    rfl
  | true =>
    obtain ⟨fs2, e2⟩ := memoryMapAndGenerate_refused fs1 (l1StorageLocation d ((seedAt P d e).take 8)) d.l1CacheSize d.cachesLockMmap
      (fun buffer => generateL1Cache P d.datasetParents buffer (cacheAt P d e c)) o.l1Write h1 h2
    obtain ⟨fs3, e3⟩ := cleanup_ok P d e o hs fs2
    rw [if_pos rfl, if_pos rfl, ensureL1, provideL1, e2, ok_bind]
    simp only
    rw [memoryL1, l1Of_gen P d e c hw h32, ok_bind]
    simp only [pure, Except.pure, ok_bind]
    rw [e3]
    rfl

/-- **C96** With one of the seven above, the eight bytes of the magic and this size wrap around to fewer than eight bytes: `generate` panics once
such a file could be mapped. -/
theorem C96_wraps (hE : d.l1Enabled = true) (h : 2 ^ 64 < d.l1CacheSize.toNat + 8) (ho : o.l1Write.Fine) :
    generate P fuel d e fs o = .error (.panic .slice) := by
  obtain ⟨fs1, he⟩ := generate_disk P d e fs o fuel hf hdir hs c hc hw h32 hF
  rw [he, if_pos hE, ensureL1, provideL1, memoryMapAndGenerate_wrap _ _ _ _ _ _ h ho]
  rfl

end

/-! ## What the clients return -/

section
variable (P : Prims) (d : Config) (fs : FS) (o : GenEnv) (fuel : Nat) (hf : 2 ^ 63 < fuel) (hdir : d.storageDir ≠ "")
  (hash : List Byte) (height nonce : U64)

/-- the epoch of the height is one whose cache a client with this configuration can compute: the sizes of the dataset and of the cache are
`s` and `c` -/
structure Ready (s c : Nat) : Prop where
  epoch : d.epochLength ≠ 0
  seed : d.seedEpochLength ≠ 0
  dataset : DatasetSizeIs d (height.toNat / d.epochLength.toNat) s
  cache : CacheSizeIs d (height.toNat / d.epochLength.toNat) c
  whole : Whole c
  small : c < 2 ^ 32
  l1Small : d.l1CacheSize.toNat + 8 < 2 ^ 63
  noFiles : NoFiles P d (height / d.epochLength) fs

variable (s c : Nat) (hR : Ready P d fs height s c)
include hf hdir hR

theorem prepare_disk : ∃ l, Clients.prepare fuel d (fun e => Prod.fst <$> generate P fuel d e fs o) height =
      .ok (BitVec.ofNat 64 s, ⟨cacheAt P d (height / d.epochLength) c, l⟩) ∧
    (d.l1Enabled = true → (l = l1Of P d (height / d.epochLength) c (d.l1CacheSize.toNat / 4) ∨
        l = l1Of P d (height / d.epochLength) c d.l1CacheNumItems.toNat) ∧
      (AllFine o.l1Write → l = l1Of P d (height / d.epochLength) c (d.l1CacheSize.toNat / 4)) ∧
      (o.l1Write.mkdirFails = true → l = l1Of P d (height / d.epochLength) c d.l1CacheNumItems.toNat)) := by
  have hs64 := datasetSize_lt d hR.dataset
  have hen : (height / d.epochLength).toNat = height.toNat / d.epochLength.toNat := BitVec.toNat_udiv ..
  have hs := hR.dataset
  have hc := hR.cache
  rw [← hen] at hs hc
  have hsn : (BitVec.ofNat 64 s).toNat = s := by rw [BitVec.toNat_ofNat]; omega
  obtain ⟨l, fs', e1, _, h2⟩ := C96_generate P d _ fs o fuel hf hdir hR.seed c hc hR.whole hR.small hR.noFiles hR.l1Small
  refine ⟨l, ?_, h2⟩
  rw [Clients.prepare, calcEpoch, udiv, if_neg hR.epoch, ok_bind, (C95_datasetSize d _ (BitVec.ofNat 64 s) fuel hf).2 (by rw [hsn]; exact hs),
    ok_bind, e1]
  rfl

omit hdir in
theorem prepare_memory : Clients.prepare fuel { d with storageDir := "" }
      (fun e => Prod.fst <$> generate P fuel { d with storageDir := "" } e fs o) height =
    .ok (BitVec.ofNat 64 s, ⟨cacheAt P d (height / d.epochLength) c, l1At P d (height / d.epochLength) c⟩) := by
  have hw : Whole c := hR.whole
  exact prepare_works P { d with storageDir := "" } fuel hf fs o rfl height s c hR.epoch hR.seed hR.dataset hR.cache hw hR.small

/-- **C96** `Compute` of ethash and of octopus, which have no use for an L1 cache, returns the same with and without a directory, whatever
the outcomes of the system calls, … -/
theorem C96_ethash : Clients.ethash P fuel d (fun e => Prod.fst <$> generate P fuel d e fs o) hash height nonce =
    Clients.ethash P fuel { d with storageDir := "" } (fun e => Prod.fst <$> generate P fuel { d with storageDir := "" } e fs o) hash height
      nonce := by
  obtain ⟨l, e1, _⟩ := prepare_disk P d fs o fuel hf hdir height s c hR
  rw [Clients.ethash, Clients.ethash, e1, prepare_memory P d fs o fuel hf height s c hR]
  rfl

theorem C96_octopus : Clients.octopus P fuel d (fun e => Prod.fst <$> generate P fuel d e fs o) hash height nonce =
    Clients.octopus P fuel { d with storageDir := "" } (fun e => Prod.fst <$> generate P fuel { d with storageDir := "" } e fs o) hash height
      nonce := by
  obtain ⟨l, e1, _⟩ := prepare_disk P d fs o fuel hf hdir height s c hR
  rw [Clients.octopus, Clients.octopus, e1, prepare_memory P d fs o fuel hf height s c hR]
  rfl

omit hf hdir hR in
/-- the published function reads no word of the L1 cache but the first 4096 -/
theorem full_congr (v : Spec.Progpow.Variant) (ht n items : Nat) (dag : Nat → List U32) (l l' : Nat → U32)
    (h : ∀ i, i < 4096 → l i = l' i) :
    Spec.Progpow.full v hash ht n items dag l = Spec.Progpow.full v hash ht n items dag l' := by
  have he : Spec.Progpow.exec Spec.Progpow.standard l = Spec.Progpow.exec Spec.Progpow.standard l' := by
    funext lane i
    cases i with
    | cache src dst sel =>
      simp only [Spec.Progpow.exec]
      rw [h ((lane.getD src 0).toNat % Spec.Progpow.standard.cacheWords) (show _ % 4096 < 4096 from Nat.mod_lt _ (by decide))]
    | math src1 src2 sel1 dst sel2 => rfl
  have hr : ∀ prog mix k, Spec.Progpow.roundsUpTo Spec.Progpow.standard prog 4 items dag l mix k =
      Spec.Progpow.roundsUpTo Spec.Progpow.standard prog 4 items dag l' mix k := by
    intro prog mix k
    induction k with
    | zero => rfl
    | succ k ih =>
      rw [Spec.Progpow.roundsUpTo, Spec.Progpow.roundsUpTo, ih, Spec.Progpow.round, Spec.Progpow.round, he]
  simp only [Spec.Progpow.full, Spec.Progpow.mixHash, hr]

omit hf hdir hR in
/-- the words of the items that fit do not depend on the length -/
theorem l1Of_getD (e : U64) (m i : Nat) (hi : i < 4096) (hm : 4096 ≤ m) :
    (l1Of P d e c m).getD i 0 = (l1Of P d e c 4096).getD i 0 := by
  have hsplit : List.range (m / 16) = List.range 256 ++ (List.range (m / 16 - 256)).map (256 + ·) := by
    rw [show m / 16 = 256 + (m / 16 - 256) by omega, List.range_add]
    simp
  have hlen : ((List.range 256).flatMap (itemWords P d e c)).length = 4096 := by
    rw [flatMap_length_const _ 16 (fun j => by rw [itemWords, words_eq, wordView_length, itemOf_length]) _, List.length_range]
  rw [l1Of, l1Of, hsplit, List.flatMap_append, List.append_assoc, List.getD_eq_getElem?_getD, List.getD_eq_getElem?_getD,
    List.getElem?_append_left (by omega), List.getElem?_append_left (by
      show i < ((List.range 256).flatMap (itemWords P d e c)).length
      omega)]

/-- **C96** … and so does `Compute` of kawpow and of firopow if both `L1CacheSize` and `L1CacheNumItems` stand for at least 4096 words, even
if they disagree. -/
theorem C96_kawpow (hp : s / 256 % 2 ^ 32 ≠ 0) (hl : d.l1Enabled = true) (hn : 4096 ≤ d.l1CacheNumItems.toNat)
    (hm : 4 * 4096 ≤ d.l1CacheSize.toNat) :
    Clients.kawpow P fuel d (fun e => Prod.fst <$> generate P fuel d e fs o) hash height nonce =
      Clients.kawpow P fuel { d with storageDir := "" } (fun e => Prod.fst <$> generate P fuel { d with storageDir := "" } e fs o) hash height
        nonce := by
  have hsn : (BitVec.ofNat 64 s).toNat = s := by have := datasetSize_lt d hR.dataset; rw [BitVec.toNat_ofNat]; omega
  have hni : Progpow.numItems (BitVec.ofNat 64 s) = s / 256 % 2 ^ 32 := by rw [Progpow.numItems, hsn]
  have hw : Whole c := hR.whole
  by_cases hh : hash.length = 32
  · obtain ⟨l, e1, h1⟩ := prepare_disk P d fs o fuel hf hdir height s c hR
    have hll : 4096 ≤ l.length ∧ ∀ i, i < 4096 → l.getD i 0 = (l1At P d (height / d.epochLength) c).getD i 0 := by
      have hAt : l1At P d (height / d.epochLength) c = l1Of P d (height / d.epochLength) c d.l1CacheNumItems.toNat := by
        rw [l1At, if_pos hl]; rfl
      rcases (h1 hl).1 with rfl | rfl
      · refine ⟨by rw [l1Of_words]; omega, fun i hi => ?_⟩
        rw [hAt, l1Of_getD P d c _ _ i hi (by omega), l1Of_getD P d c _ _ i hi hn]
      · refine ⟨by rw [l1Of_words]; omega, fun i hi => ?_⟩
        rw [hAt]
    rw [C95_kawpow P { d with storageDir := "" } fuel hf fs o rfl hash hh height nonce s c hR.epoch hR.seed hR.dataset hp hR.cache hw
      hR.small hl hn, Clients.kawpow, if_neg (by omega), e1, ok_bind]
    dsimp only
    rw [Progpow.kawpow_ok hash (by omega) height nonce _ (by rw [hni]; omega) _ (pageWords P d (height / d.epochLength) c)
      (fun i _ => ⟨page_lookup P d _ c hw hR.small i, pageWords_length ..⟩) _ hll.1, hni, ok_bind]
    exact congrArg (fun x => Except.ok (some x)) (full_congr hash _ _ _ _ _ _ _ hll.2)
  · rw [Clients.kawpow, Clients.kawpow, if_pos hh, if_pos hh]

theorem C96_firopow (hp : s / 256 % 2 ^ 32 ≠ 0) (hl : d.l1Enabled = true) (hn : 4096 ≤ d.l1CacheNumItems.toNat)
    (hm : 4 * 4096 ≤ d.l1CacheSize.toNat) :
    Clients.firopow P fuel d (fun e => Prod.fst <$> generate P fuel d e fs o) hash height nonce =
      Clients.firopow P fuel { d with storageDir := "" } (fun e => Prod.fst <$> generate P fuel { d with storageDir := "" } e fs o) hash height
        nonce := by
  have hsn : (BitVec.ofNat 64 s).toNat = s := by have := datasetSize_lt d hR.dataset; rw [BitVec.toNat_ofNat]; omega
  have hni : Progpow.numItems (BitVec.ofNat 64 s) = s / 256 % 2 ^ 32 := by rw [Progpow.numItems, hsn]
  have hw : Whole c := hR.whole
  by_cases hh : hash.length = 32
  · obtain ⟨l, e1, h1⟩ := prepare_disk P d fs o fuel hf hdir height s c hR
    have hll : 4096 ≤ l.length ∧ ∀ i, i < 4096 → l.getD i 0 = (l1At P d (height / d.epochLength) c).getD i 0 := by
      have hAt : l1At P d (height / d.epochLength) c = l1Of P d (height / d.epochLength) c d.l1CacheNumItems.toNat := by
        rw [l1At, if_pos hl]; rfl
      rcases (h1 hl).1 with rfl | rfl
      · refine ⟨by rw [l1Of_words]; omega, fun i hi => ?_⟩
        rw [hAt, l1Of_getD P d c _ _ i hi (by omega), l1Of_getD P d c _ _ i hi hn]
      · refine ⟨by rw [l1Of_words]; omega, fun i hi => ?_⟩
        rw [hAt]
    rw [C95_firopow P { d with storageDir := "" } fuel hf fs o rfl hash hh height nonce s c hR.epoch hR.seed hR.dataset hp hR.cache hw
      hR.small hl hn, Clients.firopow, if_neg (by omega), e1, ok_bind]
    dsimp only
    rw [Progpow.firopow_ok hash (by omega) height nonce _ (by rw [hni]; omega) _ (pageWords P d (height / d.epochLength) c)
      (fun i _ => ⟨page_lookup P d _ c hw hR.small i, pageWords_length ..⟩) _ hll.1, hni, ok_bind]
    exact congrArg (fun x => Except.ok (some x)) (full_congr hash _ _ _ _ _ _ _ hll.2)
  · rw [Clients.firopow, Clients.firopow, if_pos hh, if_pos hh]

/-- **C96** But with `L1CacheSize` left at its zero, which is no obstacle in memory (C95), they panic once the file could be written: the L1 cache
in the file is empty. -/
theorem C96_kawpow_unset (hh : hash.length = 32) (hp : s / 256 % 2 ^ 32 ≠ 0) (hl : d.l1Enabled = true) (hm : d.l1CacheSize = 0)
    (ho : AllFine o.l1Write) :
    Clients.kawpow P fuel d (fun e => Prod.fst <$> generate P fuel d e fs o) hash height nonce = .error (.panic .index) := by
  have hsn : (BitVec.ofNat 64 s).toNat = s := by have := datasetSize_lt d hR.dataset; rw [BitVec.toNat_ofNat]; omega
  have hw : Whole c := hR.whole
  obtain ⟨l, e1, h1⟩ := prepare_disk P d fs o fuel hf hdir height s c hR
  have h0 : l = [] := by rw [(h1 hl).2.1 ho, hm]; rfl
  rw [Clients.kawpow, if_neg (by omega), e1, ok_bind, h0]
  dsimp only
  rw [Progpow.kawpow_noL1 hash (by omega) height nonce _ (by rw [Progpow.numItems, hsn]; exact hp) _
    (fun i => pageWords P d (height / d.epochLength) c i.toNat) fun i => by
      have := page_lookup P d (height / d.epochLength) c hw hR.small i.toNat
      rwa [BitVec.ofNat_toNat, BitVec.setWidth_eq] at this]
  rfl

theorem C96_firopow_unset (hh : hash.length = 32) (hp : s / 256 % 2 ^ 32 ≠ 0) (hl : d.l1Enabled = true) (hm : d.l1CacheSize = 0)
    (ho : AllFine o.l1Write) :
    Clients.firopow P fuel d (fun e => Prod.fst <$> generate P fuel d e fs o) hash height nonce = .error (.panic .index) := by
  have hsn : (BitVec.ofNat 64 s).toNat = s := by have := datasetSize_lt d hR.dataset; rw [BitVec.toNat_ofNat]; omega
  have hw : Whole c := hR.whole
  obtain ⟨l, e1, h1⟩ := prepare_disk P d fs o fuel hf hdir height s c hR
  have h0 : l = [] := by rw [(h1 hl).2.1 ho, hm]; rfl
  rw [Clients.firopow, if_neg (by omega), e1, ok_bind, h0]
  dsimp only
  rw [Progpow.firopow_noL1 hash (by omega) height nonce _ (by rw [Progpow.numItems, hsn]; exact hp) _
    (fun i => pageWords P d (height / d.epochLength) c i.toNat) fun i => by
      have := page_lookup P d (height / d.epochLength) c hw hR.small i.toNat
      rwa [BitVec.ofNat_toNat, BitVec.setWidth_eq] at this]
  rfl

end

/-! ## A configuration that meets the hypotheses -/

/-- the small configuration of C95 with a directory -/
def toyDisk : Config := { toy with storageDir := "/tmp", l1CacheSize := 16384 }

example (P : Prims) : Ready P toyDisk (fun _ => none) 5 3968 832 where
  epoch := by decide
  seed := by decide
  dataset := toy_dataset
  cache := toy_cache
  whole := ⟨by decide, by decide⟩
  small := by decide
  l1Small := by decide
  noFiles := ⟨rfl, rfl⟩

example : toyDisk.storageDir ≠ "" ∧ 3968 / 256 % 2 ^ 32 ≠ 0 ∧ toyDisk.l1Enabled = true ∧ 4096 ≤ toyDisk.l1CacheNumItems.toNat ∧
    4 * 4096 ≤ toyDisk.l1CacheSize.toNat ∧ AllFine calm.l1Write := ⟨by decide, by decide, rfl, by decide, by decide, calm_fine⟩

/-- with `L1CacheSize` left out, the caches with and without a directory differ for some outcomes of the system calls -/
example (P : Prims) (fuel : Nat) (hf : 2 ^ 63 < fuel) : ∃ o,
    Prod.fst <$> generate P fuel { toy with storageDir := "/tmp" } 0 (fun _ => none) o ≠ Prod.fst <$> generate P fuel toy 0 (fun _ => none) o := by
  by_contra h
  push Not at h
  have := (C96_same P { toy with storageDir := "/tmp" } 0 (fun _ => none) fuel hf (by decide) (by decide) 832 toy_cache ⟨by decide, by decide⟩ (by decide)
    ⟨rfl, rfl⟩ (by decide)).1 h rfl
  exact absurd this (by decide)

/-- sizes of a file that cannot be made and of one that has no room for the magic -/
example : 2 ^ 63 ≤ (0xfffffffffffffff8 : U64).toNat + 8 ∧ (0xfffffffffffffff8 : U64).toNat + 8 ≤ 2 ^ 64 ∧
    2 ^ 64 < (0xfffffffffffffffc : U64).toNat + 8 ∧ calm.l1Write.Fine := ⟨by decide, by decide, by decide, calm_fine.1⟩

end Verif.Props
