import Verif.Model.IntWidth
import Verif.Proof.Dag
import Verif.Proof.EaglesongDigest
import Verif.Proof.EaglesongParams

/-! # The code with an `int` of `w` bits -/

set_option autoImplicit false

namespace Verif.IntWidth

open Go Dag

theorem toInt_32 (x : Int) (h0 : -2 ^ 31 ≤ x) (h1 : x < 2 ^ 31) : toInt 32 x = x := by
  unfold toInt
  omega

theorem toInt_64 (x : Int) (h0 : -2 ^ 63 ≤ x) (h1 : x < 2 ^ 63) : toInt 64 x = x := by
  unfold toInt
  omega

theorem toInt_64_word (x : U64) : toInt 64 x.toNat = x.toInt := by
  have := x.isLt
  rw [BitVec.toInt_eq_toNat_cond]
  unfold toInt
  by_cases h : 2 * x.toNat < 2 ^ 64
  · rw [if_pos h]; omega
  · rw [if_neg h]; omega

theorem toInt_64_ofInt (x : Int) : toInt 64 x = (BitVec.ofInt 64 x).toInt := by
  rw [BitVec.toInt_ofInt, Int.bmod_def]
  unfold toInt
  by_cases h : x % (2 ^ 64 : Nat) < ((2 ^ 64 : Nat) + 1) / 2
  · rw [if_pos h]; omega
  · rw [if_neg h]; omega

/-! ## 64 bits: the model of the other files -/

theorem seedHash_64 (P : Prims) (d : Config) : seedHash 64 P d = Dag.seedHash P d := by
  funext h
  unfold seedHash Dag.seedHash
  simp only [toInt_64_word]

theorem rows_64 (n : Nat) (h : n < 2 ^ 63) : ((toInt 64 n).tdiv hashBytes).toNat = n / hashBytes := by
  rw [toInt_64 _ (by omega) (by omega), ← Int.ofNat_tdiv, Int.toNat_natCast]

theorem rows_32 (n : Nat) (h : n < 2 ^ 31) : ((toInt 32 n).tdiv hashBytes).toNat = n / hashBytes := by
  rw [toInt_32 _ (by omega) (by omega), ← Int.ofNat_tdiv, Int.toNat_natCast]

theorem cleanup_64 (P : Prims) (d : Config) (e : U64) : cleanup 64 P d e = Dag.cleanup P d e := by
  funext fails fs
  have hs : cleanupStep 64 P d = Dag.cleanupStep P d := by
    funext a b c f
    unfold cleanupStep Dag.cleanupStep
    rw [seedHash_64]
  unfold cleanup Dag.cleanup
  rw [hs, toInt_64_word, toInt_64_ofInt]

theorem eaglesong_64 : eaglesong 64 = Eaglesong.eaglesong := rfl

/-! ## both widths, with what they need -/

/-- a width and a bound for the values that it holds -/
structure Holds (w : Nat) (b : Nat) : Prop where
  le : b ≤ 2 ^ 63
  exact : ∀ x : Int, -(b : Int) ≤ x → x < b → toInt w x = x

theorem holds_32 : Holds 32 (2 ^ 31) := ⟨by omega, fun x h0 h1 => toInt_32 x (by omega) (by omega)⟩

theorem holds_64 : Holds 64 (2 ^ 63) := ⟨by omega, fun x h0 h1 => toInt_64 x (by omega) (by omega)⟩

theorem byteView_length (l : List U32) : (byteView l).length = 4 * l.length := by
  unfold byteView
  induction l with
  | nil => rfl
  | cons a l ih => rw [List.flatMap_cons, List.length_append, ih, leBytes_length, List.length_cons]; omega

variable {w b : Nat} (hw : Holds w b)
include hw

theorem rows_eq (n : Nat) (h : n < b) : ((toInt w n).tdiv hashBytes).toNat = n / hashBytes := by
  rw [hw.exact _ (by omega) (by omega), ← Int.ofNat_tdiv, Int.toNat_natCast]

theorem generateCache_eq (P : Prims) (rounds : Int) (dest : List U32) (seed : List Byte) (h : 4 * dest.length < b) :
    generateCache w P rounds dest seed = Dag.generateCache P rounds dest seed := by
  unfold generateCache Dag.generateCache generateCacheBytes Dag.generateCacheBytes
  dsimp only
  rw [rows_eq hw _ (by rw [byteView_length]; exact h)]

theorem generateL1Cache_eq (P : Prims) (parents : U32) (dest cache : List U32) (h : 4 * dest.length < b) :
    generateL1Cache w P parents dest cache = Dag.generateL1Cache P parents dest cache := by
  unfold generateL1Cache Dag.generateL1Cache
  dsimp only
  rw [rows_eq hw _ (by rw [byteView_length]; exact h)]

theorem generateDatasetItemUint_eq (P : Prims) (parents : U32) (cache : List U32) (index size : U32) (h : size.toNat < b) :
    generateDatasetItemUint w P parents cache index size = Dag.generateDatasetItemUint P parents cache index size := by
  unfold generateDatasetItemUint Dag.generateDatasetItemUint
  rw [hw.exact _ (by omega) (by omega), Int.toNat_natCast]

theorem seedHash_eq (P : Prims) (d : Config) (height : U64) (h : height.toNat / d.seedEpochLength.toNat < b) :
    seedHash w P d height = Dag.seedHash P d height := by
  have hq : (height / d.seedEpochLength).toNat < b := by rw [BitVec.toNat_udiv]; exact h
  unfold seedHash Dag.seedHash
  dsimp only
  by_cases hlt : height < d.seedEpochLength
  · rw [if_pos hlt, if_pos hlt]
  · have := hw.le
    rw [if_neg hlt, if_neg hlt]
    unfold udiv
    by_cases h0 : d.seedEpochLength = 0
    · rw [if_pos h0]; rfl
    · rw [if_neg h0, ok_bind, ok_bind, hw.exact _ (by omega) (by omega), BitVec.toInt_eq_toNat_cond, if_pos (by omega)]

omit hw in
/-- what a generator gets: the words after the magic number -/
theorem fillContent_congr (n : Nat) (g g' : List U32 → Go (List U32)) (h : ∀ b : List U32, 4 * b.length + 8 ≤ n ∨ b = [] → g b = g' b) :
    fillContent n g = fillContent n g' := by
  unfold fillContent
  dsimp only
  obtain ⟨B, hB⟩ : ∃ B, B = wordView (List.replicate n 0) := ⟨_, rfl⟩
  rw [← hB]
  have hl : B.length = n / 4 := by rw [hB]; simp [wordView]
  obtain ⟨C, hC⟩ : ∃ C, C = dumpMagic.take B.length ++ B.drop dumpMagic.length := ⟨_, rfl⟩
  rw [← hC]
  have hd : dumpMagic.length = 2 := rfl
  have hCl : C.length = B.length := by rw [hC, List.length_append, List.length_take, List.length_drop]; omega
  unfold slc
  by_cases hs : dumpMagic.length ≤ C.length ∧ C.length ≤ C.length
  · rw [if_pos hs, ok_bind, ok_bind, h]
    rw [List.length_drop, List.length_take]
    omega
  · rw [if_neg hs]
    rfl

omit hw in
theorem memoryMapAndGenerate_congr (fs : FS) (path : String) (size : U64) (lock : Bool) (g g' : List U32 → Go (List U32)) (o : WriteEnv)
    (h : ∀ b : List U32, 4 * b.length ≤ size.toNat → g b = g' b) :
    memoryMapAndGenerate fs path size lock g o = memoryMapAndGenerate fs path size lock g' o := by
  have : ∀ n : Int, n = (8 + size : U64).toInt → 0 ≤ n → fillContent n.toNat g = fillContent n.toNat g' := by
    intro n hn h0
    refine fillContent_congr _ _ _ fun b hb => h b ?_
    rcases hb with hb | rfl
    · have h8 : (8 + size : U64).toNat ≤ 8 + size.toNat := by rw [BitVec.toNat_add]; exact Nat.mod_le _ _
      have : n ≤ ((8 + size : U64).toNat : Int) := by
        rw [hn, BitVec.toInt_eq_toNat_cond]
        by_cases hc : 2 * (8 + size : U64).toNat < 2 ^ 64
        · rw [if_pos hc]
        · rw [if_neg hc]; omega
      omega
    · simp
  unfold memoryMapAndGenerate fillAndRename
  dsimp only
  by_cases h0 : (8 + size : U64).toInt < 0
  · simp only [h0, decide_true, Bool.or_true, if_true]
  · rw [this _ rfl (by omega)]

theorem generateInMemory_eq (P : Prims) (d : Config) (size : U64) (seed : List Byte) (h : size.toNat < b)
    (h1 : d.l1Enabled = true → 4 * d.l1CacheNumItems.toNat < b) :
    generateInMemory w P d size seed = Dag.generateInMemory P d size seed := by
  unfold generateInMemory Dag.generateInMemory memoryL1 Dag.memoryL1
  rw [generateCache_eq hw _ _ _ _ (by unfold freshCache; rw [List.length_replicate, BitVec.toNat_udiv]; show 4 * (size.toNat / 4) < b; omega)]
  by_cases he : d.l1Enabled = true
  · simp only [if_pos he, generateL1Cache_eq hw _ _ (List.replicate d.l1CacheNumItems.toNat 0) _ (by rw [List.length_replicate]; exact h1 he)]
  · simp only [if_neg he]

theorem provideCache_eq (P : Prims) (d : Config) (size : U64) (seed : List Byte) (path : String) (fs : FS) (o : WriteEnv) (h : size.toNat < b) :
    provideCache w P d size seed path fs o = Dag.provideCache P d size seed path fs o := by
  unfold provideCache Dag.provideCache
  rw [memoryMapAndGenerate_congr fs path size _ _ (fun buffer => Dag.generateCache P d.cacheRounds buffer seed) o
      fun b' hb => generateCache_eq hw _ _ _ _ (by omega),
    generateCache_eq hw _ _ _ _ (by unfold freshCache; rw [List.length_replicate, BitVec.toNat_udiv]; show 4 * (size.toNat / 4) < b; omega)]
  rfl

theorem provideL1_eq (P : Prims) (d : Config) (cache : List U32) (path : String) (fs : FS) (o : WriteEnv) (h : d.l1CacheSize.toNat < b)
    (h1 : 4 * d.l1CacheNumItems.toNat < b) :
    provideL1 w P d cache path fs o = Dag.provideL1 P d cache path fs o := by
  unfold provideL1 Dag.provideL1 memoryL1 Dag.memoryL1
  rw [memoryMapAndGenerate_congr fs path d.l1CacheSize _ _ (fun buffer => Dag.generateL1Cache P d.datasetParents buffer cache) o
      fun b' hb => generateL1Cache_eq hw _ _ _ _ (by omega),
    generateL1Cache_eq hw _ _ _ _ (by rw [List.length_replicate]; exact h1)]
  rfl

theorem cleanup_eq (P : Prims) (d : Config) (epoch : U64) (fails : String → Bool) (fs : FS) (he : epoch.toNat < b)
    (hc : 0 ≤ d.cachesCount) (hc' : d.cachesCount < b) (hm : epoch.toNat * d.epochLength.toNat + 1 < 2 ^ 64)
    (hs : (epoch.toNat * d.epochLength.toNat + 1) / d.seedEpochLength.toNat < b) :
    cleanup w P d epoch fails fs = Dag.cleanup P d epoch fails fs := by
  have hle := hw.le
  have e1 : toInt w (toInt w epoch.toNat - d.cachesCount) = epoch.toNat - d.cachesCount := by
    rw [hw.exact epoch.toNat (by omega) (by omega), hw.exact _ (by omega) (by omega)]
  have e2 : (BitVec.ofInt 64 (epoch.toInt - d.cachesCount)).toInt = epoch.toNat - d.cachesCount := by
    rw [← toInt_64_ofInt, BitVec.toInt_eq_toNat_cond, if_pos (by omega), toInt_64 _ (by omega) (by omega)]
  unfold cleanup Dag.cleanup
  rw [e1, e2]
  dsimp only
  unfold forRange
  refine loop_congr _ _ _ fun j s _ hj => ?_
  unfold cleanupStep Dag.cleanupStep
  dsimp only
  have hj' : (j : Int) ≤ epoch.toNat - d.cachesCount := by omega
  obtain ⟨x, hx⟩ : ∃ x : Nat, (epoch.toNat : Int) - d.cachesCount - j = x := ⟨((epoch.toNat : Int) - d.cachesCount - j).toNat, by omega⟩
  have hxe : x ≤ epoch.toNat := by omega
  have hmul : x * d.epochLength.toNat ≤ epoch.toNat * d.epochLength.toNat := Nat.mul_le_mul_right _ hxe
  have hv : (BitVec.ofInt 64 ((epoch.toNat : Int) - d.cachesCount - j) * d.epochLength + 1 : U64).toNat = x * d.epochLength.toNat + 1 := by
    rw [hx, BitVec.ofInt_natCast, BitVec.toNat_add, BitVec.toNat_mul, BitVec.toNat_ofNat, Nat.mod_eq_of_lt (show x < 2 ^ 64 by omega)]
    rw [Nat.mod_add_mod]
    exact Nat.mod_eq_of_lt (by show x * d.epochLength.toNat + 1 < 2 ^ 64; omega)
  rw [seedHash_eq hw P d _ (by rw [hv]; exact Nat.lt_of_le_of_lt (Nat.div_le_div_right (by omega)) hs)]

/-- what fits into the `int` of the machine in a call of `generate` -/
structure Fits (b : Nat) (d : Config) (epoch size : U64) : Prop where
  height : epoch.toNat * d.epochLength.toNat + 1 < 2 ^ 64
  seeds : (epoch.toNat * d.epochLength.toNat + 1) / d.seedEpochLength.toNat < b
  epoch : epoch.toNat < b
  size : size.toNat < b
  l1 : d.l1Enabled = true → d.l1CacheSize.toNat < b ∧ 4 * d.l1CacheNumItems.toNat < b
  count : 0 ≤ d.cachesCount ∧ d.cachesCount < b

theorem generateOnDisk_eq (P : Prims) (d : Config) (epoch size : U64) (seed : List Byte) (fs : FS) (o : GenEnv) (h : Fits b d epoch size) :
    generateOnDisk w P d epoch size seed fs o = Dag.generateOnDisk P d epoch size seed fs o := by
  have hcl : ∀ fails fs, cleanup w P d epoch fails fs = Dag.cleanup P d epoch fails fs := fun fails fs =>
    cleanup_eq hw P d epoch fails fs h.epoch h.count.1 h.count.2 h.height h.seeds
  have hec : ∀ path old fs o, ensureCache w P d size seed path old fs o = Dag.ensureCache P d size seed path old fs o := by
    intro path old fs o
    unfold ensureCache Dag.ensureCache
    cases old with
    | some x => rfl
    | none => exact provideCache_eq hw P d size seed path fs o h.size
  have hel : ∀ cache path old fs o, (d.l1Enabled = true ∨ old ≠ none) → ensureL1 w P d cache path old fs o = Dag.ensureL1 P d cache path old fs o := by
    intro cache path old fs o hd
    unfold ensureL1 Dag.ensureL1
    cases old with
    | some x => rfl
    | none => exact provideL1_eq hw P d cache path fs o (h.l1 (hd.resolve_right fun x => x rfl)).1 (h.l1 (hd.resolve_right fun x => x rfl)).2
  unfold generateOnDisk Dag.generateOnDisk
  cases slc seed 0 8 with
  | error s => rfl
  | ok key =>
    rw [ok_bind, ok_bind]
    dsimp only
    cases memoryMap fs (cacheStorageLocation d key) d.cachesLockMmap o.cacheRead with
    | error s => rfl
    | ok oldCache =>
      rw [ok_bind, ok_bind]
      by_cases hl : d.l1Enabled = true
      · simp only [hcl, hec, fun cache path old fs o => hel cache path old fs o (.inl hl)]
        rfl
      · have : tryL1 d fs (l1StorageLocation d key) o.l1Read = .ok (some []) := by unfold tryL1; rw [if_neg hl]
        rw [this, ok_bind, ok_bind]
        simp only [hcl, hec, fun cache path fs o => hel cache path (some []) fs o (.inr (by simp))]
        rfl

/-- generation with an `int` of `w` bits -/
theorem generate_eq (P : Prims) (fuel : Nat) (d : Config) (epoch : U64) (fs : FS) (o : GenEnv)
    (h : ∀ size, cacheSize fuel d epoch = .ok size → Fits b d epoch size) :
    generate w P fuel d epoch fs o = Dag.generate P fuel d epoch fs o := by
  unfold generate Dag.generate
  cases hc : cacheSize fuel d epoch with
  | error s => rfl
  | ok size =>
    have hf := h size hc
    have hh : (epoch * d.epochLength + 1 : U64).toNat = epoch.toNat * d.epochLength.toNat + 1 := by
      rw [BitVec.toNat_add, BitVec.toNat_mul, Nat.mod_add_mod]
      exact Nat.mod_eq_of_lt hf.height
    rw [ok_bind, ok_bind, seedHash_eq hw P d _ (by rw [hh]; exact hf.seeds)]
    cases Dag.seedHash P d (epoch * d.epochLength + 1) with
    | error s => rfl
    | ok seed =>
      rw [ok_bind, ok_bind, generateOnDisk_eq hw P d epoch size seed fs o hf,
        generateInMemory_eq hw P d size seed hf.size fun he => (hf.l1 he).2]

end Verif.IntWidth
