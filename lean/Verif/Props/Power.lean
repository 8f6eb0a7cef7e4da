import Verif.Model.Power
import Verif.Props.Files

/-! # Losses of power: property C88 -/

set_option autoImplicit false

namespace Verif.Props

open Go Dag Files

attribute [local irreducible] Tables.ethashCacheSizes Tables.ethashDatasetSizes Tables.firopowDatasetSizes Tables.octopusCacheSizes
  Tables.octopusDatasetSizes

/-- the names of cache files -/
def final (H256 : Spec.Bytes → Spec.Bytes) (dir : String) (q : String) : Prop :=
  ∃ kind ∈ kinds, ∃ c ∈ chains, ∃ e, q = Spec.filePath H256 dir kind c e

/-- every file under the name of a cache file is the published one, or cannot be taken for a cache file -/
def Mendable (H256 H512 : Spec.Bytes → Spec.Bytes) (dir : String) (fs : FS) : Prop :=
  ∀ c ∈ chains, ∀ e, usable c e → ∀ w, Spec.IsCache H256 H512 c e w →
    (∀ x, fs (Spec.filePath H256 dir "cache" c e) = some x → Spec.Disk.Whole (Spec.Disk.file w) x) ∧
    (c.l1 ≠ 0 → ∀ x, fs (Spec.filePath H256 dir "l1" c e) = some x → Spec.Disk.Whole (Spec.Disk.file (Spec.l1Of H512 c w)) x)

theorem mendable_iff {H256 H512 : Spec.Bytes → Spec.Bytes} {dir : String} {fs : FS} : Mendable H256 H512 dir fs ↔
    ∀ q x c, fs q = some x → Right H256 H512 dir q c → Spec.Disk.Whole c x := by
  constructor
  · rintro h q x content hq ⟨c, hc, e, he, w, hw, ⟨h1, h2⟩ | ⟨h0, h1, h2⟩⟩
    · subst h1 h2
      exact (h c hc e he w hw).1 x hq
    · subst h1 h2
      exact (h c hc e he w hw).2 h0 x hq
  · intro h c hc e he w hw
    refine ⟨fun x hx => h _ x _ hx ⟨c, hc, e, he, w, hw, Or.inl ⟨rfl, rfl⟩⟩, ?_⟩
    intro h0 x hx
    exact h _ x _ hx ⟨c, hc, e, he, w, hw, Or.inr ⟨h0, rfl, rfl⟩⟩

theorem view_iff {disk : Disk} {q : String} {x : List Byte} : disk.view q = some x ↔ ∃ f, disk.names q = some f ∧ disk.data f = x := by
  rw [Disk.view]
  cases disk.names q with
  | none => simp
  | some f => simp

section
variable (P : Prims) (dir : String) (hnc : NoClash P.keccak256) (fuel : Nat) (hf : 2 ^ 63 < fuel) {disk : Disk} (hd : Tidy disk)
  (hs : Mendable P.keccak256 P.keccak512 dir disk.view) {past : List Disk} {s : System}
  (h : Life P fuel (jobs dir) True (final P.keccak256 dir) Spec.Disk.Whole disk past s)
include hnc hf hd hs h

theorem life_inv : (∀ d ∈ past, Mendable P.keccak256 P.keccak512 dir d.view) ∧
    ∃ G, SysInv (Right P.keccak256 P.keccak512 dir) True (jobs dir) (published P dir) s G := by
  have start : ∀ d : Disk, Tidy d → Mendable P.keccak256 P.keccak512 dir d.view →
      ∃ G, SysInv (Right P.keccak256 P.keccak512 dir) True (jobs dir) (published P dir) ⟨d, [], []⟩ G := by
    intro d ht hm
    refine sys_reach (P := P) (fuel := fuel) (right_unique P hnc dir) (right_not_temp P dir) tempPath_inj
      (generate_published P True dir fuel hf) ht.inj ht.lt ?_ .init
    intro q f c h1 h2
    exact (mendable_iff.mp hm q _ c (view_iff.mpr ⟨f, h1, rfl⟩) h2).imp_right fun h => ⟨trivial, h⟩
  induction h with
  | init =>
    refine ⟨?_, start disk hd hs⟩
    intro d hd
    rw [List.mem_singleton] at hd
    subst hd
    exact hs
  | step _ hstep ih =>
    obtain ⟨ih1, G, hG⟩ := ih
    obtain ⟨G', hG'⟩ := sys_step (right_unique P hnc dir) (right_not_temp P dir) tempPath_inj (generate_published P True dir fuel hf) hG hstep
    refine ⟨?_, G', hG'⟩
    intro d hd
    rcases List.mem_cons.mp hd with hd | hd
    · subst hd
      refine mendable_iff.mpr fun q x c hq hr => ?_
      obtain ⟨f, h1, h2⟩ := view_iff.mp hq
      subst h2
      exact (hG'.core.good q f c h1 hr).imp_right fun h => h.2
    · exact ih1 d hd
  | @power past' s' after _ hl ih =>
    obtain ⟨ih1, _⟩ := ih
    have hm : Mendable P.keccak256 P.keccak512 dir after.view := by
      refine mendable_iff.mpr fun q x c hq hr => ?_
      obtain ⟨d, hd, c0, h1, h2⟩ := hl.left q (right_final hr) x hq
      rcases h2 with h2 | h2
      · rw [h2]
        exact mendable_iff.mp (ih1 d hd) q c0 c h1 hr
      · exact Or.inr h2
    refine ⟨?_, start after ⟨hl.inj, hl.lt⟩ hm⟩
    intro d hd
    rcases List.mem_cons.mp hd with hd | hd
    · subst hd; exact hm
    · exact ih1 d hd

/-- **C88** On a file system that keeps a file whole or leaves nothing that starts with the magic, over any number of losses of power at any
moment: every file under a final name is at all times the published one or one that is rejected. -/
theorem C88_files : ∀ d ∈ past, Mendable P.keccak256 P.keccak512 dir d.view := (life_inv P dir hnc fuel hf hd hs h).1

/-- **C88** In such executions no `generate` panics, and whatever it returned is and stays the published cache and L1 cache. -/
theorem C88_result (t : Nat) (d : Config) (e : U64) (p : Prog Buffers) (ht : s.workers[t]? = some ⟨d, e, some p⟩) :
    (∀ x, p ≠ .stop x) ∧ ∀ b, p = .ret b → ∃ c w, (d, c) ∈ clients dir ∧ Spec.IsCache P.keccak256 P.keccak512 c e.toNat w ∧
      b.cache.words s.disk = w ∧ b.l1.words s.disk = Spec.l1Of P.keccak512 c w := by
  obtain ⟨_, G, hG⟩ := life_inv P dir hnc fuel hf hd hs h
  have hp := hG.progs t d e p ht
  constructor
  · rintro x rfl
    exact hp
  · rintro b rfl
    obtain ⟨c, hc, he⟩ := hG.jobs t _ ht
    obtain ⟨w, hw, h1, h2⟩ := hp c hc he
    have key : ∀ (b : Buffer) w, b.Is (G t).held w → b.words s.disk = w := by
      intro b w hb
      cases b with
      | mem ws => exact hb
      | file f =>
        show dataOf (s.disk.data f) = w
        rw [(hG.core.held t f _ hb).2.1, dataOf_file]
    exact ⟨c, w, hc, hw, key _ _ h1, key _ _ h2⟩

end

/-- the hypotheses are met by an empty directory, and by one with contents that are rejected under any name -/
example (P : Prims) (dir q : String) : Mendable P.keccak256 P.keccak512 dir emptyDisk.view ∧
    Mendable P.keccak256 P.keccak512 dir (fun p => if p = q then some [] else none) := by
  refine ⟨mendable_iff.mpr (fun _ _ _ h => by cases h), mendable_iff.mpr fun p x c h _ => Or.inr (Or.inl ?_)⟩
  by_cases hp : p = q
  · rw [if_pos hp] at h
    injection h with h
    exact h.symm
  · rw [if_neg hp] at h
    cases h

/-! ## Files that are lost in part -/

theorem life_reach {P : Prims} {fuel : Nat} {Job : Config → U64 → Prop} {ex : Prop} {fin : String → Prop}
    {lose : List Byte → List Byte → Prop} {disk d : Disk} {past : List Disk} {s : System}
    (h : Life P fuel Job ex fin lose disk past ⟨d, [], []⟩) (hd : d ∈ past) (hr : Files.Reach P fuel Job ex d s) :
    ∃ past', Life P fuel Job ex fin lose disk past' s ∧ s.disk ∈ past' ∧ ∀ d ∈ past, d ∈ past' := by
  induction hr with
  | init => exact ⟨past, h, hd, fun _ h => h⟩
  | step _ hs ih =>
    obtain ⟨past', h', _, hsub⟩ := ih
    exact ⟨_, h'.step hs, List.mem_cons_self, fun d hd => List.mem_cons_of_mem _ (hsub d hd)⟩

/-- a directory with one file -/
def oneFile (path : String) (content : List Byte) : Disk := ⟨fun q => if q = path then some 0 else none, fun _ => content, 1⟩

theorem oneFile_loss {fin : String → Prop} {lose : List Byte → List Byte → Prop} (path : String) (content : List Byte) (past : List Disk)
    (d : Disk) (hd : d ∈ past) {c : List Byte} (hv : d.view path = some c) (hl : lose c content) :
    PowerLoss fin lose past (oneFile path content) := by
  have hnames : ∀ q f, (oneFile path content).names q = some f → q = path ∧ f = 0 := by
    intro q f hq
    have hq : (if q = path then some 0 else none) = some f := hq
    by_cases h : q = path
    · rw [if_pos h] at hq
      injection hq with hq
      exact ⟨h, hq.symm⟩
    · rw [if_neg h] at hq
      cases hq
  refine ⟨fun q q' f h1 h2 => by rw [(hnames q f h1).1, (hnames q' f h2).1], fun q f h1 => ?_, ?_⟩
  · rw [(hnames q f h1).2]
    exact Nat.one_pos
  · intro q _ x hq
    obtain ⟨f, h1, h2⟩ := view_iff.mp hq
    have h2 : content = x := h2
    subst h2
    rw [(hnames q f h1).1]
    exact ⟨d, hd, _, hv, hl⟩

theorem tempPath_own (path : String) (n : Nat) : tempPath path n ≠ path := by
  intro h
  have h := congrArg (fun s => s.toList.length) h
  rw [tempPath_toList] at h
  simp at h

theorem torn_magic (rest : List Byte) : Spec.Disk.Torn (Spec.Disk.magic ++ rest) Spec.Disk.magic :=
  ⟨by rw [List.length_append]; omega, fun i b hb => Or.inr (by
    rw [List.getElem?_append_left (List.getElem?_eq_some_iff.mp hb).1]; exact hb)⟩

theorem torn_same (a : List Byte) : Spec.Disk.Torn a a := ⟨Nat.le_refl _, fun _ _ h => Or.inr h⟩

theorem torn_append {a a' b b' : List Byte} (h : Spec.Disk.Torn a a') (hl : a'.length = a.length) (h' : Spec.Disk.Torn b b') :
    Spec.Disk.Torn (a ++ b) (a' ++ b') := by
  refine ⟨by rw [List.length_append, List.length_append]; have := h'.1; omega, ?_⟩
  intro i x hx
  by_cases hi : i < a'.length
  · rw [List.getElem?_append_left hi] at hx
    rw [List.getElem?_append_left (by omega)]
    exact h.2 i x hx
  · rw [List.getElem?_append_right (by omega)] at hx
    rw [List.getElem?_append_right (by omega), ← hl]
    exact h'.2 _ x hx

theorem torn_word (x : U32) : Spec.Disk.Torn (leBytes 4 x) (leBytes 4 (0 : U32)) := by
  refine ⟨Nat.le_refl _, fun i b hb => Or.inl ?_⟩
  have : b ∈ leBytes 4 (0 : U32) := List.mem_of_getElem? hb
  revert this
  revert b
  intro b _ hb
  have hz : leBytes 4 (0 : U32) = [0, 0, 0, 0] := by decide
  rw [hz] at hb
  simp only [List.mem_cons, List.not_mem_nil, or_false] at hb
  tauto

theorem torn_set (w : List U32) (j : Nat) : Spec.Disk.Torn (bytesLE w) (bytesLE (w.set j 0)) := by
  induction w generalizing j with
  | nil => exact torn_same _
  | cons x w ih =>
    cases j with
    | zero => exact torn_append (a := leBytes 4 x) (a' := leBytes 4 0) (torn_word x) rfl (torn_same (bytesLE w))
    | succ j => exact torn_append (a := leBytes 4 x) (a' := leBytes 4 x) (torn_same _) rfl (ih j)

/-- **C88** On a file system that can lose parts of a file that was never flushed, a process can come to use whatever is left of it: in the
first execution a process writes the cache file of Ethereum's first epoch and maps it; then the power fails; every remainder that still starts
with the magic is mapped by a process that starts afterwards, and its words are used as the cache. -/
theorem C88_torn (P : Prims) (dir : String) (hdir : dir ≠ "") (fuel : Nat) (hf : 2 ^ 63 < fuel) : ∃ w,
    Spec.IsCache P.keccak256 P.keccak512 .eth 0 w ∧ 0 < w.length ∧
    ∀ rest, Spec.Disk.Torn (Spec.Disk.file w) (Spec.Disk.magic ++ rest) → ∃ past s f,
      Life P fuel (jobs dir) True (final P.keccak256 dir) Spec.Disk.Torn emptyDisk past s ∧
      s.workers[0]? = some ⟨ethereum dir, 0, some (.ret ⟨.file f, .mem []⟩)⟩ ∧ (Buffer.file f).words s.disk = wordView rest := by
  obtain ⟨s1, f1, w, hr1, _, hw, _, hv1⟩ := C44_reached P dir hdir fuel hf
  obtain ⟨w', size, gen, K, cp, hw', hw0, hcp, hsi, hK1, hrun, hold, _, hA⟩ := eth_first P dir hdir fuel hf
  have := hw.unique hw'
  subst this
  rw [hcp] at hv1
  refine ⟨w, hw, hw0, fun rest ht => ?_⟩
  obtain ⟨past, hl, hmem, _⟩ := life_reach (fin := final P.keccak256 dir) (lose := Spec.Disk.Torn) (Life.init) List.mem_cons_self hr1
  obtain ⟨after, hafter⟩ : ∃ d, d = oneFile cp (Spec.Disk.magic ++ rest) := ⟨_, rfl⟩
  have hdata : ∀ f, after.data f = Spec.Disk.magic ++ rest := by intro f; rw [hafter]; rfl
  have hcpn : after.names cp = some 0 := by rw [hafter]; exact if_pos rfl
  have hpl : PowerLoss (final P.keccak256 dir) Spec.Disk.Torn past after := by
    rw [hafter]
    exact oneFile_loss cp _ past s1.disk hmem hv1 ht
  have hl2 := hl.power hpl
  have hview : wordView (after.data 0) = dumpMagic ++ wordView rest := by rw [hdata, magic_words]; rfl
  have hC := hold after 0 (runs_memoryMap after cp 0 (wordView rest) hcpn hview (by rw [hdata]; simp [Spec.Disk.magic]))
  have r0 : Files.Reach P fuel (jobs dir) False after _ :=
    Reach.init.step (.begin _ (ethereum dir) 0 ⟨.eth, by simp [clients], Or.inl (by decide), by decide⟩)
  obtain ⟨dr, hdr, r1⟩ := hC.reach (t := 0) rfl r0
  have r2 := reach_distinct r1 (by
    intro t t' n h1 h2
    have h1 := (hdr _ h1).resolve_left List.not_mem_nil
    have h2 := (hdr _ h2).resolve_left List.not_mem_nil
    exact h1.trans h2.symm)
  obtain ⟨past', hl3, _⟩ := life_reach hl2 List.mem_cons_self r2
  refine ⟨past', _, 0, hl3, rfl, ?_⟩
  show dataOf (after.data 0) = _
  rw [dataOf, hview, List.drop_left]

/-- **C88** Contents that are rejected are replaced: a process that finds them under the name of the cache file of Ethereum's first epoch can
write the file again and use it. -/
theorem C88_mended (P : Prims) (dir : String) (hdir : dir ≠ "") (fuel : Nat) (hf : 2 ^ 63 < fuel) : ∃ w,
    Spec.IsCache P.keccak256 P.keccak512 .eth 0 w ∧
    ∀ content, Spec.Disk.Rejected content → ∃ past s f,
      Life P fuel (jobs dir) True (final P.keccak256 dir) Spec.Disk.Whole emptyDisk past s ∧
      (∃ d ∈ past, d.view (Spec.filePath P.keccak256 dir "cache" .eth 0) = some content) ∧
      s.workers[0]? = some ⟨ethereum dir, 0, some (.ret ⟨.file f, .mem []⟩)⟩ ∧ (Buffer.file f).words s.disk = w ∧
      s.disk.view (Spec.filePath P.keccak256 dir "cache" .eth 0) = some (Spec.Disk.file w) := by
  obtain ⟨s1, f1, w, hr1, _, hw, _, hv1⟩ := C44_reached P dir hdir fuel hf
  obtain ⟨w', size, gen, K, cp, hw', hw0, hcp, hsi, hK1, hrun, hold, hwrite, hA⟩ := eth_first P dir hdir fuel hf
  have := hw.unique hw'
  subst this
  rw [hcp] at hv1 ⊢
  refine ⟨w, hw, fun content hrej => ?_⟩
  obtain ⟨past, hl, hmem, _⟩ := life_reach (fin := final P.keccak256 dir) (lose := Spec.Disk.Whole) (Life.init) List.mem_cons_self hr1
  obtain ⟨after, hafter⟩ : ∃ d, d = oneFile cp content := ⟨_, rfl⟩
  have hpl : PowerLoss (final P.keccak256 dir) Spec.Disk.Whole past after := by
    rw [hafter]
    exact oneFile_loss cp content past s1.disk hmem hv1 (Or.inr hrej)
  have hl2 := hl.power hpl
  have hcpn : after.names cp = some 0 := by rw [hafter]; exact if_pos rfl
  have hdata : after.data 0 = content := by rw [hafter]; rfl
  have hfresh : after.fresh = 1 := by rw [hafter]; rfl
  have htn : after.names (tempPath cp 0) = none := by
    rw [hafter]
    exact if_neg (tempPath_own cp 0)
  obtain ⟨d1, hd1⟩ : ∃ d : Disk, d = { (after.bind (tempPath cp 0) (some after.fresh)).put after.fresh (Spec.Disk.file w) with fresh := after.fresh + 1 } := ⟨_, rfl⟩
  obtain ⟨d2, hd2⟩ : ∃ d : Disk, d = (d1.bind (tempPath cp 0) none).bind cp (some 1) := ⟨_, rfl⟩
  have hA : Runs after (Files.generate P fuel (ethereum dir) 0) d1 (publish (tempPath cp 0) cp false >>= K) := by
    rw [hd1]
    exact (hrun after (runs_memoryMap_bad after cp false 0 hcpn (by rw [hdata]; exact hrej))).trans (hwrite after 0 htn)
  have hB : Runs d1 (publish (tempPath cp 0) cp false >>= K) d2 (Files.memoryMap cp false >>= K) := by
    rw [hd2]
    refine (runs_rename _ cp false 1 (tempPath cp 0) ?_).bind _
    rw [hd1, hfresh]
    exact if_pos rfl
  have hn2 : d2.names cp = some 1 := by rw [hd2]; exact if_pos rfl
  have hc2 : d2.data 1 = Spec.Disk.file w := by rw [hd2, hd1, hfresh]; rfl
  have hC : Runs d2 (Files.memoryMap cp false >>= K) d2 (.ret ⟨.file 1, .mem []⟩) := by
    rw [← hK1]
    refine (runs_memoryMap d2 cp 1 w hn2 (by rw [hc2, file_view]) ?_).bind _
    rw [hc2, Spec.Disk.file]
    simp [Spec.Disk.magic]
  have r0 : Files.Reach P fuel (jobs dir) False after _ :=
    Reach.init.step (.begin _ (ethereum dir) 0 ⟨.eth, by simp [clients], Or.inl (by decide), by decide⟩)
  obtain ⟨dr, hdr, r1⟩ := ((hA.trans hB).trans hC).reach (t := 0) rfl r0
  have r2 := reach_distinct r1 (by
    intro t t' n h1 h2
    have h1 := (hdr _ h1).resolve_left List.not_mem_nil
    have h2 := (hdr _ h2).resolve_left List.not_mem_nil
    exact h1.trans h2.symm)
  obtain ⟨past', hl3, hsub⟩ := life_reach hl2 List.mem_cons_self r2
  refine ⟨past', _, 1, hl3, ⟨after, hsub.2 _ List.mem_cons_self, view_iff.mpr ⟨0, hcpn, hdata⟩⟩, rfl, ?_, view_iff.mpr ⟨1, hn2, hc2⟩⟩
  show dataOf (d2.data 1) = _
  rw [hc2, dataOf_file]

/-- **C88** In particular a process can come to use a cache without any words, with which every lookup in the dataset panics, or one in which
any one word is zero. -/
theorem C88_wrong (P : Prims) (dir : String) (hdir : dir ≠ "") (fuel : Nat) (hf : 2 ^ 63 < fuel) : ∃ w,
    Spec.IsCache P.keccak256 P.keccak512 .eth 0 w ∧
    (∃ past s f, Life P fuel (jobs dir) True (final P.keccak256 dir) Spec.Disk.Torn emptyDisk past s ∧
      s.workers[0]? = some ⟨ethereum dir, 0, some (.ret ⟨.file f, .mem []⟩)⟩ ∧ (Buffer.file f).words s.disk ≠ w ∧
      ∀ i, lookup512 P (ethereum dir).datasetParents ((Buffer.file f).words s.disk) i = .error (.panic .divZero)) ∧
    ∀ j, j < w.length → ∃ past s f, Life P fuel (jobs dir) True (final P.keccak256 dir) Spec.Disk.Torn emptyDisk past s ∧
      s.workers[0]? = some ⟨ethereum dir, 0, some (.ret ⟨.file f, .mem []⟩)⟩ ∧ (Buffer.file f).words s.disk = w.set j 0 := by
  obtain ⟨w, hw, hw0, h⟩ := C88_torn P dir hdir fuel hf
  refine ⟨w, hw, ?_, ?_⟩
  · obtain ⟨past, s, f, h1, h2, h3⟩ := h [] (by rw [List.append_nil]; exact torn_magic _)
    refine ⟨past, s, f, h1, h2, ?_, ?_⟩
    · rw [h3]
      rintro rfl
      exact absurd hw0 (by decide)
    · intro i
      rw [h3]
      rfl
  · intro j hj
    obtain ⟨past, s, f, h1, h2, h3⟩ := h (bytesLE (w.set j 0)) (by
      rw [Spec.Disk.file, bytes_eq]
      exact torn_append (torn_same _) rfl (torn_set w j))
    refine ⟨past, s, f, h1, h2, ?_⟩
    rw [h3, wordView_bytesLE]

end Verif.Props
