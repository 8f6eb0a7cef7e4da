import Verif.Proof.FilesRun
import Verif.Props.Disk

/-! # Several processes on one directory: properties C44 and C45 -/

set_option autoImplicit false

namespace Verif.Props

open Go Dag Files

attribute [local irreducible] Tables.ethashCacheSizes Tables.ethashDatasetSizes Tables.firopowDatasetSizes Tables.octopusCacheSizes
  Tables.octopusDatasetSizes

/-! ## Names -/

theorem digits_no_dot (n : Nat) : '.' ∉ (toString n).toList := by
  intro h
  rw [show toString n = n.repr from rfl, Nat.toList_repr] at h
  have := Nat.isDigit_of_mem_toDigits (by decide) (by decide) h
  revert this
  decide

theorem digits_inj (n m : Nat) (h : (toString n).toList = (toString m).toList) : n = m := by
  rw [show toString n = n.repr from rfl, show toString m = m.repr from rfl, Nat.toList_repr, Nat.toList_repr] at h
  have h1 : Nat.ofDigitChars 10 (Nat.toDigits 10 n) 0 = n := Nat.ofDigitChars_toDigits (by decide) (by decide)
  have h2 : Nat.ofDigitChars 10 (Nat.toDigits 10 m) 0 = m := Nat.ofDigitChars_toDigits (by decide) (by decide)
  rw [← h1, h, h2]

theorem dot_inj {a b a' b' : List Char} (hb : '.' ∉ b) (hb' : '.' ∉ b') (h : a ++ '.' :: b = a' ++ '.' :: b') : b = b' := by
  induction a generalizing a' with
  | nil =>
    cases a' with
    | nil => injection h
    | cons x a' =>
      injection h with _ h
      exact absurd (h ▸ List.mem_append_right a' List.mem_cons_self) hb
  | cons x a ih =>
    cases a' with
    | nil =>
      injection h with _ h
      exact absurd (h ▸ List.mem_append_right a List.mem_cons_self) hb'
    | cons y a' =>
      injection h with _ h
      exact ih h

/-- temporary names with different numbers differ -/
theorem tempPath_inj (p p' : String) (n n' : Nat) (h : tempPath p n = tempPath p' n') : n = n' := by
  have h := congrArg String.toList h
  rw [tempPath_toList, tempPath_toList] at h
  exact digits_inj _ _ (dot_inj (digits_no_dot n) (digits_no_dot n') h)

/-- the file under this name has to have these contents: it is the cache or the L1 cache of some chain and epoch -/
def Right (H256 H512 : Spec.Bytes → Spec.Bytes) (dir : String) (q : String) (content : List Byte) : Prop :=
  ∃ c ∈ chains, ∃ e, usable c e ∧ ∃ w, Spec.IsCache H256 H512 c e w ∧
    ((q = Spec.filePath H256 dir "cache" c e ∧ content = Spec.Disk.file w) ∨
      (c.l1 ≠ 0 ∧ q = Spec.filePath H256 dir "l1" c e ∧ content = Spec.Disk.file (Spec.l1Of H512 c w)))

theorem chain_small (c : Spec.Chain) (hc : c ∈ chains) (e : Nat) (he : usable c e) : e ≤ 65536 := by
  have : ∃ d, (d, c) ∈ clients "" := by
    simp only [chains, List.mem_cons, List.not_mem_nil, or_false] at hc
    simp only [clients, List.mem_cons, List.not_mem_nil, or_false, Prod.mk.injEq]
    rcases hc with rfl | rfl | rfl | rfl | rfl
    · exact ⟨ethereum "", by simp⟩
    · exact ⟨ethereumClassic "", by simp⟩
    · exact ⟨ravencoin "", by simp⟩
    · exact ⟨firo "", by simp⟩
    · exact ⟨conflux "", by simp⟩
  obtain ⟨d, hd⟩ := this
  exact usable_small (clients_match "" d c hd).2.1 he

theorem right_unique (P : Prims) (hnc : NoClash P.keccak256) (dir q : String) (a b : List Byte)
    (ha : Right P.keccak256 P.keccak512 dir q a) (hb : Right P.keccak256 P.keccak512 dir q b) : a = b := by
  obtain ⟨c, hc, e, he, w, hw, h⟩ := ha
  obtain ⟨c', hc', e', he', w', hw', h'⟩ := hb
  have ck : "cache" ∈ kinds := by simp [kinds]
  have lk : "l1" ∈ kinds := by simp [kinds]
  have key : ∀ k k', k ∈ kinds → k' ∈ kinds → q = Spec.filePath P.keccak256 dir k c e → q = Spec.filePath P.keccak256 dir k' c' e' →
      k = k' ∧ c = c' ∧ e = e' := by
    intro k k' hk hk' h1 h2
    obtain ⟨h3, h4, h5⟩ := filePath_inj _ _ hk hk' hc hc' (h1.symm.trans h2)
    subst h4
    exact ⟨h3, rfl, hnc c hc e e' (chain_small c hc e he) (chain_small c hc e' he') h5⟩
  rcases h with ⟨h1, h2⟩ | ⟨_, h1, h2⟩ <;> rcases h' with ⟨h1', h2'⟩ | ⟨_, h1', h2'⟩
  · obtain ⟨_, rfl, rfl⟩ := key _ _ ck ck h1 h1'
    rw [h2, h2', hw.unique hw']
  · exact absurd (key _ _ ck lk h1 h1').1 (by decide)
  · exact absurd (key _ _ lk ck h1 h1').1 (by decide)
  · obtain ⟨_, rfl, rfl⟩ := key _ _ lk lk h1 h1'
    rw [h2, h2', hw.unique hw']

theorem right_final {H256 H512 : Spec.Bytes → Spec.Bytes} {dir q : String} {a : List Byte} (h : Right H256 H512 dir q a) :
    ∃ k ∈ kinds, ∃ c ∈ chains, ∃ e, q = Spec.filePath H256 dir k c e := by
  obtain ⟨c, hc, e, he, w, hw, ⟨h, _⟩ | ⟨_, h, _⟩⟩ := h
  · exact ⟨"cache", by simp [kinds], c, hc, e, h⟩
  · exact ⟨"l1", by simp [kinds], c, hc, e, h⟩

theorem right_not_temp (P : Prims) (dir q : String) (a : List Byte) (ha : Right P.keccak256 P.keccak512 dir q a) :
    ¬ IsTemp (Right P.keccak256 P.keccak512 dir) q := by
  rintro ⟨p, b, n, hb, hq⟩
  obtain ⟨k, hk, c, hc, e, rfl⟩ := right_final ha
  obtain ⟨k', hk', c', hc', e', rfl⟩ := right_final hb
  exact tempPath_ne _ _ hk hk' hc hc' (by rw [seedLength, seedLength]) hq

/-! ## The clients -/

/-- everything about the parameters of a client at a usable epoch -/
theorem client_facts (P : Prims) (dir : String) (d : Config) (c : Spec.Chain) (h : (d, c) ∈ clients dir) (e : U64)
    (he : usable c e.toNat) (fuel : Nat) (hf : 2 ^ 63 < fuel) : ∃ size sd n, 1 ≤ n ∧ n < 2 ^ 26 ∧ size.toNat = 64 * n ∧
      cacheSize fuel d e = .ok size ∧ seedHash P d (e * d.epochLength + 1) = .ok sd ∧
      Spec.IsCache P.keccak256 P.keccak512 c e.toNat (pubCache P d size sd) ∧
      pubL1 P d size sd = Spec.l1Of P.keccak512 c (pubCache P d size sd) ∧
      cacheStorageLocation d (sd.take 8) = Spec.filePath P.keccak256 dir "cache" c e.toNat ∧
      l1StorageLocation d (sd.take 8) = Spec.filePath P.keccak256 dir "l1" c e.toNat := by
  obtain ⟨h1, hm, hdir⟩ := clients_match dir d c h
  have hsm := usable_small hm he
  have hofe : BitVec.ofNat 64 e.toNat = e := by rw [BitVec.ofNat_toNat, BitVec.setWidth_eq]
  have hb : cacheBound d e = c.cacheInit + c.cacheGrowth * e.toNat := by rw [cacheBound, hm.cacheInit, hm.cacheGrowth]
  obtain ⟨size, hsz, hsize⟩ := C31_CacheSize dir d h1 e he.1 (by rw [hb]; have := he.2; omega) fuel hf
  have hsize' := hsize
  obtain ⟨n, hsn, hnp, hnb, _⟩ := hsize'
  have hn1 : 1 ≤ n := hnp.one_lt.le
  have hn2 : n < 2 ^ 26 := by rw [hb] at hnb; have := he.2; omega
  obtain ⟨sd, hsd⟩ : ∃ s, s = Spec.epochSeed P.keccak256 c e.toNat := ⟨_, rfl⟩
  have hseed := seedHash_client P h e.toNat hsm
  rw [hofe, ← hsd] at hseed
  refine ⟨size, sd, n, hn1, hn2, hsn, hsz, hseed, ⟨size.toNat, hb ▸ hsize, by rw [pubCache, hm.rounds, hsd]⟩, ?_, ?_, ?_⟩
  · rw [pubL1, Spec.l1Of]
    by_cases hE : d.l1Enabled = true
    · rw [if_pos hE, if_neg (hm.l1Enabled.mp hE), hm.parents, hm.l1Size hE]
    · rw [if_neg hE, if_pos (by by_contra hh; exact hE (hm.l1Enabled.mpr hh))]
  · rw [hsd]; exact cachePath_client P h _
  · rw [hsd]; exact l1Path_client P h _

/-- the caches that are asked for: those of any client for any usable epoch -/
def jobs (dir : String) (d : Config) (e : U64) : Prop := ∃ c, (d, c) ∈ clients dir ∧ usable c e.toNat

/-- the two buffers hold the published caches of the epoch -/
def published (P : Prims) (dir : String) (d : Config) (e : U64) (b : Buffers) (held : List (Nat × List Byte)) : Prop :=
  ∀ c, (d, c) ∈ clients dir → usable c e.toNat → ∃ w, Spec.IsCache P.keccak256 P.keccak512 c e.toNat w ∧ b.cache.Is held w ∧
    b.l1.Is held (Spec.l1Of P.keccak512 c w)

theorem generate_published (P : Prims) (junk : Prop) (dir : String) (fuel : Nat) (hf : 2 ^ 63 < fuel) (d : Config) (e : U64) (hj : jobs dir d e) :
    wp (Right P.keccak256 P.keccak512 dir) junk (Files.generate P fuel d e) (fun b g => published P dir d e b g.held) ⟨none, [], []⟩ := by
  obtain ⟨c, h, he⟩ := hj
  obtain ⟨size, sd, n, hn1, hn2, hsn, hsz, hseed, hw, hl1, hcp, hlp⟩ := client_facts P dir d c h e he fuel hf
  obtain ⟨_, hm, _⟩ := clients_match dir d c h
  have hc := chains_of h
  refine wp_mono _ _ _ _ _ ?_ _ (generate_wp P d e size sd n hn1 hn2 hsn fuel hsz hm.sel hseed hm.l1Ok ?_ ?_ _)
  · rintro b g ⟨h1, h2⟩ c' h' _
    have : c' = c := by
      simp only [clients, List.mem_cons, List.not_mem_nil, or_false, Prod.mk.injEq] at h h'
      have hname : ∀ x y : String, x ≠ y → ∀ d d' : Config, d.name = x → d'.name = y → d ≠ d' := by
        rintro x y hxy d d' rfl rfl rfl
        exact hxy rfl
      rcases h with ⟨rfl, rfl⟩ | ⟨rfl, rfl⟩ | ⟨rfl, rfl⟩ | ⟨rfl, rfl⟩ | ⟨rfl, rfl⟩ <;>
        rcases h' with ⟨h', rfl⟩ | ⟨h', rfl⟩ | ⟨h', rfl⟩ | ⟨h', rfl⟩ | ⟨h', rfl⟩ <;>
        first | rfl | exact absurd (congrArg Config.name h') (by simp [ethereum, ethereumClassic, ravencoin, firo, conflux])
    subst this
    exact ⟨_, hw, h1, hl1 ▸ h2⟩
  · intro _
    rw [hcp]
    exact ⟨c, hc, e.toNat, he, _, hw, Or.inl ⟨rfl, rfl⟩⟩
  · intro _ hE
    rw [hlp]
    exact ⟨c, hc, e.toNat, he, _, hw, Or.inr ⟨hm.l1Enabled.mp hE, rfl, by rw [hl1]⟩⟩

/-- a directory in which no file has two names -/
structure Tidy (disk : Disk) : Prop where
  inj : ∀ q q' f, disk.names q = some f → disk.names q' = some f → q = q'
  lt : ∀ q f, disk.names q = some f → f < disk.fresh

theorem sound_iff {H256 H512 : Spec.Bytes → Spec.Bytes} {dir : String} {disk : Disk} : Sound H256 H512 dir disk.view ↔
    ∀ q f c, disk.names q = some f → Right H256 H512 dir q c → disk.data f = c := by
  have hv : ∀ q x, (disk.view q = none ∨ disk.view q = some x) ↔ ∀ f, disk.names q = some f → disk.data f = x := by
    intro q x
    rw [Disk.view]
    cases hq : disk.names q with
    | none => simp
    | some f => simp
  constructor
  · rintro h q f content hq ⟨c, hc, e, he, w, hw, ⟨h1, h2⟩ | ⟨h0, h1, h2⟩⟩
    · subst h1 h2
      exact (hv _ _).mp (h c hc e he w hw).1 f hq
    · subst h1 h2
      exact (hv _ _).mp ((h c hc e he w hw).2 h0) f hq
  · intro h c hc e he w hw
    refine ⟨(hv _ _).mpr fun f hq => h _ f _ hq ⟨c, hc, e, he, w, hw, Or.inl ⟨rfl, rfl⟩⟩, ?_⟩
    intro h0
    exact (hv _ _).mpr fun f hq => h _ f _ hq ⟨c, hc, e, he, w, hw, Or.inr ⟨h0, rfl, rfl⟩⟩

section
variable (P : Prims) (dir : String) (hnc : NoClash P.keccak256) (fuel : Nat) (hf : 2 ^ 63 < fuel) {disk : Disk} (hd : Tidy disk)
  (hs : Sound P.keccak256 P.keccak512 dir disk.view) {s : System} (h : Reach P fuel (jobs dir) True disk s)
include hnc hf hd hs h

theorem files_inv : ∃ G, SysInv (Right P.keccak256 P.keccak512 dir) False (jobs dir) (published P dir) s G :=
  sys_reach (right_unique P hnc dir) (right_not_temp P dir) tempPath_inj (generate_published P False dir fuel hf) hd.inj hd.lt
    (fun q f c h1 h2 => Or.inl (sound_iff.mp hs q f c h1 h2)) h

/-- **C44** In every execution of any number of goroutines and processes on one directory, with any of them killed at any point and files
removed by others, every file under a final name is the published one. -/
theorem C44_files : Sound P.keccak256 P.keccak512 dir s.disk.view := by
  obtain ⟨G, hG⟩ := files_inv P dir hnc fuel hf hd hs h
  exact sound_iff.mpr fun q f c h1 h2 => (hG.core.good q f c h1 h2).resolve_right fun h => h.1

/-- **C44** No `generate` panics, and whatever it returned, in memory or mapped, is and stays the published cache and L1 cache. -/
theorem C44_result (t : Nat) (d : Config) (e : U64) (p : Prog Buffers) (ht : s.workers[t]? = some ⟨d, e, some p⟩) :
    (∀ x, p ≠ .stop x) ∧ ∀ b, p = .ret b → ∃ c w, (d, c) ∈ clients dir ∧ Spec.IsCache P.keccak256 P.keccak512 c e.toNat w ∧
      b.cache.words s.disk = w ∧ b.l1.words s.disk = Spec.l1Of P.keccak512 c w := by
  obtain ⟨G, hG⟩ := files_inv P dir hnc fuel hf hd hs h
  have hp := hG.progs t d e p ht
  constructor
  · rintro x rfl
    exact hp
  · rintro b rfl
    obtain ⟨c, hc, he⟩ := hG.jobs t _ ht
    obtain ⟨w, hw, h1, h2⟩ := hp c hc he
    have key : ∀ (b : Buffer) w, b.Is (G t).held w → b.words s.disk = w := by
      intro b w hb
      cases b with
      | mem ws => exact hb
      | file f =>
        show dataOf (s.disk.data f) = w
        rw [(hG.core.held t f _ hb).2.1, dataOf_file]
    exact ⟨c, w, hc, hw, key _ _ h1, key _ _ h2⟩

end

/-- **C44** After its return a `generate` stays returned, with the same buffers, until its process is killed. -/
theorem C44_kept {P : Prims} {fuel : Nat} {Job : Config → U64 → Prop} {ex : Prop} {s s' : System} (hs : Files.Step P fuel Job ex s s') (t : Nat)
    (d : Config) (e : U64) (b : Buffers) (ht : s.workers[t]? = some ⟨d, e, some (.ret b)⟩) :
    s'.workers[t]? = some ⟨d, e, some (.ret b)⟩ ∨ s'.workers[t]? = some ⟨d, e, none⟩ := by
  have hset : ∀ (t' : Nat) w, t' ≠ t → (s.workers.set t' w)[t]? = some ⟨d, e, some (.ret b)⟩ := by
    intro t' w hne
    rw [List.getElem?_set_ne hne]
    exact ht
  cases hs with
  | begin d' e' hj =>
    left
    rw [List.getElem?_append_left (List.getElem?_eq_some_iff.mp ht).1]
    exact ht
  | call t' d' e' c k r disk hw he hx =>
    refine Or.inl (hset t' _ ?_)
    rintro rfl
    rw [hw] at ht
    injection ht with ht
    injection ht with _ _ ht
    injection ht with ht
    cases ht
  | storing t' d' e' f off bytes k c hw hl => exact Or.inl ht
  | kill t' d' e' p hw =>
    by_cases hne : t' = t
    · subst hne
      right
      rw [hw] at ht
      injection ht with ht
      injection ht with h1 h2
      subst h1 h2
      exact List.getElem?_set_self (List.getElem?_eq_some_iff.mp hw).1
    · exact Or.inl (hset t' _ hne)
  | removed path => exact Or.inl ht

/-- **C44** The contents of the buffers that a `generate` returned do not change as long as its process lives. -/
theorem C44_stable (P : Prims) (dir : String) (hnc : NoClash P.keccak256) (fuel : Nat) (hf : 2 ^ 63 < fuel) {disk : Disk} (hd : Tidy disk)
    (hs : Sound P.keccak256 P.keccak512 dir disk.view) {s s' : System} (h : Reach P fuel (jobs dir) True disk s)
    (hstep : Files.Step P fuel (jobs dir) True s s') (t : Nat) (d : Config) (e : U64) (b : Buffers)
    (ht : s.workers[t]? = some ⟨d, e, some (.ret b)⟩) (ht' : s'.workers[t]? ≠ some ⟨d, e, none⟩) :
    b.cache.words s'.disk = b.cache.words s.disk ∧ b.l1.words s'.disk = b.l1.words s.disk := by
  have hk := (C44_kept hstep t d e b ht).resolve_right ht'
  obtain ⟨c, w, hc, hw, h1, h2⟩ := (C44_result P dir hnc fuel hf hd hs h t d e _ ht).2 b rfl
  obtain ⟨c', w', hc', hw', h1', h2'⟩ := (C44_result P dir hnc fuel hf hd hs (h.step hstep) t d e _ hk).2 b rfl
  have : c' = c := by
    simp only [clients, List.mem_cons, List.not_mem_nil, or_false, Prod.mk.injEq] at hc hc'
    rcases hc with ⟨rfl, rfl⟩ | ⟨rfl, rfl⟩ | ⟨rfl, rfl⟩ | ⟨rfl, rfl⟩ | ⟨rfl, rfl⟩ <;>
      rcases hc' with ⟨h', rfl⟩ | ⟨h', rfl⟩ | ⟨h', rfl⟩ | ⟨h', rfl⟩ | ⟨h', rfl⟩ <;>
      first | rfl | exact absurd (congrArg Config.name h') (by simp [ethereum, ethereumClassic, ravencoin, firo, conflux])
  subst this
  have := hw.unique hw'
  subst this
  exact ⟨by rw [h1, h1'], by rw [h2, h2']⟩

/-! ## C45: a shared temporary name -/

/-- no number was drawn by two of the goroutines -/
def Distinct (s : System) : Prop := ∀ t t' n, (t, n) ∈ s.drawn → (t', n) ∈ s.drawn → t = t'

theorem reach_distinct {P : Prims} {fuel : Nat} {Job : Config → U64 → Prop} {disk : Disk} {s : System}
    (h : Reach P fuel Job False disk s) : Distinct s → Reach P fuel Job True disk s := by
  induction h with
  | init => exact fun _ => .init
  | step h hs ih =>
    intro hd
    cases hs with
    | begin d e hj => exact (ih hd).step (.begin _ d e hj)
    | call t d e c k r disk hw he hx =>
      refine (ih ?_).step (.call _ t d e c k r disk hw he fun _ n hn t' w' _ _ hne hmem => ?_)
      · intro t1 t2 m h1 h2
        refine hd t1 t2 m ?_ ?_ <;> (cases c <;> first | assumption | exact List.mem_cons_of_mem _ (by assumption))
      · refine hne (hd t' t n ?_ ?_)
        · show _ ∈ drawnAfter _ _ _ _
          rw [hn]
          exact List.mem_cons_of_mem _ hmem
        · show _ ∈ drawnAfter _ _ _ _
          rw [hn]
          exact List.mem_cons_self
    | storing t d e f off bytes k c hw hl => exact (ih hd).step (.storing _ t d e f off bytes k c hw hl)
    | kill t d e p hw => exact (ih hd).step (.kill _ t d e p hw)
    | removed path => exact (ih hd).step (.removed _ path)

/-- **C45** As long as no two goroutines draw the same number, no schedule of any number of processes exposes a wrong file, makes one of
them panic, or gives one of them a wrong cache. -/
theorem C45_distinct (P : Prims) (dir : String) (hnc : NoClash P.keccak256) (fuel : Nat) (hf : 2 ^ 63 < fuel) {disk : Disk} (hd : Tidy disk)
    (hs : Sound P.keccak256 P.keccak512 dir disk.view) {s : System} (h : Reach P fuel (jobs dir) False disk s) (hdist : Distinct s) :
    Sound P.keccak256 P.keccak512 dir s.disk.view ∧
    ∀ (t : Nat) (d : Config) (e : U64) (p : Prog Buffers), s.workers[t]? = some ⟨d, e, some p⟩ → (∀ x, p ≠ .stop x) ∧ ∀ b, p = .ret b → ∃ c w, (d, c) ∈ clients dir ∧
      Spec.IsCache P.keccak256 P.keccak512 c e.toNat w ∧ b.cache.words s.disk = w ∧ b.l1.words s.disk = Spec.l1Of P.keccak512 c w :=
  have hr := reach_distinct h hdist
  ⟨C44_files P dir hnc fuel hf hd hs hr, fun t d e p ht => C44_result P dir hnc fuel hf hd hs hr t d e p ht⟩

/-- an empty directory -/
def emptyDisk : Disk := ⟨fun _ => none, fun _ => [], 0⟩

/-- the hypotheses of C44 are met by an empty directory -/
example (P : Prims) (dir : String) : Tidy emptyDisk ∧ Sound P.keccak256 P.keccak512 dir emptyDisk.view :=
  ⟨⟨fun _ _ _ h => (by cases h), fun _ _ h => (by cases h)⟩, fun _ _ _ _ _ _ => ⟨Or.inl rfl, fun _ => Or.inl rfl⟩⟩

/-- the temporary file of Ethereum's first epoch is complete and closed -/
def closedDisk (temp : String) (w : List U32) : Disk :=
  ⟨fun q => if q = temp then some 0 else none, fun i => if i = 0 then Spec.Disk.file w else [], 1⟩

/-- the run of one process in an empty directory up to the closed temporary file -/
theorem eth_first (P : Prims) (dir : String) (hdir : dir ≠ "") (fuel : Nat) (hf : 2 ^ 63 < fuel) :
    ∃ (w : List U32) (size : U64) (gen : List U32 → Prog (List U32)) (K : Option Nat → Prog Buffers) (cp : String),
      Spec.IsCache P.keccak256 P.keccak512 .eth 0 w ∧ 0 < w.length ∧ Spec.filePath P.keccak256 dir "cache" .eth 0 = cp ∧
      (8 + size : U64).toInt = ((8 + 4 * w.length : Nat) : Int) ∧ (∀ f, K (some f) = Prog.ret ⟨.file f, .mem []⟩) ∧
      (∀ d, Runs d (Files.memoryMap cp false) d (.ret none) →
        Runs d (Files.generate P fuel (ethereum dir) 0) d (Files.memoryMapAndGenerate cp size false gen >>= K)) ∧
      (∀ d f, Runs d (Files.memoryMap cp false) d (.ret (some f)) →
        Runs d (Files.generate P fuel (ethereum dir) 0) d (.ret ⟨.file f, .mem []⟩)) ∧
      (∀ d n, d.names (tempPath cp n) = none → Runs d (Files.memoryMapAndGenerate cp size false gen >>= K)
        { (d.bind (tempPath cp n) (some d.fresh)).put d.fresh (Spec.Disk.file w) with fresh := d.fresh + 1 }
        (publish (tempPath cp n) cp false >>= K)) ∧
      ∀ n, Runs emptyDisk (Files.generate P fuel (ethereum dir) 0) (closedDisk (tempPath cp n) w)
        (publish (tempPath cp n) cp false >>= K) := by
  have hcl : (ethereum dir, Spec.Chain.eth) ∈ clients dir := by simp [clients]
  have hus : usable .eth (0 : U64).toNat := ⟨Or.inl (by decide), by decide⟩
  obtain ⟨size, sd, r, hr1, hr2, hsr, hsz, hseed, hw, hl1, hcp, hlp⟩ := client_facts P dir _ _ hcl 0 hus fuel hf
  obtain ⟨_, hm, hsd⟩ := clients_match dir _ _ hcl
  have hlen := pubCache_length P (ethereum dir) size sd r hr1 hr2 hsr
  obtain ⟨w, hwd⟩ : ∃ w, w = pubCache P (ethereum dir) size sd := ⟨_, rfl⟩
  have hgen : ∀ dest : List U32, dest.length = 16 * r → generateCache P (ethereum dir).cacheRounds dest sd = .ok w := by
    intro dest hd
    rw [hwd]
    exact pubCache_gen P (ethereum dir) size sd r hr1 hr2 hsr dest hd
  rw [← hwd] at hlen hw
  obtain ⟨cp, hcpd⟩ : ∃ x, x = cacheStorageLocation (ethereum dir) (sd.take 8) := ⟨_, rfl⟩
  obtain ⟨lp, hlpd⟩ : ∃ x, x = l1StorageLocation (ethereum dir) (sd.take 8) := ⟨_, rfl⟩
  have hsl : sd.length = 32 := by
    have := hseed.symm.trans (seedHash_eq P (ethereum dir) hm.sel _)
    injection this with this
    rw [this, seed_length]
  -- the program of both
  obtain ⟨gen, hgend⟩ : ∃ g : List U32 → Prog (List U32), g = fun buffer => lift (generateCache P (ethereum dir).cacheRounds buffer sd) :=
    ⟨_, rfl⟩
  obtain ⟨K, hK⟩ : ∃ K : Option Nat → Prog Buffers, K = fun df => (match df with
      | some f => Prog.ret (Buffer.file f)
      | none => do
        let words ← lift (generateCache P (ethereum dir).cacheRounds (freshCache size) sd)
        .ret (.mem words)) >>= fun cache => ensureL1 P (ethereum dir) cache lp (some (.mem [])) >>= fun l1 =>
          cleanup P (ethereum dir) 0 >>= fun _ => Prog.ret ⟨cache, l1⟩ := ⟨_, rfl⟩
  have hprog : Files.generate P fuel (ethereum dir) 0 = Files.memoryMap cp false >>= fun old =>
      complete P (ethereum dir) 0 size sd cp lp old (some (.mem [])) := by
    rw [Files.generate, hsz, hseed]
    show (if dir = "" then _ else Files.generateOnDisk P (ethereum dir) 0 size sd) = _
    rw [if_neg hdir, Files.generateOnDisk, slc_ok sd 0 8 (by omega) (by omega), List.drop_zero, hcpd, hlpd]
    rfl
  have hrest : complete P (ethereum dir) 0 size sd cp lp none (some (.mem [])) =
      Files.memoryMapAndGenerate cp size false gen >>= K := by
    rw [hK, hgend, ← Files.bind_assoc]
    rfl
  have hK1 : ∀ f, K (some f) = Prog.ret ⟨.file f, .mem []⟩ := by intro f; rw [hK]; rfl
  -- numbers
  have hnn : (8 + size : U64).toNat = 8 + 4 * w.length := by
    rw [BitVec.toNat_add, hsr, hlen]
    show (8 + 64 * r) % 2 ^ 64 = _
    omega
  have hsi : (8 + size : U64).toInt = ((8 + 4 * w.length : Nat) : Int) := by
    rw [BitVec.toInt_eq_toNat_of_lt (by omega), hnn]
  -- the first process up to the closed temporary file
  have hgen0 : gen (List.replicate w.length 0) = .ret w := by
    rw [hgend]
    show lift (generateCache _ _ _ _) = _
    rw [hgen _ (by rw [List.length_replicate, hlen])]
    rfl
  have hrun : ∀ d, Runs d (Files.memoryMap cp false) d (.ret none) →
      Runs d (Files.generate P fuel (ethereum dir) 0) d (Files.memoryMapAndGenerate cp size false gen >>= K) := by
    intro d hm
    rw [hprog]
    refine (hm.bind _).trans ?_
    show Runs _ (complete P (ethereum dir) 0 size sd cp lp none (some (.mem []))) _ _
    rw [hrest]
    exact .refl _ _
  have hold : ∀ d f, Runs d (Files.memoryMap cp false) d (.ret (some f)) →
      Runs d (Files.generate P fuel (ethereum dir) 0) d (.ret ⟨.file f, .mem []⟩) := by
    intro d f hm
    rw [hprog]
    exact hm.bind _
  have hwrite : ∀ d n, d.names (tempPath cp n) = none → Runs d (Files.memoryMapAndGenerate cp size false gen >>= K)
      { (d.bind (tempPath cp n) (some d.fresh)).put d.fresh (Spec.Disk.file w) with fresh := d.fresh + 1 }
      (publish (tempPath cp n) cp false >>= K) := by
    intro d n hn
    refine Runs.bind _ ?_
    refine (runs_create d cp size false gen n hn).trans ?_
    refine (runs_size _ cp size false gen d.fresh _ w.length hsi (if_pos rfl)).trans ?_
    refine ((runs_magic _ gen d.fresh w.length (put_data ..)).bind _).trans ?_
    refine ((runs_data _ gen d.fresh w (put_data ..) hgen0).bind _).trans ?_
    rw [put_put, put_put]
    show Runs _ (finish _ _ _ _) _ _
    have : ∀ d1 d2, d1 = d2 → Runs d1 (finish d.fresh (tempPath cp n) cp false) d2 (publish (tempPath cp n) cp false) := by
      rintro d1 d2 rfl
      exact runs_close _ cp false d.fresh _
    refine this _ _ ?_
    simp only [Disk.put, Disk.bind, Disk.mk.injEq, true_and, and_true]
    funext i
    by_cases hi : i = d.fresh
    · rw [if_pos hi, if_pos hi]
    · simp [hi]
  refine ⟨w, size, gen, K, cp, hw, by omega, by rw [hcpd]; exact hcp.symm, hsi, hK1, hrun, hold, hwrite, fun n => ?_⟩
  refine (hrun emptyDisk (runs_memoryMap_absent _ _ _)).trans ?_
  exact hwrite emptyDisk n rfl

/-- C44 is about executions such as this one: a process alone finds nothing, writes its cache file and maps it. -/
theorem C44_reached (P : Prims) (dir : String) (hdir : dir ≠ "") (fuel : Nat) (hf : 2 ^ 63 < fuel) : ∃ s f w,
    Reach P fuel (jobs dir) True emptyDisk s ∧ s.workers[0]? = some ⟨ethereum dir, 0, some (.ret ⟨.file f, .mem []⟩)⟩ ∧
      Spec.IsCache P.keccak256 P.keccak512 .eth 0 w ∧ (Buffer.file f).words s.disk = w ∧
      s.disk.view (Spec.filePath P.keccak256 dir "cache" .eth 0) = some (Spec.Disk.file w) := by
  obtain ⟨w, size, gen, K, cp, hw, hw0, hcp, hsi, hK1, hrun, _, _, hA⟩ := eth_first P dir hdir fuel hf
  obtain ⟨d1, hd1⟩ : ∃ d, d = ((closedDisk (tempPath cp 0) w).bind (tempPath cp 0) none).bind cp (some 0) := ⟨_, rfl⟩
  have hn1 : d1.names cp = some 0 := by rw [hd1]; exact if_pos rfl
  have hc1 : d1.data 0 = Spec.Disk.file w := by rw [hd1]; rfl
  have hB : Runs (closedDisk (tempPath cp 0) w) (publish (tempPath cp 0) cp false >>= K) d1 (Files.memoryMap cp false >>= K) := by
    rw [hd1]
    exact (runs_rename _ cp false 0 (tempPath cp 0) (if_pos rfl)).bind _
  have hC : Runs d1 (Files.memoryMap cp false >>= K) d1 (.ret ⟨.file 0, .mem []⟩) := by
    rw [← hK1]
    refine (runs_memoryMap d1 cp 0 w hn1 (by rw [hc1, file_view]) ?_).bind _
    rw [hc1, Spec.Disk.file]
    simp [Spec.Disk.magic]
  have s0 : Reach P fuel (jobs dir) False emptyDisk _ :=
    Reach.init.step (.begin _ (ethereum dir) 0 ⟨.eth, by simp [clients], Or.inl (by decide), by decide⟩)
  obtain ⟨dr, hdr, s1⟩ := (((hA 0).trans hB).trans hC).reach (t := 0) rfl s0
  refine ⟨_, 0, w, reach_distinct s1 ?_, rfl, hw, ?_, ?_⟩
  · intro t t' n h1 h2
    have h1 := (hdr _ h1).resolve_left List.not_mem_nil
    have h2 := (hdr _ h2).resolve_left List.not_mem_nil
    exact h1.trans h2.symm
  · show dataOf (d1.data 0) = _
    rw [hc1, dataOf_file]
  · show (d1.names _).map d1.data = _
    rw [hcp, hn1, Option.map_some, hc1]

/-- **C45** When two processes draw the same number for their temporary files, one of them can come to use a cache of zeros, which is
then also the cache file for everybody else: it creates, fills and closes the temporary file; the other one opens it for creation, which
empties it; the first one renames it; the other one sizes it and writes the magic; the first one maps it and finds the magic right. -/
theorem C45_clash (P : Prims) (dir : String) (hdir : dir ≠ "") (fuel : Nat) (hf : 2 ^ 63 < fuel) (n : Nat) :
    ∃ s f m, Reach P fuel (jobs dir) False emptyDisk s ∧ 0 < m ∧
      s.workers[0]? = some ⟨ethereum dir, 0, some (.ret ⟨.file f, .mem []⟩)⟩ ∧
      (Buffer.file f).words s.disk = List.replicate m 0 ∧
      s.disk.view (Spec.filePath P.keccak256 dir "cache" .eth 0) = some (Spec.Disk.magic ++ List.replicate (4 * m) 0) ∧
      ∀ w, Spec.IsCache P.keccak256 P.keccak512 .eth 0 w → w.length = m := by
  obtain ⟨w, size, gen, K, cp, hw, hw0, hcp, hsi, hK1, hrun, _, _, hA⟩ := eth_first P dir hdir fuel hf
  obtain ⟨temp, htemp⟩ : ∃ x, x = tempPath cp n := ⟨_, rfl⟩
  obtain ⟨d1, hd1⟩ : ∃ d, d = closedDisk temp w := ⟨_, rfl⟩
  have hA := hA n
  rw [← htemp, ← hd1] at hA
  -- the second one up to the creation of the temporary file
  obtain ⟨pB, hpB⟩ : ∃ p, p = (writeTo 0 temp cp size false gen >>= K) := ⟨_, rfl⟩
  have hB1 : Runs d1 (Files.generate P fuel (ethereum dir) 0) (d1.put 0 []) pB := by
    rw [hpB]
    refine (hrun d1 (runs_memoryMap_absent _ _ _)).trans (Runs.bind _ ?_)
    rw [htemp]
    refine runs_create_old d1 cp size false gen 0 n ?_
    rw [hd1, ← htemp]
    exact if_pos rfl
  -- the first one moves the file
  obtain ⟨d3, hd3⟩ : ∃ d, d = ((d1.put 0 []).bind temp none).bind cp (some 0) := ⟨_, rfl⟩
  have hA2 : Runs (d1.put 0 []) (publish temp cp false >>= K) d3 (Files.memoryMap cp false >>= K) := by
    rw [hd3]
    refine (runs_rename _ cp false 0 temp ?_).bind _
    rw [hd1]
    exact if_pos rfl
  -- the second one sizes it and writes the magic
  obtain ⟨d4, hd4⟩ : ∃ d, d = d3.put 0 (Spec.Disk.magic ++ List.replicate (4 * w.length) 0) := ⟨_, rfl⟩
  have hB2 : Runs d3 pB d4 ((fillData 0 gen >>= fun _ => finish 0 temp cp false) >>= K) := by
    rw [hpB]
    refine Runs.bind _ ?_
    refine (runs_size d3 cp size false gen 0 temp w.length hsi (by rw [hd3]; exact put_data d1 0 [])).trans ?_
    refine Runs.bind _ ?_
    have := runs_magic (d3.put 0 (List.replicate (8 + 4 * w.length) 0)) gen 0 w.length (put_data ..)
    rw [put_put, ← hd4] at this
    exact this
  -- the first one maps it
  have hn4 : d4.names cp = some 0 := by rw [hd4, hd3]; exact if_pos rfl
  have hc4 : d4.data 0 = Spec.Disk.magic ++ List.replicate (4 * w.length) 0 := by rw [hd4]; exact put_data ..
  have hv4 : wordView (d4.data 0) = dumpMagic ++ List.replicate w.length 0 := by
    rw [hc4, magic_words, wordView_zeros]
    rfl
  have hA3 : Runs d4 (Files.memoryMap cp false >>= K) d4 (.ret ⟨.file 0, .mem []⟩) := by
    rw [← hK1]
    refine (runs_memoryMap d4 cp 0 (List.replicate w.length 0) hn4 hv4 ?_).bind _
    rw [hc4]
    simp [Spec.Disk.magic]
  -- all together
  have hjob : jobs dir (ethereum dir) 0 := ⟨.eth, by simp [clients], Or.inl (by decide), by decide⟩
  have s0 : Reach P fuel (jobs dir) False emptyDisk _ := Reach.init.step (.begin _ (ethereum dir) 0 hjob)
  have s1 := s0.step (.begin _ (ethereum dir) 0 hjob)
  obtain ⟨_, _, s2⟩ := hA.reach (t := 0) rfl s1
  obtain ⟨_, _, s3⟩ := hB1.reach (t := 1) rfl s2
  obtain ⟨_, _, s4⟩ := hA2.reach (t := 0) rfl s3
  obtain ⟨_, _, s5⟩ := hB2.reach (t := 1) rfl s4
  obtain ⟨_, _, s6⟩ := hA3.reach (t := 0) rfl s5
  refine ⟨_, 0, w.length, s6, hw0, rfl, ?_, ?_, ?_⟩
  · show dataOf (d4.data 0) = _
    rw [dataOf, hv4, List.drop_left]
  · show (d4.names _).map d4.data = _
    rw [hcp, hn4, Option.map_some, hc4]
  · intro w' hw'
    rw [Spec.IsCache.unique hw' hw]

end Verif.Props
