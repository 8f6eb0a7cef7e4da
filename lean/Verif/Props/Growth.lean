import Verif.Props.Files
import Verif.Spec.Growth

/-! # How many cache files there are: property C89 -/

set_option autoImplicit false

namespace Verif.Props

open Go Dag Spec.Dag

attribute [local irreducible] Tables.ethashCacheSizes Tables.ethashDatasetSizes Tables.firopowDatasetSizes Tables.octopusCacheSizes
  Tables.octopusDatasetSizes

/-! ## Requests that all succeed -/

/-- no system call fails -/
def Smooth (o : GenEnv) : Prop := Readable o.cacheRead ∧ Readable o.l1Read ∧ o.cacheWrite.Fine ∧ o.l1Write.Fine ∧
  ∀ q, o.removeFails q = false

/-- runs of `generate` for the epochs of a list, one after the other -/
inductive Served (P : Prims) (fuel : Nat) (d : Config) : FS → List Nat → FS → Prop
  | nil (fs : FS) : Served P fuel d fs [] fs
  | cons (e : U64) (o : GenEnv) (r : Loaded) (es : List Nat) (fs fs' fs'' : FS) : Smooth o → generate P fuel d e fs o = .ok (r, fs') →
      Served P fuel d fs' es fs'' → Served P fuel d fs (e.toNat :: es) fs''

/-- the epochs with files are those of a list -/
def Has (H256 : Spec.Bytes → Spec.Bytes) (dir : String) (c : Spec.Chain) (fs : FS) (s : List Nat) : Prop :=
  ∀ k, k ≤ 65536 → (fs (Spec.filePath H256 dir "cache" c k) ≠ none ↔ k ∈ s) ∧
    (fs (Spec.filePath H256 dir "l1" c k) ≠ none ↔ c.l1 ≠ 0 ∧ k ∈ s)

theorem has_step (P : Prims) (hnc : NoClash P.keccak256) (fuel : Nat) (hf : 2 ^ 63 < fuel) (dir : String) (hdir : dir ≠ "") (d : Config)
    (c : Spec.Chain) (h : (d, c) ∈ clients dir) (e : U64) (he : usable c e.toNat) (fs fs' : FS) (o : GenEnv) (ho : Smooth o) (r : Loaded)
    (hr : generate P fuel d e fs o = .ok (r, fs')) (hs : Sound P.keccak256 P.keccak512 dir fs) (s : List Nat)
    (hh : Has P.keccak256 dir c fs s) : Has P.keccak256 dir c fs' (Spec.Growth.request s e.toNat) := by
  have hsm := usable_small (clients_match dir d c h).2.1 he
  obtain ⟨ho1, ho2, ho3, ho4, ho5⟩ := ho
  have ck : "cache" ∈ kinds := by simp [kinds]
  have lk : "l1" ∈ kinds := by simp [kinds]
  rw [Spec.Growth.request]
  by_cases hes : e.toNat ∈ s
  · rw [if_pos hes]
    obtain ⟨h1, h2⟩ := hh e.toNat hsm
    rw [generate_mapped P dir d c h e he fuel hf fs hs o ho1 ho2 (h1.mpr hes) (fun hl => h2.mpr ⟨hl, hes⟩) r fs' hr]
    exact hh
  · rw [if_neg hes]
    obtain ⟨w, fs1, _, e1, e2, _, e4, e5⟩ := generate_client P dir d c h e he fuel hf fs (fun _ => hs) o
    rw [hr] at e1
    injection e1 with e1
    obtain ⟨_, rfl⟩ := Prod.mk.injEq .. ▸ e1
    have e2 := e2.resolve_left (fun hx => hx.2.elim hdir fun hx => hes ((hh e.toNat hsm).1.mp hx.1))
    obtain ⟨g1, g2⟩ := e5 hdir hnc
    have g1 := g1 ho3
    have hc := chains_of h
    have hl : ∀ k n, (Spec.epochSeed P.keccak256 c k).length = (Spec.epochSeed P.keccak256 c n).length := fun k n => by
      rw [seedLength, seedLength]
    have hother : ∀ k, k ≤ 65536 → k ≠ e.toNat → e.toNat < k + 3 → ∀ kind ∈ kinds,
        fs' (Spec.filePath P.keccak256 dir kind c k) = fs (Spec.filePath P.keccak256 dir kind c k) := by
      intro k hk hne hrec kind hkind
      rcases e4 (Spec.filePath P.keccak256 dir kind c k) (tempPath_ne _ _ hkind ck hc hc (hl _ _))
        (tempPath_ne _ _ hkind lk hc hc (hl _ _)) with h5 | ⟨h5, _⟩ | ⟨_, h5, _⟩ | ⟨_, j, hj, h5⟩
      · exact h5
      · exact absurd (hnc c hc _ _ hk hsm (filePath_inj _ _ hkind ck hc hc h5).2.2) hne
      · exact absurd (hnc c hc _ _ hk hsm (filePath_inj _ _ hkind lk hc hc h5).2.2) hne
      · exfalso
        have hkey : (Spec.epochSeed P.keccak256 c k).take 8 = (Spec.epochSeed P.keccak256 c j).take 8 := by
          rcases h5 with h5 | h5
          · exact (filePath_inj _ _ hkind ck hc hc h5).2.2
          · exact (filePath_inj _ _ hkind lk hc hc h5).2.2
        have := hnc c hc _ _ hk (by omega) hkey
        omega
    have hl1 : c.l1 = 0 → fs' (Spec.filePath P.keccak256 dir "l1" c e.toNat) = none := by
      intro h0
      have hold : fs (Spec.filePath P.keccak256 dir "l1" c e.toNat) = none := by
        by_contra hx
        exact ((hh e.toNat hsm).2.mp hx).1 h0
      rcases e4 (Spec.filePath P.keccak256 dir "l1" c e.toNat) (tempPath_ne _ _ lk ck hc hc (hl _ _))
        (tempPath_ne _ _ lk lk hc hc (hl _ _)) with h5 | ⟨h5, _⟩ | ⟨h5, _, _⟩ | ⟨h5, _⟩
      · exact h5.trans hold
      · exact absurd (filePath_inj _ _ lk ck hc hc h5).1 (by decide)
      · exact absurd h0 h5
      · exact h5
    intro k hk
    rw [List.mem_cons, List.mem_filter, decide_eq_true_eq]
    by_cases hke : k = e.toNat
    · subst hke
      refine ⟨by rw [g1]; simp, ?_⟩
      constructor
      · intro hx
        exact ⟨fun h0 => hx (hl1 h0), Or.inl rfl⟩
      · rintro ⟨h0, _⟩
        rw [g2 h0 ho4]; simp
    · by_cases hrec : e.toNat < k + 3
      · rw [hother k hk hke hrec _ ck, hother k hk hke hrec _ lk]
        obtain ⟨h1, h2⟩ := hh k hk
        rw [h1, h2]
        exact ⟨⟨fun x => Or.inr ⟨x, hrec⟩, fun x => (x.resolve_left hke).1⟩,
          ⟨fun x => ⟨x.1, Or.inr ⟨x.2, hrec⟩⟩, fun x => ⟨x.1, (x.2.resolve_left hke).1⟩⟩⟩
      · rw [e2 k (by omega) _ ck (ho5 _), e2 k (by omega) _ lk (ho5 _)]
        exact ⟨⟨fun x => absurd rfl x, fun x => absurd (x.resolve_left hke).2 hrec⟩,
          ⟨fun x => absurd rfl x, fun x => absurd (x.2.resolve_left hke).2 hrec⟩⟩

theorem served_has (P : Prims) (hnc : NoClash P.keccak256) (fuel : Nat) (hf : 2 ^ 63 < fuel) (dir : String) (hdir : dir ≠ "") (d : Config)
    (c : Spec.Chain) (h : (d, c) ∈ clients dir) (es : List Nat) : ∀ (fs fs' : FS) (s : List Nat), (∀ e ∈ es, usable c e) →
    Served P fuel d fs es fs' → Sound P.keccak256 P.keccak512 dir fs → Has P.keccak256 dir c fs s →
    Has P.keccak256 dir c fs' (es.foldl Spec.Growth.request s) := by
  induction es with
  | nil =>
    intro fs fs' s _ hr _ hh
    cases hr
    exact hh
  | cons x es ih =>
    intro fs fs' s hu hr hs hh
    cases hr with
    | cons e o r _ _ fs1 _ ho hg hrest =>
      have he : usable c e.toNat := hu _ (List.mem_cons_self ..)
      exact ih fs1 fs' _ (fun y hy => hu y (List.mem_cons_of_mem _ hy)) hrest
        (C47_sound P dir hnc d c h e he fuel hf fs hs o r fs1 hg) (has_step P hnc fuel hf dir hdir d c h e he fs fs1 o ho r hg hs s hh)

/-- **C89** After any series of requests to a client in an empty directory, if no system call fails, the epochs with a cache file, and
with an L1 file for the chains that have one, are those of the specification. -/
theorem C89_kept (P : Prims) (hnc : NoClash P.keccak256) (fuel : Nat) (hf : 2 ^ 63 < fuel) (dir : String) (hdir : dir ≠ "") (d : Config)
    (c : Spec.Chain) (h : (d, c) ∈ clients dir) (es : List Nat) (hu : ∀ e ∈ es, usable c e) (fs : FS)
    (hr : Served P fuel d (fun _ => none) es fs) : ∀ k, k ≤ 65536 →
      (fs (Spec.filePath P.keccak256 dir "cache" c k) ≠ none ↔ k ∈ Spec.Growth.kept es) ∧
      (fs (Spec.filePath P.keccak256 dir "l1" c k) ≠ none ↔ c.l1 ≠ 0 ∧ k ∈ Spec.Growth.kept es) :=
  served_has P hnc fuel hf dir hdir d c h es _ fs [] hu hr (fun _ _ _ _ _ _ => ⟨Or.inl rfl, fun _ => Or.inl rfl⟩) (fun _ _ => by simp)

/-- every series of requests can be served -/
theorem served_exists (P : Prims) (hnc : NoClash P.keccak256) (fuel : Nat) (hf : 2 ^ 63 < fuel) (dir : String) (d : Config)
    (c : Spec.Chain) (h : (d, c) ∈ clients dir) (o : GenEnv) (ho : Smooth o) (es : List Nat) : ∀ fs, Sound P.keccak256 P.keccak512 dir fs →
    (∀ e ∈ es, usable c e) → ∃ fs', Served P fuel d fs es fs' := by
  induction es with
  | nil => exact fun fs _ _ => ⟨fs, .nil fs⟩
  | cons x es ih =>
    intro fs hs hu
    have hx := hu x (List.mem_cons_self ..)
    have hsm := usable_small (clients_match dir d c h).2.1 hx
    have hxe : (BitVec.ofNat 64 x).toNat = x := by rw [BitVec.toNat_ofNat]; exact Nat.mod_eq_of_lt (by omega)
    obtain ⟨w, fs1, _, hg⟩ := C47_generate P dir d c h (BitVec.ofNat 64 x) (by rw [hxe]; exact hx) fuel hf fs (fun _ => hs) o
    obtain ⟨fs2, h2⟩ := ih fs1 (C47_sound P dir hnc d c h (BitVec.ofNat 64 x) (by rw [hxe]; exact hx) fuel hf fs hs o _ fs1 hg)
      (fun y hy => hu y (List.mem_cons_of_mem _ hy))
    exact ⟨fs2, hxe ▸ Served.cons (BitVec.ofNat 64 x) o _ es fs fs1 fs2 ho hg h2⟩

/-- **C89** Requests with falling epochs keep a file for each of them, … -/
theorem C89_falling (es : List Nat) (h : es.Pairwise (· > ·)) : Spec.Growth.kept es = es.reverse := by
  have key : ∀ (es s : List Nat), es.Pairwise (· > ·) → (∀ e ∈ es, ∀ k ∈ s, e < k) →
      es.foldl Spec.Growth.request s = es.reverse ++ s := by
    intro es
    induction es with
    | nil => intro s _ _; rfl
    | cons e es ih =>
      intro s hp hlt
      rw [List.pairwise_cons] at hp
      have h1 := hlt e (List.mem_cons_self ..)
      have hreq : Spec.Growth.request s e = e :: s := by
        rw [Spec.Growth.request, if_neg (fun hm => Nat.lt_irrefl _ (h1 _ hm)), List.filter_eq_self.mpr]
        intro k hk
        have := h1 k hk
        rw [decide_eq_true_eq]
        omega
      rw [List.foldl_cons, hreq, ih (e :: s) hp.2, List.reverse_cons, List.append_assoc]
      · rfl
      · intro x hx k hk
        rw [List.mem_cons] at hk
        rcases hk with rfl | hk
        · exact hp.1 x hx
        · exact hlt x (List.mem_cons_of_mem _ hx) k hk
  rw [Spec.Growth.kept, key es [] h (fun _ _ _ hk => absurd hk List.not_mem_nil), List.append_nil]

/-- **C89** … so that the directory can come to hold a file for every epoch there is: for every number of epochs there are requests
after which each of them has a cache file. -/
theorem C89_unbounded (P : Prims) (hnc : NoClash P.keccak256) (fuel : Nat) (hf : 2 ^ 63 < fuel) (dir : String) (hdir : dir ≠ "") (d : Config)
    (c : Spec.Chain) (h : (d, c) ∈ clients dir) (o : GenEnv) (ho : Smooth o) (n : Nat) (hn : ∀ e < n, usable c e) :
    ∃ fs, Served P fuel d (fun _ => none) (List.range n).reverse fs ∧
      ∀ k < n, fs (Spec.filePath P.keccak256 dir "cache" c k) ≠ none := by
  obtain ⟨fs, hr⟩ := served_exists P hnc fuel hf dir d c h o ho (List.range n).reverse (fun _ => none)
    (fun _ _ _ _ _ _ => ⟨Or.inl rfl, fun _ => Or.inl rfl⟩) (fun e he => hn e (by simpa using he))
  refine ⟨fs, hr, ?_⟩
  intro k hk
  have hsm := usable_small (clients_match dir d c h).2.1 (hn k hk)
  rw [(C89_kept P hnc fuel hf dir hdir d c h _ (fun e he => hn e (by simpa using he)) fs hr k hsm).1, C89_falling]
  · simpa using hk
  · rw [List.pairwise_reverse]
    exact List.pairwise_lt_range

/-- 2045 files for Ethereum, and the numbers of the specification for a few orders of requests -/
example : (∀ e < 2045, usable .eth e) ∧ Spec.Growth.kept [5, 6, 7, 8, 9] = [9, 8, 7] ∧ Spec.Growth.kept [9, 5, 9, 4] = [4, 5, 9] ∧
    Spec.Growth.kept [9, 5, 10] = [10, 9] := by
  refine ⟨fun e he => ⟨Or.inl he, ?_⟩, by decide, by decide, by decide⟩
  have : (2 ^ 24 : Nat) + 2 ^ 17 * e ≤ 2 ^ 32 := by omega
  exact this

/-! ## Rising epochs, whatever fails -/

/-- The history of a directory that was empty at first. The epochs of the chain `c` do not fall; the removals of its runs succeed, and
everything else may fail. Runs of the other chains come in between, and somebody else removes files. -/
inductive Rising (P : Prims) (fuel : Nat) (dir : String) (c : Spec.Chain) : Nat → FS → Prop
  | start (e : Nat) : Rising P fuel dir c e (fun _ => none)
  | own (d : Config) (last : Nat) (e : U64) (o : GenEnv) (r : Loaded) (fs fs' : FS) : Rising P fuel dir c last fs → (d, c) ∈ clients dir →
      usable c e.toNat → last ≤ e.toNat → (∀ q, o.removeFails q = false) → generate P fuel d e fs o = .ok (r, fs') →
      Rising P fuel dir c e.toNat fs'
  | other (d : Config) (c' : Spec.Chain) (last : Nat) (e : U64) (o : GenEnv) (r : Loaded) (fs fs' : FS) : Rising P fuel dir c last fs →
      (d, c') ∈ clients dir → c' ≠ c → usable c' e.toNat → generate P fuel d e fs o = .ok (r, fs') → Rising P fuel dir c last fs'
  | removed (path : String) (last : Nat) (fs : FS) : Rising P fuel dir c last fs → Rising P fuel dir c last (fs.remove path)

/-- **C89** If the epochs do not fall, there are never files of more than three epochs: the last one and the two before. -/
theorem C89_rising (P : Prims) (hnc : NoClash P.keccak256) (fuel : Nat) (hf : 2 ^ 63 < fuel) (dir : String) (hdir : dir ≠ "")
    (c : Spec.Chain) (hc : c ∈ chains) (last : Nat) (fs : FS) (hr : Rising P fuel dir c last fs) :
    ∀ kind ∈ kinds, ∀ k, k ≤ 65536 → fs (Spec.filePath P.keccak256 dir kind c k) ≠ none → last < k + 3 ∧ k ≤ last := by
  have hsound : Sound P.keccak256 P.keccak512 dir fs := by
    induction hr with
    | start _ => exact fun _ _ _ _ _ _ => ⟨Or.inl rfl, fun _ => Or.inl rfl⟩
    | own d last e o r fs fs' _ hd hu _ _ hg ih => exact C47_sound P dir hnc d c hd e hu fuel hf fs ih o r fs' hg
    | other d c' last e o r fs fs' _ hd _ hu hg ih => exact C47_sound P dir hnc d c' hd e hu fuel hf fs ih o r fs' hg
    | removed path last fs hx ih =>
      exact sound_steps P fuel hf dir hnc fs _ (.cons (.nil fs) (.removed path fs)) ih
  have key : Sound P.keccak256 P.keccak512 dir fs ∧
      ∀ kind ∈ kinds, ∀ k, k ≤ 65536 → fs (Spec.filePath P.keccak256 dir kind c k) ≠ none → last < k + 3 ∧ k ≤ last := by
    clear hsound
    induction hr with
    | start _ => exact ⟨fun _ _ _ _ _ _ => ⟨Or.inl rfl, fun _ => Or.inl rfl⟩, fun _ _ _ _ h => absurd rfl h⟩
    | own d last e o r fs fs' _ hd hu hle hrm hg ih =>
      obtain ⟨hs, ih⟩ := ih
      refine ⟨C47_sound P dir hnc d c hd e hu fuel hf fs hs o r fs' hg, ?_⟩
      obtain ⟨w, fs1, _, e1, e2, _, e4, _⟩ := generate_client P dir d c hd e hu fuel hf fs (fun _ => hs) o
      rw [hg] at e1
      injection e1 with e1
      obtain ⟨_, rfl⟩ := Prod.mk.injEq .. ▸ e1
      have hsm := usable_small (clients_match dir d c hd).2.1 hu
      intro kind hkind k hk hex
      have ck : "cache" ∈ kinds := by simp [kinds]
      have lk : "l1" ∈ kinds := by simp [kinds]
      have hl : ∀ k n, (Spec.epochSeed P.keccak256 c k).length = (Spec.epochSeed P.keccak256 c n).length := fun k n => by
        rw [seedLength, seedLength]
      have hup : k ≤ e.toNat := by
        rcases e4 (Spec.filePath P.keccak256 dir kind c k) (tempPath_ne _ _ hkind ck hc hc (hl _ _))
          (tempPath_ne _ _ hkind lk hc hc (hl _ _)) with h5 | ⟨h5, _⟩ | ⟨_, h5, _⟩ | ⟨h5, _⟩
        · rw [h5] at hex
          exact Nat.le_trans (ih kind hkind k hk hex).2 hle
        · exact (hnc c hc _ _ hk hsm (filePath_inj _ _ hkind ck hc hc h5).2.2).le
        · exact (hnc c hc _ _ hk hsm (filePath_inj _ _ hkind lk hc hc h5).2.2).le
        · exact absurd h5 hex
      refine ⟨?_, hup⟩
      rcases e2 with ⟨rfl, e2⟩ | e2
      · have hown := (e2.resolve_left hdir).1
        have h1 := (ih "cache" ck e.toNat hsm hown).2
        have h2 := (ih kind hkind k hk hex).1
        omega
      · by_contra hx
        exact hex (e2 k (by omega) kind hkind (hrm _))
    | other d c' last e o r fs fs' _ hd hne hu hg ih =>
      obtain ⟨hs, ih⟩ := ih
      refine ⟨C47_sound P dir hnc d c' hd e hu fuel hf fs hs o r fs' hg, ?_⟩
      obtain ⟨w, fs1, e1, e2⟩ := C48_survive P dir hnc d c' hd e hu fuel hf fs (fun _ => hs) o
      rw [hg] at e1
      injection e1 with e1
      obtain ⟨_, rfl⟩ := Prod.mk.injEq .. ▸ e1
      intro kind hkind k hk hex
      rcases e2 c hc k hk (Or.inl (Ne.symm hne)) kind hkind with h5 | ⟨h5, _⟩
      · rw [h5] at hex
        exact ih kind hkind k hk hex
      · exact absurd h5.symm hne
    | removed path last fs hx ih =>
      obtain ⟨hs, ih⟩ := ih
      refine ⟨sound_steps P fuel hf dir hnc fs _ (.cons (.nil fs) (.removed path fs)) hs, ?_⟩
      intro kind hkind k hk hex
      by_cases hp : Spec.filePath P.keccak256 dir kind c k = path
      · rw [hp, FS.remove_same] at hex
        exact absurd rfl hex
      · rw [FS.remove_other _ _ _ hp] at hex
        exact ih kind hkind k hk hex
  exact key.2

/-- there is such a history, and it leaves a file -/
example (P : Prims) (hnc : NoClash P.keccak256) : ∃ fs, Rising P (2 ^ 64) "/d" .rvn 7 fs ∧
    fs (Spec.filePath P.keccak256 "/d" "cache" .rvn 7) ≠ none := by
  obtain ⟨o, ho⟩ : ∃ o : GenEnv, Smooth o :=
    ⟨⟨⟨false, false, false⟩, ⟨false, false, false⟩, ⟨false, 7, false, false, false, false, false, false, false, ⟨false, false, false⟩⟩,
      ⟨false, 7, false, false, false, false, false, false, false, ⟨false, false, false⟩⟩, fun _ => false⟩,
      by simp [Smooth, Readable, WriteEnv.Fine]⟩
  have hd : (ravencoin "/d", Spec.Chain.rvn) ∈ clients "/d" := by simp [clients]
  have hu : usable .rvn (7 : U64).toNat := ⟨Or.inl (by decide), by decide⟩
  obtain ⟨w, fs, _, e1, _, _, _, e5⟩ := generate_client P "/d" _ _ hd 7 hu (2 ^ 64) (by omega) (fun _ => none)
    (fun _ _ _ _ _ _ _ => ⟨Or.inl rfl, fun _ => Or.inl rfl⟩) o
  refine ⟨fs, .own _ 0 7 o _ _ fs (.start 0) hd hu (Nat.zero_le _) ho.2.2.2.2 e1, ?_⟩
  have := (e5 (by decide) hnc).1 ho.2.2.1
  have h7 : (7 : U64).toNat = 7 := rfl
  rw [h7] at this
  rw [this]
  simp

/-! ## Temporary files -/

/-- the calls up to the mapping of the temporary file succeed, and one of those after its filling fails -/
def Stuck (o : WriteEnv) : Prop := o.mkdirFails = false ∧ o.createFails = false ∧ o.truncateFails = false ∧ o.mapFails = false ∧
  (o.unmapFails || o.closeFails || o.renameFails) = true

theorem memoryMapAndGenerate_stuck (fs : FS) (path : String) (size : U64) (lock : Bool) (generator : List U32 → Go (List U32))
    (o : WriteEnv) (ho : Stuck o) (data : List U32) (hs : size.toNat = 4 * data.length) (hs2 : size.toNat < 2 ^ 62)
    (hg : generator (List.replicate data.length 0) = .ok data) :
    memoryMapAndGenerate fs path size lock generator o = .ok (none, fs.write (tempPath path o.suffix) (Spec.Disk.file data)) := by
  obtain ⟨h1, h2, h3, h4, h5⟩ := ho
  have hn : (8 + size : U64).toNat = 8 + 4 * data.length := by
    rw [BitVec.toNat_add, hs]
    exact Nat.mod_eq_of_lt (show 8 + 4 * data.length < 2 ^ 64 by omega)
  have hi : (8 + size : U64).toInt = ((8 + 4 * data.length : Nat) : Int) := by
    rw [BitVec.toInt_eq_toNat_of_lt (by omega), hn]
  simp only [memoryMapAndGenerate]
  rw [hi, if_neg (by simp [h1]), if_neg (by simp [h2]), if_neg (by rw [h3]; simp; omega), if_neg (by rw [h4]; simp; omega),
    Int.toNat_natCast]
  simp only [fillAndRename]
  rw [fillContent_eq _ _ _ hg, ok_bind, if_pos h5]
  rfl

/-- **C89** A run that cannot unmap, close or rename what it wrote leaves the whole temporary file behind, … -/
theorem C89_leftover (P : Prims) (dir : String) (hdir : dir ≠ "") (d : Config) (c : Spec.Chain) (h : (d, c) ∈ clients dir) (e : U64)
    (he : usable c e.toNat) (fuel : Nat) (hf : 2 ^ 63 < fuel) (fs : FS) (hs : Sound P.keccak256 P.keccak512 dir fs) (o : GenEnv)
    (hmiss : fs (Spec.filePath P.keccak256 dir "cache" c e.toNat) = none) (ho : Stuck o.cacheWrite) :
    ∃ w fs', generate P fuel d e fs o = .ok (⟨w, Spec.l1Of P.keccak512 c w⟩, fs') ∧
      fs' (tempPath (Spec.filePath P.keccak256 dir "cache" c e.toNat) o.cacheWrite.suffix) = some (Spec.Disk.file w) := by
  obtain ⟨h1, hm, hsd⟩ := clients_match dir d c h
  have hsm := usable_small hm he
  have hc := chains_of h
  have ck : "cache" ∈ kinds := by simp [kinds]
  have lk : "l1" ∈ kinds := by simp [kinds]
  have hb : cacheBound d e = c.cacheInit + c.cacheGrowth * e.toNat := by rw [cacheBound, hm.cacheInit, hm.cacheGrowth]
  obtain ⟨size, hsz, hsize⟩ := C31_CacheSize dir d h1 e he.1 (by rw [hb]; have := he.2; omega) fuel hf
  have hsize' := hsize
  obtain ⟨n, hsn, hnp, hnb, _⟩ := hsize'
  have hn1 : 1 ≤ n := hnp.one_lt.le
  have hn2 : n < 2 ^ 26 := by rw [hb] at hnb; have := he.2; omega
  have hseed := seedHash_client P h e.toNat hsm
  rw [BitVec.ofNat_toNat, BitVec.setWidth_eq] at hseed
  obtain ⟨sd, hsd'⟩ : ∃ s, s = Spec.epochSeed P.keccak256 c e.toNat := ⟨_, rfl⟩
  have hw : Spec.IsCache P.keccak256 P.keccak512 c e.toNat (pubCache P d size sd) :=
    ⟨size.toNat, hb ▸ hsize, by rw [pubCache, hm.rounds, hsd']⟩
  have hl1 : pubL1 P d size sd = Spec.l1Of P.keccak512 c (pubCache P d size sd) := by
    rw [pubL1, Spec.l1Of]
    by_cases hE : d.l1Enabled = true
    · rw [if_pos hE, if_neg (hm.l1Enabled.mp hE), hm.parents, hm.l1Size hE]
    · rw [if_neg hE, if_pos (by by_contra hh; exact hE (hm.l1Enabled.mpr hh))]
  have hcp : cacheStorageLocation d (sd.take 8) = Spec.filePath P.keccak256 dir "cache" c e.toNat := by
    rw [hsd']; exact cachePath_client P h _
  have hlp : l1StorageLocation d (sd.take 8) = Spec.filePath P.keccak256 dir "l1" c e.toNat := by
    rw [hsd']; exact l1Path_client P h _
  have hF : FilesOk P d size sd fs := by
    have := hs c hc e.toNat he _ hw
    rw [FilesOk, hcp, hlp, hl1]
    exact ⟨this.1, fun hE => this.2 (hm.l1Enabled.mp hE)⟩
  have hlen := pubCache_length P d size sd n hn1 hn2 hsn
  obtain ⟨temp, htemp⟩ : ∃ t, t = tempPath (Spec.filePath P.keccak256 dir "cache" c e.toNat) o.cacheWrite.suffix := ⟨_, rfl⟩
  have hprov : provideCache P d size sd (Spec.filePath P.keccak256 dir "cache" c e.toNat) fs o.cacheWrite =
      .ok (pubCache P d size sd, fs.write temp (Spec.Disk.file (pubCache P d size sd))) := by
    rw [provideCache, memoryMapAndGenerate_stuck fs _ size _ _ _ ho (pubCache P d size sd) (by omega) (by omega)
      (pubCache_gen P d size sd n hn1 hn2 hsn _ (by rw [List.length_replicate, hlen])), ok_bind]
    simp only
    rw [pubCache_gen P d size sd n hn1 hn2 hsn _ (freshCache_length size n hsn), htemp]
    rfl
  obtain ⟨fs1, hfs1⟩ : ∃ f, f = fs.write temp (Spec.Disk.file (pubCache P d size sd)) := ⟨_, rfl⟩
  have hl : ∀ m, tryL1 d fs (Spec.filePath P.keccak256 dir "l1" c e.toNat) o.l1Read = .ok m → ∃ fs2,
      ensureL1 P d (pubCache P d size sd) (Spec.filePath P.keccak256 dir "l1" c e.toNat) m fs1 o.l1Write = .ok (pubL1 P d size sd, fs2) ∧
      fs2 temp = fs1 temp := by
    intro m hmm
    have ht := tryL1_eq P d size sd fs o.l1Read hF
    rw [hlp, hmm] at ht
    rcases ht with ht | ⟨hE, ht⟩
    · injection ht with ht
      subst ht
      exact ⟨fs1, rfl, rfl⟩
    · injection ht with ht
      subst ht
      obtain ⟨fs2, e2, _, u, _⟩ := provideL1_eq P d size sd n hn1 hn2 hsn hm.l1Ok hE (Spec.filePath P.keccak256 dir "l1" c e.toNat) fs1 o.l1Write
      refine ⟨fs2, e2, u temp ?_ ?_⟩
      · intro hx
        rw [htemp] at hx
        exact tempPath_ne _ _ lk ck hc hc rfl hx.symm
      · intro hx
        rw [htemp] at hx
        have hnn := tempPath_inj _ _ _ _ hx
        rw [hnn] at hx
        have hx := congrArg String.toList hx
        rw [tempPath_toList, tempPath_toList] at hx
        have hx := String.toList_inj.mp (List.append_cancel_right hx)
        exact absurd (filePath_inj _ _ ck lk hc hc hx).1 (by decide)
  have htry : ∃ m, tryL1 d fs (Spec.filePath P.keccak256 dir "l1" c e.toNat) o.l1Read = .ok m := by
    have ht := tryL1_eq P d size sd fs o.l1Read hF
    rw [hlp] at ht
    rcases ht with ht | ⟨_, ht⟩
    · exact ⟨_, ht⟩
    · exact ⟨_, ht⟩
  obtain ⟨m, hmm⟩ := htry
  obtain ⟨fs2, e2, hfs2⟩ := hl m hmm
  obtain ⟨fs3, e3, _, h4⟩ := cleanup_eq P d hm.sel e (by omega) (by rw [hm.cachesCount]; omega) (by rw [hm.cachesCount]; omega)
    (by rw [hm.cachesCount]; omega) o.removeFails fs2
  refine ⟨pubCache P d size sd, fs3, ?_, ?_⟩
  · rw [generate, hsz, ok_bind, hseed, ok_bind, if_neg (by rw [hsd]; exact hdir), ← hsd', generateOnDisk,
      slc_ok _ _ _ (by omega) (by rw [hsd', seedLength]; omega), ok_bind, List.drop_zero]
    simp only [hcp, hlp]
    have hr : memoryMap fs (Spec.filePath P.keccak256 dir "cache" c e.toNat) d.cachesLockMmap o.cacheRead = .ok none :=
      (C46_memoryMap _ _ _ _).1 (Or.inl hmiss)
    rw [hr, ok_bind, hmm, ok_bind]
    simp only [ensureCache]
    rw [hprov, ok_bind]
    simp only
    rw [← hfs1, e2, ok_bind]
    simp only
    rw [e3, ok_bind, ← hl1]
    rfl
  · rw [← htemp]
    rcases h4 temp with h5 | ⟨_, k, hk, h6, _⟩
    · rw [h5, hfs2, hfs1, FS.write_same]
    · exfalso
      rw [hm.cachesCount] at hk
      rw [htemp] at h6
      rcases (isFileOf_client P h k (by omega) _).mp h6 with h6 | h6
      · exact tempPath_ne _ _ ck ck hc hc (by rw [seedLength, seedLength]) h6.symm
      · exact tempPath_ne _ _ lk ck hc hc (by rw [seedLength, seedLength]) h6.symm

/-- **C89** … where it stays, whatever is requested later, until a run draws the same suffix. -/
theorem C89_forever (P : Prims) (dir : String) (d : Config) (c : Spec.Chain) (h : (d, c) ∈ clients dir) (e : U64)
    (he : usable c e.toNat) (fuel : Nat) (hf : 2 ^ 63 < fuel) (fs : FS) (hs : Sound P.keccak256 P.keccak512 dir fs) (o : GenEnv)
    (c' : Spec.Chain) (hc' : c' ∈ chains) (e' : Nat) (kind : String) (hkind : kind ∈ kinds) (suffix : Nat)
    (hsuf : suffix ≠ o.cacheWrite.suffix ∧ suffix ≠ o.l1Write.suffix) :
    ∃ r fs', generate P fuel d e fs o = .ok (r, fs') ∧ fs' (tempPath (Spec.filePath P.keccak256 dir kind c' e') suffix) =
      fs (tempPath (Spec.filePath P.keccak256 dir kind c' e') suffix) := by
  obtain ⟨r, fs', h1, h2⟩ := C48_foreign P dir d c h e he fuel hf fs (fun _ => hs) o
  refine ⟨r, fs', h1, h2 _ ?_ ?_ ?_⟩
  · intro kind' hkind' k hx
    exact tempPath_ne _ _ hkind' hkind (chains_of h) hc' (by rw [seedLength, seedLength]) hx.symm
  · exact fun hx => hsuf.1 (tempPath_inj _ _ _ _ hx)
  · exact fun hx => hsuf.2 (tempPath_inj _ _ _ _ hx)

/-- there are such outcomes -/
example : Stuck ⟨false, 7, false, false, false, false, false, true, false, ⟨false, false, false⟩⟩ ∧
    Smooth ⟨⟨false, false, false⟩, ⟨false, false, false⟩, ⟨false, 7, false, false, false, false, false, false, false, ⟨false, false, false⟩⟩,
      ⟨false, 7, false, false, false, false, false, false, false, ⟨false, false, false⟩⟩, fun _ => false⟩ := by
  simp [Stuck, Smooth, Readable, WriteEnv.Fine]

end Verif.Props
