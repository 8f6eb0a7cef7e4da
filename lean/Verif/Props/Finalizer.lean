import Verif.Model.Finalizer
import Verif.Props.Manager

/-! # Mapped caches and the collector: property C67 -/

set_option autoImplicit false

namespace Verif.Props

open Go Dag Manager Finalizer

/-- the manager refers to the cache -/
def InMgr (m : Mgr) (i : Nat) : Prop := (∃ e, (e, i) ∈ m.caches) ∨ m.future = some i

theorem delete_sub {caches : List (U64 × Nat)} {e : U64} {x : U64 × Nat} (h : x ∈ delete caches e) : x ∈ caches := (List.mem_filter.mp h).1

theorem evictOne_refs {k : Int} {order : List (U64 × Nat)} {m m' : Mgr} (h : evictOne k order m = .ok m') :
    m'.fresh = m.fresh ∧ m'.future = m.future ∧ ∀ x ∈ m'.caches, x ∈ m.caches := by
  rw [evictOne] at h
  by_cases hk : k ≤ m.caches.length
  · rw [if_pos hk] at h
    cases hv : order.foldl (evictStep m.heap) none with
    | none => rw [hv] at h; cases h
    | some v =>
      rw [hv] at h
      injection h with h
      subst h
      exact ⟨rfl, rfl, fun x hx => delete_sub hx⟩
  · rw [if_neg hk] at h
    injection h with h
    subst h
    exact ⟨rfl, rfl, fun x hx => hx⟩

theorem takeCache_refs (e : U64) (m : Mgr) : m.fresh ≤ (takeCache e m).1.fresh ∧ (takeCache e m).1.caches = m.caches ∧
    (∀ f, (takeCache e m).1.future = some f → m.future = some f) ∧ (InMgr m (takeCache e m).2 ∨ m.fresh ≤ (takeCache e m).2) := by
  rw [takeCache]
  cases hf : m.future with
  | none => exact ⟨Nat.le_succ _, rfl, fun f h => by simpa [Mgr.alloc, hf] using h, Or.inr (Nat.le_refl _)⟩
  | some f =>
    by_cases he : (m.heap f).epoch = e
    · simp only [if_pos he]
      exact ⟨Nat.le_refl _, trivial, fun _ h => by simp at h, Or.inl (Or.inr hf)⟩
    · simp only [if_neg he]
      exact ⟨Nat.le_succ _, rfl, fun g h => by simpa [Mgr.alloc, hf] using h, Or.inr (Nat.le_refl _)⟩

theorem preGenerate_refs (e : U64) (m : Mgr) : m.fresh ≤ (preGenerate e m).1.fresh ∧ (preGenerate e m).1.caches = m.caches ∧
    (∀ f, (preGenerate e m).1.future = some f → m.future = some f ∨ m.fresh ≤ f) ∧
    ∀ f, (preGenerate e m).2 = some f → m.fresh ≤ f := by
  have hs : m.fresh ≤ (startFuture e m).1.fresh ∧ (startFuture e m).1.caches = m.caches ∧
      (∀ f, (startFuture e m).1.future = some f → m.future = some f ∨ m.fresh ≤ f) ∧
      ∀ f, (startFuture e m).2 = some f → m.fresh ≤ f := by
    refine ⟨Nat.le_succ _, rfl, fun f h => ?_, fun f h => ?_⟩
    · injection h with h
      exact Or.inr (Nat.le_of_eq h)
    · injection h with h
      exact Nat.le_of_eq h
  rw [preGenerate]
  cases hf : m.future with
  | none => simpa [hf] using hs
  | some f =>
    by_cases he : (m.heap f).epoch ≤ e
    · simpa only [if_pos he, hf] using hs
    · simp only [if_neg he]
      exact ⟨Nat.le_refl _, trivial, fun g h => Or.inl (by rw [← hf]; exact h), fun g h => by cases h⟩

/-- The section under the mutex hands out and keeps only caches that the manager knew, and new ones. -/
theorem locked_refs {k : Int} {order : List (U64 × Nat)} {now : Nat} {e : U64} {m m' : Mgr} {c : Nat} {spawn : Option Nat}
    (h : locked k order now e m = .ok (m', c, spawn)) : m.fresh ≤ m'.fresh ∧ (∀ i, InMgr m' i → InMgr m i ∨ m.fresh ≤ i) ∧
      (InMgr m c ∨ m.fresh ≤ c) ∧ ∀ f, spawn = some f → m.fresh ≤ f := by
  rw [locked] at h
  cases hg : get m.caches e with
  | some i =>
    rw [hg] at h
    injection h with h
    injection h with h1 h
    injection h with h2 h3
    subst h1 h2 h3
    exact ⟨Nat.le_refl _, fun i h => Or.inl h, Or.inl (Or.inl ⟨e, get_some hg⟩), fun f h => by cases h⟩
  | none =>
    rw [hg] at h
    simp only [register] at h
    cases h1 : evictOne k order m with
    | error p => rw [h1] at h; cases h
    | ok m1 =>
      rw [h1] at h
      obtain ⟨a1, a2, a3⟩ := evictOne_refs h1
      obtain ⟨b1, b2, b3, b4⟩ := takeCache_refs e m1
      obtain ⟨m2, hm2⟩ : ∃ x, x = (takeCache e m1).1 := ⟨_, rfl⟩
      obtain ⟨c2, hc2⟩ : ∃ x, x = (takeCache e m1).2 := ⟨_, rfl⟩
      rw [← hm2] at b1 b2 b3
      rw [← hc2] at b4
      obtain ⟨d1, d2, d3, d4⟩ := preGenerate_refs e { m2 with caches := put m2.caches e c2 }
      obtain ⟨m3, hm3⟩ : ∃ x, x = (preGenerate e { m2 with caches := put m2.caches e c2 }).1 := ⟨_, rfl⟩
      obtain ⟨sp, hsp⟩ : ∃ x, x = (preGenerate e { m2 with caches := put m2.caches e c2 }).2 := ⟨_, rfl⟩
      have hh : (Except.ok (m3.use c2 now, c2, sp) : Go (Mgr × Nat × Option Nat)) = .ok (m', c, spawn) := by
        rw [hm3, hsp, hc2, hm2]
        exact h
      rw [← hm3] at d1 d2 d3
      rw [← hsp] at d4
      injection hh with hh
      injection hh with h2 hh
      injection hh with h3 h4
      subst h2 h3 h4
      have hm1 : ∀ i, InMgr m1 i → InMgr m i := by
        rintro i (⟨e', hi⟩ | hi)
        · exact Or.inl ⟨e', a3 _ hi⟩
        · exact Or.inr (a2 ▸ hi)
      have hc : InMgr m c2 ∨ m.fresh ≤ c2 := by
        rcases b4 with b4 | b4
        · exact Or.inl (hm1 _ b4)
        · exact Or.inr (a1 ▸ b4)
      have hfr : m.fresh ≤ m2.fresh := a1 ▸ b1
      refine ⟨Nat.le_trans hfr d1, ?_, hc, fun f hf => Nat.le_trans hfr (d4 f hf)⟩
      rintro i (⟨e', hi⟩ | hi)
      · have hi : (e', i) ∈ m3.caches := hi
        rw [d2] at hi
        rcases List.mem_cons.mp hi with hi | hi
        · injection hi with _ hi
          subst hi
          exact hc
        · have := delete_sub hi
          rw [b2] at this
          exact Or.inl (hm1 _ (Or.inl ⟨e', this⟩))
      · rcases d3 i hi with hi | hi
        · exact Or.inl (hm1 _ (Or.inr (b3 i hi)))
        · exact Or.inr (Nat.le_trans hfr hi)

/-- No step of the manager brings back a reference to a cache that nothing referred to. -/
theorem step_refs {k : Int} {Body : U64 → Go Loaded → Prop} {s s' : State} (h : Manager.Step k Body s s') : s.mgr.fresh ≤ s'.mgr.fresh ∧
    (∀ i, Referred s' i → Referred s i ∨ s.mgr.fresh ≤ i) ∧
    ∀ (t : Nat) e i, s'.threads[t]? = some (.ended (some e) i) → s.threads[t]? = some (.ended (some e) i) ∨ Referred s i := by
  have hset : ∀ (t : Nat) (x : Thread) (i : Nat), (∃ th ∈ s.threads.set t x, Refers th i) → Refers x i ∨ ∃ th ∈ s.threads, Refers th i := by
    rintro t x i ⟨th, hm, hr⟩
    rcases List.mem_or_eq_of_mem_set hm with hm | rfl
    · exact Or.inr ⟨th, hm, hr⟩
    · exact Or.inl hr
  have hend : ∀ (t : Nat) (x : Thread) (t' : Nat) (e : U64) (i : Nat), (s.threads.set t x)[t']? = some (.ended (some e) i) →
      s.threads[t']? = some (.ended (some e) i) ∨ (t = t' ∧ x = .ended (some e) i) := by
    intro t x t' e i hh
    by_cases ht : t = t'
    · subst ht
      rw [List.getElem?_set] at hh
      by_cases hl : t < s.threads.length
      · simp only [if_true, if_pos hl] at hh
        injection hh with hh
        exact Or.inr ⟨rfl, hh⟩
      · simp only [if_true, if_neg hl] at hh
        cases hh
    · rw [List.getElem?_set_ne ht] at hh
      exact Or.inl hh
  have hmem : ∀ (t : Nat) (x : Thread) (i : Nat), s.threads[t]? = some x → Refers x i → Referred s i := fun t x i ht hr =>
    Or.inr (Or.inr ⟨x, List.mem_of_getElem? ht, hr⟩)
  cases h with
  | call e hc =>
    refine ⟨Nat.le_refl _, ?_, ?_⟩
    · rintro i (hi | hi | ⟨th, hm, hr⟩)
      · exact Or.inl (Or.inl hi)
      · exact Or.inl (Or.inr (Or.inl hi))
      · rcases List.mem_append.mp hm with hm | hm
        · exact Or.inl (Or.inr (Or.inr ⟨th, hm, hr⟩))
        · rw [List.mem_singleton.mp hm] at hr
          exact hr.elim
    · intro t e' i hh
      left
      rw [List.getElem?_append] at hh
      by_cases hl : t < s.threads.length
      · rw [if_pos hl] at hh
        exact hh
      · rw [if_neg hl] at hh
        cases hn : t - s.threads.length with
        | zero => rw [hn] at hh; cases hh
        | succ n => rw [hn] at hh; cases hh
  | lock t e order now m c spawn h1 h2 h3 h4 h5 h6 =>
    obtain ⟨a1, a2, a3, a4⟩ := locked_refs h6
    refine ⟨a1, ?_, ?_⟩
    · have hin : ∀ i, InMgr s.mgr i ∨ s.mgr.fresh ≤ i → Referred s i ∨ s.mgr.fresh ≤ i := by
        rintro i ((hi | hi) | hi)
        · exact Or.inl (Or.inl hi)
        · exact Or.inl (Or.inr (Or.inl hi))
        · exact Or.inr hi
      rintro i (hi | hi | ⟨th, hm, hr⟩)
      · exact hin i (a2 i (Or.inl hi))
      · exact hin i (a2 i (Or.inr hi))
      · rcases List.mem_append.mp hm with hm | hm
        · rcases hset t _ i ⟨th, hm, hr⟩ with hr | hr
          · have hr : c = i := hr
            subst hr
            exact hin _ a3
          · exact Or.inl (Or.inr (Or.inr hr))
        · rw [Option.mem_toList, Option.map_eq_some_iff] at hm
          obtain ⟨f, hf, rfl⟩ := hm
          have hr : f = i := hr
          subst hr
          exact Or.inr (a4 f hf)
    · intro t' e' i hh
      left
      rw [List.getElem?_append] at hh
      by_cases hl : t' < (s.threads.set t (.waiting (some e) c)).length
      · rw [if_pos hl] at hh
        rcases hend _ _ _ _ _ hh with hh | ⟨_, hh⟩
        · exact hh
        · cases hh
      · rw [if_neg hl] at hh
        cases spawn with
        | none => cases hh
        | some f =>
          cases hn : t' - (s.threads.set t (.waiting (some e) c)).length with
          | zero => rw [hn] at hh; cases hh
          | succ n => rw [hn] at hh; cases hh
  | lockPanic t e order now p h1 h2 h3 h4 h5 h6 =>
    refine ⟨Nat.le_refl _, ?_, ?_⟩
    · rintro i (hi | hi | hm)
      · exact Or.inl (Or.inl hi)
      · exact Or.inl (Or.inr (Or.inl hi))
      · rcases hset t _ i hm with hr | hr
        · exact hr.elim
        · exact Or.inl (Or.inr (Or.inr hr))
    · intro t' e' i hh
      rcases hend _ _ _ _ _ hh with hh | ⟨_, hh⟩
      · exact Or.inl hh
      · cases hh
  | start t role j h1 h2 h3 =>
    refine ⟨Nat.le_refl _, ?_, ?_⟩
    · rintro i (hi | hi | hm)
      · exact Or.inl (Or.inl hi)
      · exact Or.inl (Or.inr (Or.inl hi))
      · rcases hset t _ i hm with hr | hr
        · exact Or.inl (hmem t _ i h2 hr)
        · exact Or.inl (Or.inr (Or.inr hr))
    · intro t' e' i hh
      rcases hend _ _ _ _ _ hh with hh | ⟨_, hh⟩
      · exact Or.inl hh
      · cases hh
  | finish t role j r h1 h2 h3 =>
    refine ⟨Nat.le_refl _, ?_, ?_⟩
    · rintro i (hi | hi | hm)
      · exact Or.inl (Or.inl hi)
      · exact Or.inl (Or.inr (Or.inl hi))
      · rcases hset t _ i hm with hr | hr
        · exact hr.elim
        · exact Or.inl (Or.inr (Or.inr hr))
    · intro t' e' i hh
      rcases hend _ _ _ _ _ hh with hh | ⟨_, hh⟩
      · exact Or.inl hh
      · injection hh with _ hh
        exact Or.inr (hmem t _ i h2 hh)
  | finishPanic t role j p h1 h2 h3 =>
    refine ⟨Nat.le_refl _, ?_, ?_⟩
    · rintro i (hi | hi | hm)
      · exact Or.inl (Or.inl hi)
      · exact Or.inl (Or.inr (Or.inl hi))
      · rcases hset t _ i hm with hr | hr
        · exact hr.elim
        · exact Or.inl (Or.inr (Or.inr hr))
    · intro t' e' i hh
      rcases hend _ _ _ _ _ hh with hh | ⟨_, hh⟩
      · exact Or.inl hh
      · cases hh
  | skip t role j r h1 h2 h3 =>
    refine ⟨Nat.le_refl _, ?_, ?_⟩
    · rintro i (hi | hi | hm)
      · exact Or.inl (Or.inl hi)
      · exact Or.inl (Or.inr (Or.inl hi))
      · rcases hset t _ i hm with hr | hr
        · exact hr.elim
        · exact Or.inl (Or.inr (Or.inr hr))
    · intro t' e' i hh
      rcases hend _ _ _ _ _ hh with hh | ⟨_, hh⟩
      · exact Or.inl hh
      · injection hh with _ hh
        exact Or.inr (hmem t _ i h2 hh)

section
variable {k : Int} {Body : U64 → Go Loaded → Prop} {s : System} (h : Finalizer.Reach True k Body s)
include h

/-- an unmapped cache exists and nothing refers to it -/
theorem unmapped_dead : (∀ i, s.unmapped i → i < s.proc.mgr.fresh ∧ ¬ Live True s i) ∧ ¬ s.fault := by
  induction h with
  | init => exact ⟨fun _ h => h.elim, fun h => h⟩
  | @step s s' _ hs ih =>
    obtain ⟨ih, ihf⟩ := ih
    cases hs with
    | manager proc hp =>
      obtain ⟨a1, a2, a3⟩ := step_refs hp
      refine ⟨fun i hi => ?_, ihf⟩
      obtain ⟨h1, h2⟩ := ih i hi
      refine ⟨Nat.lt_of_lt_of_le h1 a1, ?_⟩
      rintro (hr | ⟨c, hc, hh⟩)
      · rcases a2 i hr with hr | hr
        · exact h2 (Or.inl hr)
        · omega
      · cases c with
        | getting t =>
          obtain ⟨e, he⟩ := hh
          rcases a3 t e i he with he | he
          · exact h2 (Or.inr ⟨_, hc, e, he⟩)
          · exact h2 (Or.inl he)
        | reading j n => exact h2 (Or.inr ⟨_, hc, hh⟩)
        | done => exact hh
    | compute e hcr =>
      obtain ⟨a1, a2, a3⟩ := step_refs (Manager.Step.call (k := k) (Body := Body) s.proc e hcr)
      refine ⟨fun i hi => ?_, ihf⟩
      obtain ⟨h1, h2⟩ := ih i hi
      refine ⟨h1, ?_⟩
      rintro (hr | ⟨c, hc, hh⟩)
      · rcases a2 i hr with hr | hr
        · exact h2 (Or.inl hr)
        · omega
      · rcases List.mem_append.mp hc with hc | hc
        · cases c with
          | getting t =>
            obtain ⟨e, he⟩ := hh
            rcases a3 t e i he with he | he
            · exact h2 (Or.inr ⟨_, hc, e, he⟩)
            · exact h2 (Or.inl he)
          | reading j n => exact h2 (Or.inr ⟨_, hc, hh⟩)
          | done => exact hh
        · rw [List.mem_singleton.mp hc] at hh
          obtain ⟨e', he'⟩ := hh
          have he' : (s.proc.threads ++ [Thread.locking e])[s.proc.threads.length]? = some (.ended (some e') i) := he'
          rw [List.getElem?_append_right (Nat.le_refl _), Nat.sub_self] at he'
          cases he'
    | take u t e j n hu ht =>
      refine ⟨fun i hi => ?_, ihf⟩
      obtain ⟨h1, h2⟩ := ih i hi
      refine ⟨h1, ?_⟩
      rintro (hr | ⟨c, hc, hh⟩)
      · exact h2 (Or.inl hr)
      · rcases List.mem_or_eq_of_mem_set hc with hc | rfl
        · exact h2 (Or.inr ⟨c, hc, hh⟩)
        · have : j = i := hh.1
          subst this
          exact h2 (Or.inr ⟨_, List.mem_of_getElem? hu, e, ht⟩)
    | access u j n hu =>
      refine ⟨ih, ?_⟩
      rintro (hf | hf)
      · exact ihf hf
      · exact (ih j hf).2 (Or.inr ⟨_, List.mem_of_getElem? hu, rfl, Or.inl trivial⟩)
    | lookup u j n hu =>
      refine ⟨fun i hi => ?_, ihf⟩
      obtain ⟨h1, h2⟩ := ih i hi
      refine ⟨h1, ?_⟩
      rintro (hr | ⟨c, hc, hh⟩)
      · exact h2 (Or.inl hr)
      · rcases List.mem_or_eq_of_mem_set hc with hc | rfl
        · exact h2 (Or.inr ⟨c, hc, hh⟩)
        · exact h2 (Or.inr ⟨_, List.mem_of_getElem? hu, hh.1, Or.inl trivial⟩)
    | finish u j hu =>
      refine ⟨fun i hi => ?_, ihf⟩
      obtain ⟨h1, h2⟩ := ih i hi
      refine ⟨h1, ?_⟩
      rintro (hr | ⟨c, hc, hh⟩)
      · exact h2 (Or.inl hr)
      · rcases List.mem_or_eq_of_mem_set hc with hc | rfl
        · exact h2 (Or.inr ⟨c, hc, hh⟩)
        · exact hh
    | finalize j hj hl =>
      refine ⟨fun i hi => ?_, ihf⟩
      rcases hi with rfl | hi
      · exact ⟨hj, hl⟩
      · exact ih i hi

/-- **C67** In no execution does a `Compute` read from a cache whose finalizer has unmapped it. -/
theorem C67_no_fault : ¬ s.fault := (unmapped_dead h).2

/-- **C67** A cache that is in the manager, being generated, being waited for or in use by a `Compute` is mapped. -/
theorem C67_mapped (i : Nat) (hl : Live True s i) : ¬ s.unmapped i := fun hu => ((unmapped_dead h).1 i hu).2 hl

end

/-- four calls for distant epochs, of which the first has begun its last look-up -/
theorem fault_run (keep : Prop) (Body : U64 → Go Loaded → Prop) (r : Loaded) (hr : Body 0 (.ok r)) :
    ∃ s : System, Finalizer.Reach keep 3 Body s ∧ s.clients = [.reading 0 0] ∧ 0 < s.proc.mgr.fresh ∧ ¬ Referred s.proc 0 ∧ s.unmapped = fun _ => False := by
  have h1 := Finalizer.Reach.init.step (.compute (keep := keep) (k := 3) (Body := Body) _ 0 rfl)
  have h2 := h1.step (.manager _ _ (.lock _ 0 0 [] 1 _ 0 (some 1) rfl rfl rfl (List.Perm.refl _) (Nat.le_succ _) rfl))
  have h3 := h2.step (.manager _ _ (.start _ 0 (some 0) 0 rfl rfl rfl))
  have h4 := h3.step (.manager _ _ (.finish _ 0 (some 0) 0 r rfl rfl hr))
  have h5 := h4.step (.take _ 0 0 0 0 0 rfl rfl)
  have h6 := h5.step (.manager _ _ (.call _ 10 rfl))
  have h7 := h6.step (.manager _ _ (.lock _ 2 10 [(0, 0)] 2 _ 2 (some 3) rfl rfl rfl (List.Perm.refl _) (Nat.le_succ _) rfl))
  have h8 := h7.step (.manager _ _ (.call _ 20 rfl))
  have h9 := h8.step (.manager _ _ (.lock _ 4 20 [(10, 2), (0, 0)] 3 _ 4 (some 5) rfl rfl rfl (List.Perm.refl _) (Nat.le_succ _) rfl))
  have h10 := h9.step (.manager _ _ (.call _ 30 rfl))
  have h11 := h10.step (.manager _ _ (.lock _ 6 30 [(20, 4), (10, 2), (0, 0)] 4 _ 6 (some 7) rfl rfl rfl (List.Perm.refl _) (Nat.le_succ _) rfl))
  refine ⟨_, h11, rfl, Nat.succ_pos _, ?_, rfl⟩
  rintro (⟨e, hi⟩ | hi | ⟨th, hm, hr⟩)
  · have hi : (e, 0) ∈ ([(30, 6), (20, 4), (10, 2)] : List (U64 × Nat)) := hi
    simp at hi
  · have hi : some 7 = some 0 := hi
    cases hi
  · have hm : th ∈ [Thread.ended (some 0) 0, .waiting none 1, .waiting (some 10) 2, .waiting none 3, .waiting (some 20) 4, .waiting none 5,
      .waiting (some 30) 6, .waiting none 7] := hm
    simp only [List.mem_cons, List.not_mem_nil, or_false] at hm
    rcases hm with rfl | rfl | rfl | rfl | rfl | rfl | rfl | rfl <;> simp [Refers] at hr

/-- **C67** The call of `runtime.KeepAlive` is needed: without it a `Compute` can read from an unmapped cache while three others run, with
the shipped `CachesCount = 3` -/
theorem C67_needed (Body : U64 → Go Loaded → Prop) (r : Loaded) (hr : Body 0 (.ok r)) :
    ∃ s : System, Finalizer.Reach False 3 Body s ∧ s.fault := by
  obtain ⟨s, hs, hc, hf, hn, _⟩ := fault_run False Body r hr
  have h1 := hs.step (.finalize _ 0 hf (by
    rintro (h | ⟨c, hm, hh⟩)
    · exact hn h
    · rw [hc, List.mem_singleton] at hm
      subst hm
      exact hh.2.elim id (Nat.lt_irrefl 0)))
  have h2 := h1.step (.access _ 0 0 0 (by show s.clients[0]? = _; rw [hc]; rfl))
  exact ⟨_, h2, Or.inr (Or.inl rfl)⟩

/-- Collection happens: a cache that was evicted and is no longer in use is unmapped in some execution, so that `C67_no_fault` is not
about a collector that never runs. -/
theorem C67_collected (Body : U64 → Go Loaded → Prop) (r : Loaded) (hr : Body 0 (.ok r)) :
    ∃ s : System, Finalizer.Reach True 3 Body s ∧ s.unmapped 0 := by
  obtain ⟨s, hs, hc, hf, hn, _⟩ := fault_run True Body r hr
  have h0 := hs.step (.finish _ 0 0 (by rw [hc]; rfl))
  have h1 := h0.step (.finalize _ 0 hf (by
    rintro (h | ⟨c, hm, hh⟩)
    · exact hn h
    · rw [hc] at hm
      rw [List.mem_singleton.mp hm] at hh
      exact hh))
  exact ⟨_, h1, Or.inl rfl⟩

/-- the hypotheses of `C67_mapped` are met by a `Compute` that reads a cache which the manager has evicted -/
example (Body : U64 → Go Loaded → Prop) (r : Loaded) (hr : Body 0 (.ok r)) :
    ∃ s : System, Finalizer.Reach True 3 Body s ∧ Live True s 0 ∧ ¬ Referred s.proc 0 := by
  obtain ⟨s, hs, hc, hf, hn, _⟩ := fault_run True Body r hr
  exact ⟨s, hs, Or.inr ⟨.reading 0 0, by rw [hc]; exact List.mem_singleton.mpr rfl, rfl, Or.inl trivial⟩, hn⟩

end Verif.Props
