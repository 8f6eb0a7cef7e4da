import Verif.Proof.Manager

/-! # Progress of the goroutines, and a generator that can only panic -/

set_option autoImplicit false

namespace Verif.Manager

open Go Dag

variable {k : Int} {Body : U64 → Go Loaded → Prop}

/-- the epoch of a call, `none` for a generator -/
def Thread.role : Thread → Option U64
  | .locking e => some e
  | .waiting r _ => r
  | .filling r _ => r
  | .ended r _ => r
  | .panicked r => r

/-- the number of steps a goroutine and those it starts can still make -/
def Thread.work : Thread → Nat
  | .locking _ => 5
  | .waiting _ _ => 2
  | .filling _ _ => 1
  | .ended _ _ => 0
  | .panicked _ => 0

/-- the number of steps that are left unless there are new calls -/
def work (s : State) : Nat := (s.threads.map Thread.work).sum

theorem work_set (l : List Thread) (t : Nat) (x y : Thread) (h : l[t]? = some y) :
    ((l.set t x).map Thread.work).sum + y.work = (l.map Thread.work).sum + x.work := by
  induction l generalizing t with
  | nil => simp at h
  | cons a l ih =>
    cases t with
    | zero =>
      rw [List.getElem?_cons_zero] at h
      injection h with h
      subst h
      rw [List.set_cons_zero, List.map_cons, List.map_cons, List.sum_cons, List.sum_cons]
      omega
    | succ t =>
      rw [List.getElem?_cons_succ] at h
      have := ih t h
      rw [List.set_cons_succ, List.map_cons, List.map_cons, List.sum_cons, List.sum_cons]
      omega

/-- every step but a new call uses up work -/
theorem work_step {s s' : State} (h : Step k Body s s') : work s' < work s ∨ ∃ e, s'.threads = s.threads ++ [.locking e] := by
  cases h with
  | call e hcr => exact Or.inr ⟨e, rfl⟩
  | lock t e order now m c spawn hcr hst ht ho hclk hl =>
    refine Or.inl ?_
    have := work_set s.threads t (.waiting (some e) c) _ ht
    simp only [work, List.map_append, List.sum_append]
    simp only [Thread.work] at this
    cases spawn with
    | none => simp only [Option.map_none, Option.toList_none, List.map_nil, List.sum_nil]; omega
    | some f =>
      simp only [Option.map_some, Option.toList_some, List.map_cons, List.map_nil, List.sum_cons, List.sum_nil, Thread.work]; omega
  | lockPanic t e order now p hcr hst ht ho hclk hl =>
    have := work_set s.threads t (.panicked (some e)) _ ht
    simp only [Thread.work] at this
    exact Or.inl (by simp only [work]; omega)
  | start t role i hcr ht hid =>
    have := work_set s.threads t (.filling role i) _ ht
    simp only [Thread.work] at this
    exact Or.inl (by simp only [work]; omega)
  | finish t role i r hcr ht hb =>
    have := work_set s.threads t (.ended role i) _ ht
    simp only [Thread.work] at this
    exact Or.inl (by simp only [work]; omega)
  | finishPanic t role i p hcr ht hb =>
    have := work_set s.threads t (.panicked role) _ ht
    simp only [Thread.work] at this
    exact Or.inl (by simp only [work]; omega)
  | skip t role i r hcr ht hd =>
    have := work_set s.threads t (.ended role i) _ ht
    simp only [Thread.work] at this
    exact Or.inl (by simp only [work]; omega)

/-- as long as there is work, a step that uses it up is possible -/
theorem progress {s : State} (hk : 1 ≤ k) (hB : ∀ e, ∃ o, Body e o) (h : Inv k Body s) (hc : s.crashed = false) (hw : 0 < work s) :
    ∃ s', Step k Body s s' ∧ work s' < work s := by
  have hfill : ∀ (t : Nat) r i, s.threads[t]? = some (.filling r i) → ∃ s', Step k Body s s' ∧ work s' < work s := by
    intro t r i ht
    obtain ⟨o, ho⟩ := hB (s.mgr.heap i).epoch
    cases o with
    | ok x =>
      refine ⟨_, Step.finish s t r i x hc ht ho, ?_⟩
      have := work_set s.threads t (.ended r i) _ ht
      simp only [Thread.work] at this
      simp only [work]; omega
    | error p =>
      refine ⟨_, Step.finishPanic s t r i p hc ht ho, ?_⟩
      have := work_set s.threads t (.panicked r) _ ht
      simp only [Thread.work] at this
      simp only [work]; omega
  have : ∃ th ∈ s.threads, 0 < th.work := by
    by_contra hno
    push Not at hno
    have : ∀ l : List Thread, (∀ th ∈ l, th.work ≤ 0) → (l.map Thread.work).sum = 0 := by
      intro l
      induction l with
      | nil => intro _; rfl
      | cons a l ih =>
        intro h
        have := h a (by simp)
        rw [List.map_cons, List.sum_cons, ih fun th hth => h th (by simp [hth])]
        omega
    have := this s.threads hno
    rw [work, this] at hw
    omega
  obtain ⟨th, hth, hpos⟩ := this
  obtain ⟨t, ht⟩ := List.getElem?_of_mem hth
  cases th with
  | locking e =>
    obtain ⟨m, c, sp, hl⟩ := locked_exists (order := s.mgr.caches) s.clock e hk (List.Perm.refl _)
    have hst := Step.lock (Body := Body) s t e s.mgr.caches s.clock m c sp hc (h.free hk) ht (List.Perm.refl _) (Nat.le_refl _) hl
    refine ⟨_, hst, ?_⟩
    rcases work_step hst with h1 | ⟨e', h1⟩
    · exact h1
    · exfalso
      have h2 := congrArg (fun l => l[t]?) h1
      have hlt := (List.getElem?_eq_some_iff.mp ht).1
      simp only at h2
      rw [List.getElem?_append_left (by simpa using hlt), List.getElem?_append_left hlt, ht, List.getElem?_set_self hlt] at h2
      cases h2
  | waiting r i =>
    have hi := (h.refs t _ r i ht rfl).1
    cases ho : (s.mgr.heap i).once with
    | idle =>
      refine ⟨_, Step.start s t r i hc ht ho, ?_⟩
      have := work_set s.threads t (.filling r i) _ ht
      simp only [Thread.work] at this
      simp only [work]; omega
    | running =>
      obtain ⟨t', r', h'⟩ := h.runner i hi ho
      exact hfill t' r' i h'
    | done x =>
      refine ⟨_, Step.skip s t r i x hc ht ho, ?_⟩
      have := work_set s.threads t (.ended r i) _ ht
      simp only [Thread.work] at this
      simp only [work]; omega
  | filling r i => exact hfill t r i ht
  | ended r i => simp [Thread.work] at hpos
  | panicked r => simp [Thread.work] at hpos

/-- goroutines keep their roles -/
theorem role_step {s s' : State} (h : Step k Body s s') (t : Nat) (th : Thread) (ht : s.threads[t]? = some th) :
    ∃ th', s'.threads[t]? = some th' ∧ th'.role = th.role := by
  have hlt := (List.getElem?_eq_some_iff.mp ht).1
  have hset : ∀ (u : Nat) (x y : Thread) (l2 : List Thread), s.threads[u]? = some y → x.role = y.role →
      ∃ th', (s.threads.set u x ++ l2)[t]? = some th' ∧ th'.role = th.role := by
    intro u x y l2 hu hxy
    rw [List.getElem?_append_left (by simpa using hlt)]
    by_cases htu : t = u
    · subst htu
      rw [ht] at hu
      injection hu with hu
      exact ⟨x, by rw [List.getElem?_set_self hlt], by rw [hxy, hu]⟩
    · exact ⟨th, keep_set ht htu, rfl⟩
  have hset' : ∀ (u : Nat) (x y : Thread), s.threads[u]? = some y → x.role = y.role →
      ∃ th', (s.threads.set u x)[t]? = some th' ∧ th'.role = th.role := by
    intro u x y hu hxy
    have := hset u x y [] hu hxy
    rwa [List.append_nil] at this
  cases h with
  | call e hcr => exact ⟨th, by show (s.threads ++ _)[t]? = _; rw [List.getElem?_append_left hlt]; exact ht, rfl⟩
  | lock u e order now m c spawn hcr hst hu ho hclk hl => exact hset u _ _ _ hu rfl
  | lockPanic u e order now p hcr hst hu ho hclk hl => exact hset' u _ _ hu rfl
  | start u role i hcr hu hid => exact hset' u _ _ hu rfl
  | finish u role i r hcr hu hb => exact hset' u _ _ hu rfl
  | finishPanic u role i p hcr hu hb => exact hset' u _ _ hu rfl
  | skip u role i r hcr hu hd => exact hset' u _ _ hu rfl

/-- all calls so far were for epochs up to `N` -/
def CallsUpTo (N : U64) (s : State) : Prop := ∀ (t : Nat) th e, s.threads[t]? = some th → th.role = some e → e ≤ N

theorem calls_step {N : U64} {s s' : State} (h : Step k Body s s') (hc : CallsUpTo N s') : CallsUpTo N s := by
  intro t th e ht he
  obtain ⟨th', h1, h2⟩ := role_step h t th ht
  exact hc t th' e h1 (by rw [h2]; exact he)

/-- a generator that can only panic is at work -/
structure Doomed (N : U64) (s : State) : Prop where
  epochs : ∀ i < s.mgr.fresh, (s.mgr.heap i).epoch ≤ N + 1
  future : ∀ f, s.mgr.future = some f → s.crashed = true ∨ ∃ (t : Nat) (th : Thread), s.threads[t]? = some th ∧ th.ref = some (none, f)
  asked : N ∈ s.hist.map Prod.fst → s.crashed = true ∨
    ∃ (t : Nat) (th : Thread) (i : Nat), s.threads[t]? = some th ∧ th.ref = some (none, i) ∧ (s.mgr.heap i).epoch = N + 1
  failed : ∀ i < s.mgr.fresh, (s.mgr.heap i).epoch = N + 1 → (s.mgr.heap i).once = .done none → s.crashed = true

/-- references persist, except when a goroutine panics -/
theorem ref_step {s s' : State} (h : Step k Body s s') (t : Nat) (th : Thread) (i : Nat) (ht : s.threads[t]? = some th)
    (hr : th.ref = some (none, i)) : s'.crashed = true ∨ ∃ th', s'.threads[t]? = some th' ∧ th'.ref = some (none, i) := by
  have hlt := (List.getElem?_eq_some_iff.mp ht).1
  have hset : ∀ (u : Nat) (x y : Thread) (l2 : List Thread), s.threads[u]? = some y → (y.ref = some (none, i) → x.ref = y.ref) →
      ∃ th', (s.threads.set u x ++ l2)[t]? = some th' ∧ th'.ref = some (none, i) := by
    intro u x y l2 hu hxy
    rw [List.getElem?_append_left (by simpa using hlt)]
    by_cases htu : t = u
    · subst htu
      rw [ht] at hu
      injection hu with hu
      subst hu
      exact ⟨x, by rw [List.getElem?_set_self hlt], by rw [hxy hr, hr]⟩
    · exact ⟨th, keep_set ht htu, hr⟩
  have hset' : ∀ (u : Nat) (x y : Thread), s.threads[u]? = some y → (y.ref = some (none, i) → x.ref = y.ref) →
      ∃ th', (s.threads.set u x)[t]? = some th' ∧ th'.ref = some (none, i) := by
    intro u x y hu hxy
    have := hset u x y [] hu hxy
    rwa [List.append_nil] at this
  cases h with
  | call e hcr => exact Or.inr ⟨th, by show (s.threads ++ _)[t]? = _; rw [List.getElem?_append_left hlt]; exact ht, hr⟩
  | lock u e order now m c spawn hcr hst hu ho hclk hl => exact Or.inr (hset u _ _ _ hu (fun h => by cases h))
  | lockPanic u e order now p hcr hst hu ho hclk hl => exact Or.inr (hset' u _ _ hu (fun h => by cases h))
  | start u role j hcr hu hid => exact Or.inr (hset' u _ _ hu (fun _ => rfl))
  | finish u role j r hcr hu hb => exact Or.inr (hset' u _ _ hu (fun _ => rfl))
  | finishPanic u role j p hcr hu hb =>
    cases role with
    | none => exact Or.inl rfl
    | some e => exact Or.inr (hset' u _ _ hu (fun h => by cases h))
  | skip u role j r hcr hu hd => exact Or.inr (hset' u _ _ hu (fun _ => rfl))

theorem crashed_step {s s' : State} (h : Step k Body s s') : s.crashed = false := by
  cases h <;> assumption

theorem doomed_step {N : U64} (hN : N.toNat + 1 < 2 ^ 64) {s s' : State} (hi : Inv k Body s) (h : Doomed N s)
    (hused : ∀ x ∈ s.mgr.caches, x.1 ∈ s.hist.map Prod.fst) (hs : Step k Body s s') (hc : CallsUpTo N s') : Doomed N s' := by
  have hc0 := calls_step hs hc
  have hcr0 := crashed_step hs
  have hN1 : (N + 1).toNat = N.toNat + 1 := by
    rw [BitVec.toNat_add]
    exact Nat.mod_eq_of_lt hN
  have hfut : ∀ f, s.mgr.future = some f → s'.crashed = true ∨ ∃ (t : Nat) (th : Thread), s'.threads[t]? = some th ∧ th.ref = some (none, f) := by
    intro f hf
    rcases h.future f hf with h1 | ⟨t, th, h1, h2⟩
    · rw [hcr0] at h1; cases h1
    · rcases ref_step hs t th f h1 h2 with h3 | ⟨th', h3, h4⟩
      · exact Or.inl h3
      · exact Or.inr ⟨t, th', h3, h4⟩
  have hask : N ∈ s.hist.map Prod.fst → s'.crashed = true ∨
      ∃ (t : Nat) (th : Thread) (i : Nat), s'.threads[t]? = some th ∧ th.ref = some (none, i) ∧ i < s.mgr.fresh ∧ (s.mgr.heap i).epoch = N + 1 := by
    intro hm
    rcases h.asked hm with h1 | ⟨t, th, i, h1, h2, h3⟩
    · rw [hcr0] at h1; cases h1
    · rcases ref_step hs t th i h1 h2 with h4 | ⟨th', h4, h5⟩
      · exact Or.inl h4
      · exact Or.inr ⟨t, th', i, h4, h5, (hi.refs t th none i h1 h2).1, h3⟩
  cases hs with
  | call e hcr => exact ⟨h.epochs, hfut, fun hm => (hask hm).imp_right fun ⟨t, th, i, a, b, _, d⟩ => ⟨t, th, i, a, b, d⟩, h.failed⟩
  | lockPanic t e order now p hcr hst ht ho hclk hl =>
    exact ⟨h.epochs, hfut, fun hm => (hask hm).imp_right fun ⟨t, th, i, a, b, _, d⟩ => ⟨t, th, i, a, b, d⟩, h.failed⟩
  | skip t role i r hcr ht hd =>
    exact ⟨h.epochs, hfut, fun hm => (hask hm).imp_right fun ⟨t, th, i, a, b, _, d⟩ => ⟨t, th, i, a, b, d⟩, h.failed⟩
  | start t role i hcr ht hid =>
    refine ⟨fun j hj => by rw [(setOnce_heap s.mgr i _ j).1]; exact h.epochs j hj, hfut,
      fun hm => (hask hm).imp_right fun ⟨t, th, j, a, b, _, d⟩ => ⟨t, th, j, a, b, by rw [(setOnce_heap s.mgr i _ j).1]; exact d⟩, ?_⟩
    intro j hj he ho
    rw [(setOnce_heap s.mgr i _ j).1] at he
    rw [(setOnce_heap s.mgr i _ j).2.2] at ho
    by_cases hji : j = i
    · rw [if_pos hji] at ho; cases ho
    · rw [if_neg hji] at ho; exact h.failed j hj he ho
  | finish t role i r hcr ht hb =>
    refine ⟨fun j hj => by rw [(setOnce_heap s.mgr i _ j).1]; exact h.epochs j hj, hfut,
      fun hm => (hask hm).imp_right fun ⟨t, th, j, a, b, _, d⟩ => ⟨t, th, j, a, b, by rw [(setOnce_heap s.mgr i _ j).1]; exact d⟩, ?_⟩
    intro j hj he ho
    rw [(setOnce_heap s.mgr i _ j).1] at he
    rw [(setOnce_heap s.mgr i _ j).2.2] at ho
    by_cases hji : j = i
    · rw [if_pos hji] at ho; injection ho with ho; cases ho
    · rw [if_neg hji] at ho; exact h.failed j hj he ho
  | finishPanic t role i p hcr ht hb =>
    refine ⟨fun j hj => by rw [(setOnce_heap s.mgr i _ j).1]; exact h.epochs j hj, hfut,
      fun hm => (hask hm).imp_right fun ⟨t, th, j, a, b, _, d⟩ => ⟨t, th, j, a, b, by rw [(setOnce_heap s.mgr i _ j).1]; exact d⟩, ?_⟩
    intro j hj he ho
    rw [(setOnce_heap s.mgr i _ j).1] at he
    rw [(setOnce_heap s.mgr i _ j).2.2] at ho
    by_cases hji : j = i
    · subst hji
      cases role with
      | none => rfl
      | some e =>
        exfalso
        have h1 := (hi.refs t _ _ j ht rfl).2 e rfl
        have h2 := hc0 t _ e ht rfl
        rw [he] at h1
        rw [← h1, BitVec.le_def, hN1] at h2
        omega
    · rw [if_neg hji] at ho
      have := h.failed j hj he ho
      rw [hcr] at this
      cases this
  | lock t e order now m c spawn hcr hst ht ho hclk hl =>
    have ha := locked_after hi.wf ho hl
    have hg := ha.grown
    have heN : e ≤ N := hc0 t _ e ht rfl
    rw [BitVec.le_def] at heN
    have he1 : (e + 1).toNat = e.toNat + 1 := by
      rw [BitVec.toNat_add]
      exact Nat.mod_eq_of_lt (by show e.toNat + 1 < 2 ^ 64; omega)
    have hspawn : ∀ f, spawn = some f → ∃ (t' : Nat) (th : Thread), (s.threads.set t (.waiting (some e) c) ++
        (spawn.map fun f => Thread.waiting none f).toList)[t']? = some th ∧ th.ref = some (none, f) := by
      intro f hf
      subst hf
      refine ⟨s.threads.length, .waiting none f, ?_, rfl⟩
      rw [List.getElem?_append_right (by simp)]
      simp
    refine ⟨?_, ?_, ?_, ?_⟩
    · intro i hil
      rw [BitVec.le_def, hN1]
      by_cases hlt : i < s.mgr.fresh
      · have := h.epochs i hlt
        rw [BitVec.le_def, hN1] at this
        rw [hg.epoch i hlt]
        exact this
      · rcases ha.new_epoch i (by omega) hil with h1 | h1
        · rw [h1]; omega
        · rw [h1, he1]; omega
    · intro f hf
      rcases ha.future with ⟨_, h2, _⟩ | ⟨f', h1, h2⟩
      · exact hfut f (by rw [← h2]; exact hf)
      · have : f' = f := Option.some.inj (h2.symm.trans hf)
        subst this
        exact Or.inr (hspawn f' h1)
    · intro hm
      have hm : N = e ∨ N ∈ s.hist.map Prod.fst := by simpa using hm
      have hold : N ∈ s.hist.map Prod.fst → _ := fun hm => (hask hm).imp_right fun ⟨t', th, i, a, b, hlt, d⟩ =>
        (⟨t', th, i, a, b, by rw [hg.epoch i hlt]; exact d⟩ : ∃ (t' : Nat) (th : Thread) (i : Nat),
          (s.threads.set t (.waiting (some e) c) ++ (spawn.map fun f => Thread.waiting none f).toList)[t']? = some th ∧
          th.ref = some (none, i) ∧ (m.heap i).epoch = N + 1)
      rcases hm with hm | hm
      · subst hm
        rcases ha.future with ⟨_, h2, h3 | ⟨f, h3, h4⟩⟩ | ⟨f, h1, h2⟩
        · exact hold (hused _ h3)
        · have hflt := hi.wf.future f h3
          rcases hfut f h3 with h5 | ⟨t', th, h5, h6⟩
          · exact Or.inl h5
          · refine Or.inr ⟨t', th, f, h5, h6, ?_⟩
            have h7 := h.epochs f hflt
            rw [BitVec.le_def, hN1] at h7
            rw [BitVec.lt_def] at h4
            show (m.heap f).epoch = _
            rw [hg.epoch f hflt]
            exact BitVec.eq_of_toNat_eq (by omega)
        · obtain ⟨t', th, h5, h6⟩ := hspawn f h1
          exact Or.inr ⟨t', th, f, h5, h6, (ha.spawned f h1).2.2.1⟩
      · exact hold hm
    · intro i hil he hd
      by_cases hlt : i < s.mgr.fresh
      · exact h.failed i hlt (by rw [← hg.epoch i hlt]; exact he) (by rw [← hg.once i hlt]; exact hd)
      · have := hg.idle i (by omega) hil
        rw [this] at hd
        cases hd

end Verif.Manager
