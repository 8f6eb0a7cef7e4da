import Verif.Proof.Mutex
import Verif.Props.Manager

/-! # The section of `GetCache` under the mutex is atomic: property C70 -/

set_option autoImplicit false

namespace Verif.Props

open Go Dag
open Manager (Mgr Thread Once evictStep evictOne delete put takeCache preGenerate register)
open Mutex (Holder Phase)

section

variable {k : Int} {Body : U64 → Go Loaded → Prop}

/-- the statements of the goroutine that has the mutex, from `s` on -/
inductive Alone (k : Int) (Body : U64 → Go Loaded → Prop) : Mutex.State → Mutex.State → Prop
  | refl (s : Mutex.State) : Alone k Body s s
  | tail {s s' s'' : Mutex.State} : Alone k Body s s' → Mutex.Step k Body s' s'' → s'.holder ≠ none → Alone k Body s s''

theorem Alone.reach {s s' : Mutex.State} (h : Alone k Body s s') (hr : Mutex.Reach k Body s) : Mutex.Reach k Body s' := by
  induction h with
  | refl => exact hr
  | tail _ hs _ ih => exact Mutex.Reach.step ih hs

theorem Alone.trans {s s' s'' : Mutex.State} (h : Alone k Body s s') (h' : Alone k Body s' s'') : Alone k Body s s'' := by
  induction h' with
  | refl => exact h
  | tail _ hs hh ih => exact Alone.tail ih hs hh

theorem Alone.one {s s' : Mutex.State} (hs : Mutex.Step k Body s s') (hh : s.holder ≠ none) : Alone k Body s s' :=
  .tail (.refl s) hs hh

theorem alone_unlock {b : Manager.State} {h : Holder} {c : Nat} (hc : b.crashed = false) (hp : h.phase = .unlock c) :
    Alone k Body ⟨b, some h⟩ ⟨{ b with threads := b.threads.set h.thread (.waiting (some h.epoch) c) }, none⟩ :=
  .one (.unlock ⟨b, some h⟩ h c hc rfl hp) (by simp)

theorem alone_use {b : Manager.State} {h : Holder} {c : Nat} (hc : b.crashed = false) (hp : h.phase = .use c) (now : Nat) (hn : b.clock ≤ now) :
    Alone k Body ⟨b, some h⟩ ⟨{ b with
      mgr := b.mgr.use c now, clock := now, hist := (h.epoch, now) :: b.hist,
      threads := b.threads.set h.thread (.waiting (some h.epoch) c) }, none⟩ :=
  (Alone.one (.use ⟨b, some h⟩ h c now hc rfl hp hn) (by simp)).trans
    (alone_unlock (b := { b with mgr := b.mgr.use c now, clock := now, hist := (h.epoch, now) :: b.hist })
      (h := { h with phase := .unlock c }) hc rfl)

theorem alone_ahead {b : Manager.State} {h : Holder} {c : Nat} (hc : b.crashed = false) (hp : h.phase = .ahead c) (m : Mgr) (sp : Option Nat)
    (hg : preGenerate h.epoch b.mgr = (m, sp)) (now : Nat) (hn : b.clock ≤ now) :
    Alone k Body ⟨b, some h⟩ ⟨{ b with
      mgr := m.use c now, clock := now, hist := (h.epoch, now) :: b.hist,
      threads := (b.threads ++ (sp.map fun f => Thread.waiting none f).toList).set h.thread (.waiting (some h.epoch) c) }, none⟩ := by
  cases sp with
  | none =>
    refine (Alone.one (.keep ⟨b, some h⟩ h c m hc rfl hp hg) (by simp)).trans ?_
    have := alone_use (k := k) (Body := Body) (b := { b with mgr := m }) (h := { h with phase := .use c }) (c := c) hc rfl now hn
    simpa [Mutex.State.at] using this
  | some f =>
    refine (Alone.one (.next ⟨b, some h⟩ h c f m hc rfl hp hg) (by simp)).trans ?_
    refine (Alone.one (.spawn ⟨{ b with mgr := m }, some { h with phase := .spawn c f }⟩ { h with phase := .spawn c f } c f hc rfl rfl)
      (by simp)).trans ?_
    exact alone_use (k := k) (Body := Body) (b := { b with mgr := m, threads := b.threads ++ [.waiting none f] })
      (h := { h with phase := .use c }) (c := c) hc rfl now hn

theorem alone_take {b : Manager.State} {h : Holder} (hc : b.crashed = false) (hp : h.phase = .take) (m₂ m : Mgr) (c : Nat) (sp : Option Nat)
    (ht : takeCache h.epoch b.mgr = (m₂, c)) (hg : preGenerate h.epoch { m₂ with caches := put m₂.caches h.epoch c } = (m, sp))
    (now : Nat) (hn : b.clock ≤ now) :
    Alone k Body ⟨b, some h⟩ ⟨{ b with
      mgr := m.use c now, clock := now, hist := (h.epoch, now) :: b.hist,
      threads := (b.threads ++ (sp.map fun f => Thread.waiting none f).toList).set h.thread (.waiting (some h.epoch) c) }, none⟩ := by
  have h1 := Mutex.Step.take (k := k) (Body := Body) ⟨b, some h⟩ h hc rfl hp
  simp only [ht] at h1
  refine (Alone.one h1 (by simp)).trans ?_
  refine (Alone.one (.store _ { h with phase := .store c } c hc rfl rfl) (by simp [Mutex.State.at])).trans ?_
  exact alone_ahead (b := { b with mgr := { m₂ with caches := put m₂.caches h.epoch c } }) (h := { h with phase := .ahead c }) (c := c) hc rfl m sp hg
    now hn

theorem alone_scan {b : Manager.State} {h : Holder} (hc : b.crashed = false) (rest : List (U64 × Nat)) : ∀ best : Option Nat,
    Alone k Body ⟨b, some { h with phase := .evict rest best }⟩
      ⟨b, some { h with phase := .evict [] (rest.foldl (evictStep b.mgr.heap) best) }⟩ := by
  induction rest with
  | nil => intro best; exact .refl _
  | cons x rest ih =>
    intro best
    refine (Alone.one (.scan ⟨b, some { h with phase := .evict (x :: rest) best }⟩ _ x rest best hc rfl rfl) (by simp)).trans ?_
    exact ih _

/-- the goroutine that has entered the section can run through it as the atomic section says -/
theorem alone_locked {b : Manager.State} {h : Holder} (hc : b.crashed = false) (hp : h.phase = .look) (order : List (U64 × Nat))
    (ho : order.Perm b.mgr.caches) (now : Nat) (hn : b.clock ≤ now) (m : Mgr) (c : Nat) (sp : Option Nat)
    (hl : Manager.locked k order now h.epoch b.mgr = .ok (m, c, sp)) :
    Alone k Body ⟨b, some h⟩ ⟨{ b with
      mgr := m, clock := now, hist := (h.epoch, now) :: b.hist,
      threads := (b.threads ++ (sp.map fun f => Thread.waiting none f).toList).set h.thread (.waiting (some h.epoch) c) }, none⟩ := by
  cases hg : Manager.get b.mgr.caches h.epoch with
  | some c' =>
    rw [Mutex.locked_hit hg] at hl
    injection hl with hl
    injection hl with h1 h2
    injection h2 with h2 h3
    subst h1 h2 h3
    refine (Alone.one (.hit ⟨b, some h⟩ h c' hc rfl hp hg) (by simp)).trans ?_
    have := alone_use (k := k) (Body := Body) (b := b) (h := { h with phase := .use c' }) (c := c') hc rfl now hn
    simpa [Mutex.State.at] using this
  | none =>
    have hreg : ∃ m', register k order h.epoch b.mgr = .ok (m', c, sp) ∧ m = m'.use c now := by
      unfold Manager.locked at hl
      rw [hg] at hl
      cases hr : register k order h.epoch b.mgr with
      | error p => rw [hr] at hl; cases hl
      | ok x =>
        rw [hr] at hl
        obtain ⟨m', c', sp'⟩ := x
        injection hl with hl
        injection hl with h1 h2
        injection h2 with h2 h3
        subst h1 h2 h3
        exact ⟨m', rfl, rfl⟩
    obtain ⟨m', hr, rfl⟩ := hreg
    obtain ⟨m₁, m₂, h1, h2, h3⟩ := Mutex.register_parts.1 hr
    have hrest := alone_take (k := k) (Body := Body) (b := { b with mgr := m₁ }) (h := { h with phase := .take }) hc rfl m₂ m' c sp h2 h3 now hn
    by_cases hk : k ≤ b.mgr.caches.length
    · refine (Alone.one (.full ⟨b, some h⟩ h order hc rfl hp hg hk ho) (by simp)).trans ?_
      refine (alone_scan hc order none).trans ?_
      unfold evictOne at h1
      rw [if_pos hk] at h1
      cases hv : order.foldl (evictStep b.mgr.heap) none with
      | none => rw [hv] at h1; cases h1
      | some v =>
        rw [hv] at h1
        injection h1 with h1
        subst h1
        refine (Alone.one (.drop ⟨b, some { h with phase := .evict [] (some v) }⟩ _ v hc rfl rfl) (by simp)).trans ?_
        exact hrest
    · refine (Alone.one (.room ⟨b, some h⟩ h hc rfl hp hg hk) (by simp)).trans ?_
      unfold evictOne at h1
      rw [if_neg hk] at h1
      injection h1 with h1
      subst h1
      exact hrest

/-- **C70** The states in which nobody has the mutex are those of the executions in which the whole section is one step. -/
theorem C70_atomic (b : Manager.State) : Mutex.Reach k Body ⟨b, none⟩ ↔ Manager.Reach k Body b := by
  refine ⟨fun h => Mutex.sim_reach h, fun h => ?_⟩
  induction h with
  | init => exact Mutex.Reach.init
  | @step s s' _ hs ih =>
    cases hs with
    | call e hc => exact .step ih (.call ⟨s, none⟩ e hc)
    | lock t e order now m c sp hc hst ht ho hn hl =>
      have h1 := Mutex.Reach.step ih (.lock ⟨s, none⟩ t e hc hst rfl ht)
      have h2 := (alone_locked (k := k) (Body := Body) (b := s) (h := ⟨t, e, .look⟩) hc rfl order ho now hn m c sp hl).reach h1
      obtain ⟨hlt, _⟩ := List.getElem?_eq_some_iff.mp ht
      rw [List.set_append_left _ _ hlt] at h2
      exact h2
    | lockPanic t e order now p hc hst ht ho hn hl =>
      have h1 := Mutex.Reach.step ih (.lock ⟨s, none⟩ t e hc hst rfl ht)
      have hg : Manager.get s.mgr.caches e = none := by
        cases hg : Manager.get s.mgr.caches e with
        | none => rfl
        | some c => rw [Mutex.locked_hit hg] at hl; cases hl
      have hv : k ≤ s.mgr.caches.length ∧ order.foldl (evictStep s.mgr.heap) none = none := by
        unfold Manager.locked at hl
        rw [hg] at hl
        simp only [register] at hl
        unfold evictOne at hl
        by_cases hk : k ≤ s.mgr.caches.length
        · rw [if_pos hk] at hl
          refine ⟨hk, ?_⟩
          cases hv : order.foldl (evictStep s.mgr.heap) none with
          | none => rfl
          | some v => rw [hv] at hl; cases hl
        · rw [if_neg hk] at hl; cases hl
      have h2 := Mutex.Reach.step h1 (.full ⟨s, some ⟨t, e, .look⟩⟩ ⟨t, e, .look⟩ order hc rfl rfl hg hv.1 ho)
      have h3 := (alone_scan (k := k) (Body := Body) (b := s) (h := ⟨t, e, .look⟩) hc order none).reach h2
      rw [hv.2] at h3
      exact .step h3 (.nilEvict ⟨s, some ⟨t, e, .evict [] none⟩⟩ ⟨t, e, .evict [] none⟩ hc rfl rfl)
    | start t role i hc ht ho => exact .step ih (.start ⟨s, none⟩ t role i hc ht ho)
    | finish t role i r hc ht hb => exact .step ih (.finish ⟨s, none⟩ t role i r hc ht hb)
    | finishPanic t role i p hc ht hb => exact .step ih (.finishPanic ⟨s, none⟩ t role i p hc ht hb)
    | skip t role i r hc ht ho => exact .step ih (.skip ⟨s, none⟩ t role i r hc ht ho)

/-- **C70** While a goroutine has the mutex and until it executes its next statement, nothing that the section reads or writes changes. -/
theorem C70_exclusive {s s' : Mutex.State} (h : Holder) (hs : Mutex.Step k Body s s') (hh : s.holder = some h) (hh' : s'.holder = some h) :
    s'.base.mgr.caches = s.base.mgr.caches ∧ s'.base.mgr.future = s.base.mgr.future ∧ s'.base.mgr.fresh = s.base.mgr.fresh ∧
    s'.base.clock = s.base.clock ∧
    ∀ i : Nat, (s'.base.mgr.heap i).epoch = (s.base.mgr.heap i).epoch ∧ (s'.base.mgr.heap i).used = (s.base.mgr.heap i).used := by
  have hset : ∀ (i : Nat) (o : Once) (j : Nat), ((s.base.mgr.setOnce i o).heap j).epoch = (s.base.mgr.heap j).epoch ∧
      ((s.base.mgr.setOnce i o).heap j).used = (s.base.mgr.heap j).used :=
    fun i o j => ⟨(Manager.setOnce_heap _ i o j).1, (Manager.setOnce_heap _ i o j).2.1⟩
  have hne : ∀ (h₁ : Holder) (p : Phase), s.holder = some h₁ → some { h₁ with phase := p } = some h → h₁.phase = p := by
    intro h₁ p e1 e2
    rw [hh] at e1
    injection e1 with e1
    injection e2 with e2
    subst e1
    rw [← e2]
  cases hs with
  | call e hc => exact ⟨rfl, rfl, rfl, rfl, fun _ => ⟨rfl, rfl⟩⟩
  | lock t e hc hst hn ht => rw [hh] at hn; cases hn
  | hit h₁ c hc e1 hp hg => exact ⟨rfl, rfl, rfl, rfl, fun _ => ⟨rfl, rfl⟩⟩
  | room h₁ hc e1 hp hg hk => exact ⟨rfl, rfl, rfl, rfl, fun _ => ⟨rfl, rfl⟩⟩
  | full h₁ order hc e1 hp hg hk ho => exact ⟨rfl, rfl, rfl, rfl, fun _ => ⟨rfl, rfl⟩⟩
  | scan h₁ x rest best hc e1 hp => exact ⟨rfl, rfl, rfl, rfl, fun _ => ⟨rfl, rfl⟩⟩
  | drop h₁ v hc e1 hp => have := hne h₁ _ e1 hh'; rw [hp] at this; cases this
  | nilEvict h₁ hc e1 hp => cases hh'
  | take h₁ hc e1 hp => have := hne h₁ _ e1 hh'; rw [hp] at this; cases this
  | store h₁ c hc e1 hp => have := hne h₁ _ e1 hh'; rw [hp] at this; cases this
  | keep h₁ c m hc e1 hp hg => have := hne h₁ _ e1 hh'; rw [hp] at this; cases this
  | next h₁ c f m hc e1 hp hg => have := hne h₁ _ e1 hh'; rw [hp] at this; cases this
  | spawn h₁ c f hc e1 hp => exact ⟨rfl, rfl, rfl, rfl, fun _ => ⟨rfl, rfl⟩⟩
  | use h₁ c now hc e1 hp hn => have := hne h₁ _ e1 hh'; rw [hp] at this; cases this
  | unlock h₁ c hc e1 hp => cases hh'
  | start t role i hc ht ho => exact ⟨rfl, rfl, rfl, rfl, hset i _⟩
  | finish t role i r hc ht hb => exact ⟨rfl, rfl, rfl, rfl, hset i _⟩
  | finishPanic t role i p hc ht hb => exact ⟨rfl, rfl, rfl, rfl, hset i _⟩
  | skip t role i r hc ht ho => exact ⟨rfl, rfl, rfl, rfl, fun _ => ⟨rfl, rfl⟩⟩

/-- every state agrees with one of an execution with atomic sections, except for what the section under way has done so far -/
theorem atomic_view {s : Mutex.State} (h : Mutex.Reach k Body s) : ∃ a : Manager.State, Manager.Reach k Body a ∧
    a.crashed = s.base.crashed ∧ a.started = s.base.started ∧
    (∀ (t : Nat) (th : Thread), (∀ e, th ≠ .locking e) → s.base.threads[t]? = some th → a.threads[t]? = some th) ∧
    ∀ i < a.mgr.fresh, (a.mgr.heap i).once = (s.base.mgr.heap i).once ∧ (a.mgr.heap i).epoch = (s.base.mgr.heap i).epoch := by
  have hs := Mutex.sim_reach h
  have huse : ∀ (m : Mgr) (c now i : Nat), ((m.use c now).heap i).once = (m.heap i).once ∧ ((m.use c now).heap i).epoch = (m.heap i).epoch := by
    intro m c now i
    simp only [Mgr.use]
    by_cases hc : i = c
    · subst hc; rw [Function.update_self]; exact ⟨rfl, rfl⟩
    · rw [Function.update_of_ne hc]; exact ⟨rfl, rfl⟩
  cases hh : s.holder with
  | none =>
    unfold Mutex.Sim at hs
    rw [hh] at hs
    exact ⟨s.base, hs, rfl, rfl, fun _ _ _ h => h, fun _ _ => ⟨rfl, rfl⟩⟩
  | some h =>
    obtain ⟨h1, h2, h3⟩ := Mutex.sim_cases hh hs
    rcases h3 with ⟨c, hp, hr⟩ | ⟨c, hp, hr⟩ | ⟨m₀, hp, hr⟩
    · exact ⟨_, hr _ (Nat.le_refl _), rfl, rfl, fun t th hl ht => Manager.keep_set ht (Mutex.locking_ne h1 ht hl), fun i _ => huse _ _ _ i⟩
    · exact ⟨_, hr, rfl, rfl, fun t th hl ht => Manager.keep_set ht (Mutex.locking_ne h1 ht hl), fun _ _ => ⟨rfl, rfl⟩⟩
    · have hg := Mutex.pre_grown hp
      exact ⟨_, hr, rfl, rfl, fun _ _ _ h => h, fun i hi => ⟨(hg.once i hi).symm, (hg.epoch i hi).symm⟩⟩

/-- **C70** Whatever section is under way: a call that has returned has the cache of its epoch, generated (or, if generating panics for
this epoch, without contents); no body was started twice. -/
theorem C70_returned {s : Mutex.State} (h : Mutex.Reach k Body s) : s.base.started.Nodup ∧
    ∀ (t : Nat) (e : U64) (i : Nat), s.base.threads[t]? = some (.ended (some e) i) → (s.base.mgr.heap i).epoch = e ∧
      ((∃ r, (s.base.mgr.heap i).once = .done (some r) ∧ Body e (.ok r)) ∨ ((s.base.mgr.heap i).once = .done none ∧ ∃ p, Body e (.error p))) := by
  obtain ⟨a, ha, _, h2, h3, h4⟩ := atomic_view h
  refine ⟨by rw [← h2]; exact (C43_once ha).1, fun t e i ht => ?_⟩
  have ht' := h3 t _ (by simp) ht
  have hlt := ((Manager.inv_reach ha).refs t _ _ i ht' rfl).1
  have := C40_returned ha t e i ht'
  rw [(h4 i hlt).1, (h4 i hlt).2] at this
  exact this

/-- **C70** With `CachesCount ≥ 1` the goroutine that has the mutex can always go on, without the help of any other, until it has given
the mutex back; it waits for nobody in the section. -/
theorem C70_release (hk : 1 ≤ k) {s : Mutex.State} (h : Mutex.Reach k Body s) (hc : s.base.crashed = false) :
    ∃ s' : Mutex.State, Alone k Body s s' ∧ s'.holder = none ∧ s'.base.stuck = s.base.stuck := by
  cases hh : s.holder with
  | none => exact ⟨s, .refl s, hh, rfl⟩
  | some w =>
    obtain ⟨b, ho⟩ := s
    simp only at hh
    subst hh
    obtain ⟨h1, h2, h3⟩ := Mutex.sim_cases rfl (Mutex.sim_reach h)
    obtain ⟨t, e, p⟩ := w
    have hahead : ∀ (m : Mgr) (c : Nat), ∃ s' : Mutex.State, Alone k Body ⟨{ b with mgr := m }, some ⟨t, e, .ahead c⟩⟩ s' ∧ s'.holder = none ∧
        s'.base.stuck = b.stuck :=
      fun m c => ⟨_, alone_ahead (b := { b with mgr := m }) (h := ⟨t, e, .ahead c⟩) hc rfl _ _ rfl b.clock (Nat.le_refl _), rfl, rfl⟩
    have htake : ∀ (m : Mgr), ∃ s' : Mutex.State, Alone k Body ⟨{ b with mgr := m }, some ⟨t, e, .take⟩⟩ s' ∧ s'.holder = none ∧
        s'.base.stuck = b.stuck :=
      fun m => ⟨_, alone_take (b := { b with mgr := m }) (h := ⟨t, e, .take⟩) hc rfl _ _ _ _ rfl rfl b.clock (Nat.le_refl _), rfl, rfl⟩
    have hevict : ∀ (rest : List (U64 × Nat)) (best : Option Nat), (rest.foldl (evictStep b.mgr.heap) best) ≠ none →
        ∃ s' : Mutex.State, Alone k Body ⟨b, some ⟨t, e, .evict rest best⟩⟩ s' ∧ s'.holder = none ∧ s'.base.stuck = b.stuck := by
      intro rest best hv
      obtain ⟨v, hv⟩ := Option.ne_none_iff_exists'.mp hv
      have h5 := alone_scan (k := k) (Body := Body) (b := b) (h := ⟨t, e, .look⟩) hc rest best
      rw [hv] at h5
      obtain ⟨s', h6, h7, h8⟩ := htake { b.mgr with caches := delete b.mgr.caches (b.mgr.heap v).epoch }
      exact ⟨s', (h5.trans (Alone.one (.drop ⟨b, some ⟨t, e, .evict [] (some v)⟩⟩ ⟨t, e, .evict [] (some v)⟩ v hc rfl rfl) (by simp))).trans h6, h7, h8⟩
    cases p with
    | look =>
      rcases h3 with ⟨_, hq, _⟩ | ⟨_, hq, _⟩ | ⟨m₀, hq, hr⟩
      · cases hq
      · cases hq
      obtain ⟨x, hx⟩ := Manager.locked_exists (k := k) (order := b.mgr.caches) b.clock e hk (List.Perm.refl b.mgr.caches)
      obtain ⟨c, sp, hx⟩ := hx
      exact ⟨_, alone_locked (b := b) (h := ⟨t, e, .look⟩) hc rfl b.mgr.caches (List.Perm.refl _) b.clock (Nat.le_refl _) _ _ _ hx, rfl, rfl⟩
    | evict rest best =>
      rcases h3 with ⟨_, hq, _⟩ | ⟨_, hq, _⟩ | ⟨m₀, hq, hr⟩
      · cases hq
      · cases hq
      obtain ⟨hm, hg, hlen, seen, hperm, hb⟩ := hq
      refine hevict rest best ?_
      rw [show b.mgr = m₀ from hm, hb, ← List.foldl_append]
      intro hnone
      obtain ⟨m', hm'⟩ := Manager.evictOne_exists (m := m₀) hk hperm
      unfold evictOne at hm'
      rw [if_pos hlen, hnone] at hm'
      cases hm'
    | take => exact htake b.mgr
    | store c =>
      obtain ⟨s', h6, h7, h8⟩ := hahead { b.mgr with caches := put b.mgr.caches e c } c
      exact ⟨s', (Alone.one (.store ⟨b, some ⟨t, e, .store c⟩⟩ ⟨t, e, .store c⟩ c hc rfl rfl) (by simp)).trans h6, h7, h8⟩
    | ahead c => exact hahead b.mgr c
    | spawn c f =>
      exact ⟨_, (Alone.one (.spawn ⟨b, some ⟨t, e, .spawn c f⟩⟩ ⟨t, e, .spawn c f⟩ c f hc rfl rfl) (by simp)).trans
        (alone_use (b := { b with threads := b.threads ++ [.waiting none f] }) (h := ⟨t, e, .use c⟩) (c := c) hc rfl b.clock (Nat.le_refl _)), rfl, rfl⟩
    | use c => exact ⟨_, alone_use (b := b) (h := ⟨t, e, .use c⟩) (c := c) hc rfl b.clock (Nat.le_refl _), rfl, rfl⟩
    | unlock c => exact ⟨_, alone_unlock (b := b) (h := ⟨t, e, .unlock c⟩) (c := c) hc rfl, rfl, rfl⟩

end

/-- a section under way while the generator that it has started has already ended: an interleaving that atomic sections do not have -/
example : ∃ s : Mutex.State, Mutex.Reach 3 (fun _ o => o = .ok ⟨[7], []⟩) s ∧ s.holder = some ⟨0, 5, .use 0⟩ ∧
    s.base.threads[1]? = some (.ended none 1) ∧ (s.base.mgr.heap 1).epoch = 6 := by
  refine ⟨_, .step (.step (.step (.step (.step (.step (.step (.step (.step .init (.call _ 5 rfl)) (.lock _ 0 5 rfl rfl rfl rfl))
    (.room _ ⟨0, 5, .look⟩ rfl rfl rfl rfl (by decide))) (.take _ ⟨0, 5, .take⟩ rfl rfl rfl)) (.store _ ⟨0, 5, .store 0⟩ 0 rfl rfl rfl))
    (.next _ ⟨0, 5, .ahead 0⟩ 0 1 _ rfl rfl rfl rfl)) (.spawn _ ⟨0, 5, .spawn 0 1⟩ 0 1 rfl rfl rfl)) (.start _ 1 none 1 rfl rfl rfl))
    (.finish _ 1 none 1 ⟨[7], []⟩ rfl rfl rfl), rfl, rfl, rfl⟩

end Verif.Props
