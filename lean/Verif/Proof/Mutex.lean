import Verif.Model.Mutex
import Verif.Proof.Manager

/-! # The section under the mutex is atomic -/

set_option autoImplicit false

namespace Verif.Mutex

open Go Dag
open Manager (Mgr Thread Once evictStep evictOne delete put takeCache startFuture preGenerate register Grown WF)

/-! ## Changes of a `sync.Once` commute with the statements of the section -/

theorem evictStep_setOnce (m : Mgr) (i : Nat) (o : Once) : evictStep (m.setOnce i o).heap = evictStep m.heap := by
  funext best x
  cases best with
  | none => rfl
  | some v => simp only [evictStep]; rw [(Manager.setOnce_heap m i o x.2).2.1, (Manager.setOnce_heap m i o v).2.1]

theorem evictOne_setOnce {k : Int} {order : List (U64 × Nat)} {m m' : Mgr} (i : Nat) (o : Once) (h : evictOne k order m = .ok m') :
    evictOne k order (m.setOnce i o) = .ok (m'.setOnce i o) := by
  unfold evictOne at h ⊢
  rw [evictStep_setOnce]
  by_cases hk : k ≤ m.caches.length
  · rw [if_pos hk] at h
    rw [if_pos (show k ≤ (m.setOnce i o).caches.length from hk)]
    cases hv : order.foldl (evictStep m.heap) none with
    | none => rw [hv] at h; cases h
    | some v =>
      rw [hv] at h
      injection h with h
      subst h
      simp only [(Manager.setOnce_heap m i o v).1]
      rfl
  · rw [if_neg hk] at h
    rw [if_neg (show ¬ k ≤ (m.setOnce i o).caches.length from hk)]
    injection h with h
    subst h
    rfl

theorem alloc_setOnce (m : Mgr) (e : U64) (i : Nat) (o : Once) (hi : i < m.fresh) :
    (m.setOnce i o).alloc e = ((m.alloc e).1.setOnce i o, (m.alloc e).2) := by
  simp only [Mgr.alloc, Mgr.setOnce, Prod.mk.injEq, Mgr.mk.injEq, and_true]
  rw [Function.update_of_ne (by omega), Function.update_comm (by omega)]

theorem takeCache_setOnce (m : Mgr) (e : U64) (i : Nat) (o : Once) (hi : i < m.fresh) :
    takeCache e (m.setOnce i o) = ((takeCache e m).1.setOnce i o, (takeCache e m).2) := by
  unfold takeCache
  rw [show (m.setOnce i o).future = m.future from rfl]
  cases m.future with
  | none => exact alloc_setOnce m e i o hi
  | some f =>
    simp only [(Manager.setOnce_heap m i o f).1]
    by_cases he : (m.heap f).epoch = e
    · rw [if_pos he, if_pos he]; rfl
    · rw [if_neg he, if_neg he]; exact alloc_setOnce m e i o hi

theorem startFuture_setOnce (m : Mgr) (e : U64) (i : Nat) (o : Once) (hi : i < m.fresh) :
    startFuture e (m.setOnce i o) = ((startFuture e m).1.setOnce i o, (startFuture e m).2) := by
  unfold startFuture
  rw [alloc_setOnce m _ i o hi]
  rfl

theorem preGenerate_setOnce (m : Mgr) (e : U64) (i : Nat) (o : Once) (hi : i < m.fresh) :
    preGenerate e (m.setOnce i o) = ((preGenerate e m).1.setOnce i o, (preGenerate e m).2) := by
  unfold preGenerate
  rw [show (m.setOnce i o).future = m.future from rfl]
  cases m.future with
  | none => exact startFuture_setOnce m e i o hi
  | some f =>
    simp only [(Manager.setOnce_heap m i o f).1]
    by_cases he : (m.heap f).epoch ≤ e
    · rw [if_pos he, if_pos he]; exact startFuture_setOnce m e i o hi
    · rw [if_neg he, if_neg he]

theorem use_setOnce (m : Mgr) (c now : Nat) (i : Nat) (o : Once) : (m.setOnce i o).use c now = (m.use c now).setOnce i o := by
  simp only [Mgr.use, Mgr.setOnce, Mgr.mk.injEq, and_true]
  by_cases h : c = i
  · subst h; simp
  · rw [Function.update_of_ne h, Function.update_of_ne (Ne.symm h), Function.update_comm h]

/-! ## The manager before the section -/

/-- `m` is what the section for `e` has made of `m₀` when it has come to phase `p`, up to `dag.go:155` -/
def Pre (k : Int) (e : U64) (m₀ m : Mgr) : Phase → Prop
  | .look => m = m₀
  | .evict rest best => m = m₀ ∧ Manager.get m₀.caches e = none ∧ k ≤ m₀.caches.length ∧
      ∃ seen : List (U64 × Nat), (seen ++ rest).Perm m₀.caches ∧ best = seen.foldl (evictStep m₀.heap) none
  | .take => Manager.get m₀.caches e = none ∧ ∃ order : List (U64 × Nat), order.Perm m₀.caches ∧ evictOne k order m₀ = .ok m
  | .store c => Manager.get m₀.caches e = none ∧ ∃ (order : List (U64 × Nat)) (m₁ : Mgr), order.Perm m₀.caches ∧
      evictOne k order m₀ = .ok m₁ ∧ takeCache e m₁ = (m, c)
  | .ahead c => Manager.get m₀.caches e = none ∧ ∃ (order : List (U64 × Nat)) (m₁ m₂ : Mgr), order.Perm m₀.caches ∧
      evictOne k order m₀ = .ok m₁ ∧ takeCache e m₁ = (m₂, c) ∧ m = { m₂ with caches := put m₂.caches e c }
  | .spawn c f => Manager.get m₀.caches e = none ∧ ∃ order : List (U64 × Nat), order.Perm m₀.caches ∧
      register k order e m₀ = .ok (m, c, some f)
  | .use _ => False
  | .unlock _ => False

theorem evictOne_heap {k : Int} {order : List (U64 × Nat)} {m m' : Mgr} (h : evictOne k order m = .ok m') :
    m'.heap = m.heap ∧ m'.fresh = m.fresh ∧ m'.future = m.future := by
  unfold evictOne at h
  by_cases hk : k ≤ m.caches.length
  · rw [if_pos hk] at h
    cases hv : order.foldl (evictStep m.heap) none with
    | none => rw [hv] at h; cases h
    | some v => rw [hv] at h; injection h with h; subst h; exact ⟨rfl, rfl, rfl⟩
  · rw [if_neg hk] at h
    injection h with h
    subst h
    exact ⟨rfl, rfl, rfl⟩

theorem takeCache_grown (e : U64) (m : Mgr) : Grown m (takeCache e m).1 := by
  unfold takeCache
  cases hf : m.future with
  | none => exact Manager.alloc_grown m e
  | some f =>
    simp only
    by_cases he : (m.heap f).epoch = e
    · rw [if_pos he]
      exact ⟨Nat.le_refl _, fun _ _ => rfl, fun _ _ => rfl, fun i h1 h2 => absurd h2 (by show ¬ i < m.fresh; omega)⟩
    · rw [if_neg he]
      exact Manager.alloc_grown m e

theorem preGenerate_grown (e : U64) (m : Mgr) : Grown m (preGenerate e m).1 := by
  have hs : Grown m (startFuture e m).1 := by
    have := Manager.alloc_grown m (e + 1)
    exact ⟨this.fresh, this.epoch, this.once, this.idle⟩
  unfold preGenerate
  cases hf : m.future with
  | none => exact hs
  | some f =>
    simp only
    by_cases he : (m.heap f).epoch ≤ e
    · rw [if_pos he]; exact hs
    · rw [if_neg he]; exact Grown.refl m

theorem grown_same {m m' : Mgr} (h : m'.heap = m.heap) (hf : m'.fresh = m.fresh) : Grown m m' :=
  ⟨Nat.le_of_eq hf.symm, fun _ _ => by rw [h], fun _ _ => by rw [h], fun i h1 h2 => absurd h2 (by omega)⟩

/-- the parts of `register` -/
theorem register_parts {k : Int} {order : List (U64 × Nat)} {e : U64} {m₀ m : Mgr} {c : Nat} {sp : Option Nat} :
    register k order e m₀ = .ok (m, c, sp) ↔ ∃ m₁ m₂ : Mgr, evictOne k order m₀ = .ok m₁ ∧ takeCache e m₁ = (m₂, c) ∧
      preGenerate e { m₂ with caches := put m₂.caches e c } = (m, sp) := by
  unfold register
  constructor
  · intro h
    cases h1 : evictOne k order m₀ with
    | error p => rw [h1] at h; cases h
    | ok m₁ =>
      rw [h1, ok_bind] at h
      refine ⟨m₁, (takeCache e m₁).1, rfl, ?_⟩
      injection h with h
      injection h with h2 h3
      injection h3 with h3 h4
      subst h3
      exact ⟨rfl, Prod.ext h2 h4⟩
  · rintro ⟨m₁, m₂, h1, h2, h3⟩
    rw [h1, ok_bind]
    simp only [h2, h3]
    rfl

theorem pre_grown {k : Int} {e : U64} {m₀ m : Mgr} {p : Phase} (h : Pre k e m₀ m p) : Grown m₀ m := by
  cases p with
  | look => rw [Pre] at h; rw [h]; exact Grown.refl _
  | evict rest best => rw [Pre] at h; rw [h.1]; exact Grown.refl _
  | take =>
    obtain ⟨_, order, _, h1⟩ := h
    exact grown_same (evictOne_heap h1).1 (evictOne_heap h1).2.1
  | store c =>
    obtain ⟨_, order, m₁, _, h1, h2⟩ := h
    have h3 := takeCache_grown e m₁
    rw [h2] at h3
    exact (grown_same (evictOne_heap h1).1 (evictOne_heap h1).2.1).trans h3
  | ahead c =>
    obtain ⟨_, order, m₁, m₂, _, h1, h2, h4⟩ := h
    have h3 := takeCache_grown e m₁
    rw [h2] at h3
    subst h4
    exact ((grown_same (evictOne_heap h1).1 (evictOne_heap h1).2.1).trans h3).trans (grown_same rfl rfl)
  | spawn c f =>
    obtain ⟨_, order, _, hr⟩ := h
    obtain ⟨m₁, m₂, h1, h2, h4⟩ := register_parts.1 hr
    have h3 := takeCache_grown e m₁
    rw [h2] at h3
    have h5 := preGenerate_grown e { m₂ with caches := put m₂.caches e c }
    rw [h4] at h5
    have h6 : Grown m₂ { m₂ with caches := put m₂.caches e c } := grown_same rfl rfl
    exact (((grown_same (evictOne_heap h1).1 (evictOne_heap h1).2.1).trans h3).trans h6).trans h5
  | use c => exact h.elim
  | unlock c => exact h.elim

theorem take_part {k : Int} {e : U64} {order : List (U64 × Nat)} {m₀ m₁ m₂ : Mgr} {c : Nat} (i : Nat) (o : Once) (hi : i < m₀.fresh)
    (h1 : evictOne k order m₀ = .ok m₁) (h2 : takeCache e m₁ = (m₂, c)) : takeCache e (m₁.setOnce i o) = (m₂.setOnce i o, c) := by
  rw [takeCache_setOnce m₁ e i o (by rw [(evictOne_heap h1).2.1]; exact hi), h2]

/-- others may change the `sync.Once` of a cache that existed before -/
theorem pre_setOnce {k : Int} {e : U64} {m₀ m : Mgr} {p : Phase} (h : Pre k e m₀ m p) (i : Nat) (o : Once) (hi : i < m₀.fresh) :
    Pre k e (m₀.setOnce i o) (m.setOnce i o) p := by
  cases p with
  | look => rw [Pre] at h ⊢; rw [h]
  | evict rest best =>
    obtain ⟨h1, h2, h3, seen, h4, h5⟩ := h
    exact ⟨by rw [h1], h2, h3, seen, h4, by rw [evictStep_setOnce]; exact h5⟩
  | take =>
    obtain ⟨h0, order, hp, h1⟩ := h
    exact ⟨h0, order, hp, evictOne_setOnce i o h1⟩
  | store c =>
    obtain ⟨h0, order, m₁, hp, h1, h2⟩ := h
    exact ⟨h0, order, m₁.setOnce i o, hp, evictOne_setOnce i o h1, take_part i o hi h1 h2⟩
  | ahead c =>
    obtain ⟨h0, order, m₁, m₂, hp, h1, h2, h3⟩ := h
    exact ⟨h0, order, m₁.setOnce i o, m₂.setOnce i o, hp, evictOne_setOnce i o h1, take_part i o hi h1 h2, by subst h3; rfl⟩
  | spawn c f =>
    obtain ⟨h0, order, hp, hr⟩ := h
    refine ⟨h0, order, hp, ?_⟩
    obtain ⟨m₁, m₂, h1, h2, h3⟩ := register_parts.1 hr
    refine register_parts.2 ⟨m₁.setOnce i o, m₂.setOnce i o, evictOne_setOnce i o h1, take_part i o hi h1 h2, ?_⟩
    have hg := takeCache_grown e m₁
    rw [h2] at hg
    have hf := hg.fresh
    rw [(evictOne_heap h1).2.1] at hf
    have := preGenerate_setOnce { m₂ with caches := put m₂.caches e c } e i o (Nat.lt_of_lt_of_le hi hf)
    rw [h3] at this
    exact this
  | use c => exact h.elim
  | unlock c => exact h.elim

/-! ## Executions -/

variable {k : Int} {Body : U64 → Go Loaded → Prop}

/-- what the state corresponds to when one section is one step. Before `dag.go:155` the section has not happened; after it, it has happened
with the time that `time.Now` will give. -/
def Sim (k : Int) (Body : U64 → Go Loaded → Prop) (s : State) : Prop :=
  match s.holder with
  | none => Manager.Reach k Body s.base
  | some h => s.base.threads[h.thread]? = some (.locking h.epoch) ∧ s.base.stuck = false ∧
    match h.phase with
    | .use c => ∀ now, s.base.clock ≤ now → Manager.Reach k Body { s.base with
        mgr := s.base.mgr.use c now, clock := now, hist := (h.epoch, now) :: s.base.hist,
        threads := s.base.threads.set h.thread (.waiting (some h.epoch) c) }
    | .unlock c => Manager.Reach k Body { s.base with threads := s.base.threads.set h.thread (.waiting (some h.epoch) c) }
    | p => ∃ m₀ : Mgr, Pre k h.epoch m₀ s.base.mgr p ∧ Manager.Reach k Body { s.base with mgr := m₀ }

/-- the three cases of a held mutex -/
theorem sim_cases {s : State} {h : Holder} (hh : s.holder = some h) (hs : Sim k Body s) :
    s.base.threads[h.thread]? = some (.locking h.epoch) ∧ s.base.stuck = false ∧
    ((∃ c, h.phase = .use c ∧ ∀ now, s.base.clock ≤ now → Manager.Reach k Body { s.base with
        mgr := s.base.mgr.use c now, clock := now, hist := (h.epoch, now) :: s.base.hist,
        threads := s.base.threads.set h.thread (.waiting (some h.epoch) c) }) ∨
     (∃ c, h.phase = .unlock c ∧
        Manager.Reach k Body { s.base with threads := s.base.threads.set h.thread (.waiting (some h.epoch) c) }) ∨
     ∃ m₀ : Mgr, Pre k h.epoch m₀ s.base.mgr h.phase ∧ Manager.Reach k Body { s.base with mgr := m₀ }) := by
  unfold Sim at hs
  rw [hh] at hs
  obtain ⟨h1, h2, h3⟩ := hs
  refine ⟨h1, h2, ?_⟩
  cases hp : h.phase <;> rw [hp] at h3
  case use c => exact Or.inl ⟨c, rfl, h3⟩
  case unlock c => exact Or.inr (Or.inl ⟨c, rfl, h3⟩)
  all_goals exact Or.inr (Or.inr h3)

/-- the way back, before the section has happened -/
theorem sim_pre {s : State} {h : Holder} (hh : s.holder = some h) (ht : s.base.threads[h.thread]? = some (.locking h.epoch))
    (hst : s.base.stuck = false) {m₀ : Mgr} (hp : Pre k h.epoch m₀ s.base.mgr h.phase)
    (hr : Manager.Reach k Body { s.base with mgr := m₀ }) : Sim k Body s := by
  unfold Sim
  rw [hh]
  refine ⟨ht, hst, ?_⟩
  cases hq : h.phase <;> rw [hq] at hp
  case use c => exact hp.elim
  case unlock c => exact hp.elim
  all_goals exact ⟨m₀, hp, hr⟩

theorem sim_use {s : State} {h : Holder} {c : Nat} (hh : s.holder = some h) (ht : s.base.threads[h.thread]? = some (.locking h.epoch))
    (hst : s.base.stuck = false) (hp : h.phase = .use c) (hr : ∀ now, s.base.clock ≤ now → Manager.Reach k Body { s.base with
        mgr := s.base.mgr.use c now, clock := now, hist := (h.epoch, now) :: s.base.hist,
        threads := s.base.threads.set h.thread (.waiting (some h.epoch) c) }) : Sim k Body s := by
  unfold Sim
  rw [hh]
  refine ⟨ht, hst, ?_⟩
  rw [hp]
  exact hr

theorem sim_unlock {s : State} {h : Holder} {c : Nat} (hh : s.holder = some h) (ht : s.base.threads[h.thread]? = some (.locking h.epoch))
    (hst : s.base.stuck = false) (hp : h.phase = .unlock c)
    (hr : Manager.Reach k Body { s.base with threads := s.base.threads.set h.thread (.waiting (some h.epoch) c) }) : Sim k Body s := by
  unfold Sim
  rw [hh]
  refine ⟨ht, hst, ?_⟩
  rw [hp]
  exact hr

/-- a step of another goroutine: `f` changes the base state, and it is a step of the atomic system whatever the section did -/
theorem sim_other {s : State} (hs : Sim k Body s) (T : Manager.State → Manager.State)
    (hf : ∀ b, (T b).clock = b.clock ∧ (T b).hist = b.hist ∧ (T b).stuck = b.stuck)
    (hkeep : ∀ (t : Nat) (e : U64), s.base.threads[t]? = some (.locking e) → (T s.base).threads[t]? = some (.locking e))
    (hpre : ∀ (m₀ : Mgr), Grown m₀ s.base.mgr → Manager.Reach k Body { s.base with mgr := m₀ } →
      ∃ m₁ : Mgr, (∀ (e : U64) (p : Phase), Pre k e m₀ s.base.mgr p → Pre k e m₁ (T s.base).mgr p) ∧
        Manager.Reach k Body { T s.base with mgr := m₁ })
    (huse : ∀ (t : Nat) (e : U64) (c now : Nat), s.base.threads[t]? = some (.locking e) →
      Manager.Reach k Body { s.base with
        mgr := s.base.mgr.use c now, clock := now, hist := (e, now) :: s.base.hist, threads := s.base.threads.set t (.waiting (some e) c) } →
      Manager.Reach k Body { T s.base with
        mgr := (T s.base).mgr.use c now, clock := now, hist := (e, now) :: s.base.hist,
        threads := (T s.base).threads.set t (.waiting (some e) c) })
    (hun : ∀ (t : Nat) (e : U64) (c : Nat), s.base.threads[t]? = some (.locking e) →
      Manager.Reach k Body { s.base with threads := s.base.threads.set t (.waiting (some e) c) } →
      Manager.Reach k Body { T s.base with threads := (T s.base).threads.set t (.waiting (some e) c) })
    (hno : Manager.Reach k Body s.base → Manager.Reach k Body (T s.base)) : Sim k Body { s with base := T s.base } := by
  cases hh : s.holder with
  | none =>
    unfold Sim at hs
    rw [hh] at hs
    exact hno hs
  | some h =>
    obtain ⟨h1, h2, h3⟩ := sim_cases hh hs
    have e1 := hkeep _ _ h1
    have e2 : (T s.base).stuck = false := by rw [(hf s.base).2.2]; exact h2
    rcases h3 with ⟨c, hp, hr⟩ | ⟨c, hp, hr⟩ | ⟨m₀, hp, hr⟩
    · refine sim_use (h := h) rfl e1 e2 hp fun now hn => ?_
      have := huse _ _ c now h1 (hr now (by have := (hf s.base).1; simp only [this] at hn; exact hn))
      rwa [← (hf s.base).2.1] at this
    · exact sim_unlock (h := h) rfl e1 e2 hp (hun _ _ c h1 hr)
    · obtain ⟨m₁, h4, h5⟩ := hpre m₀ (pre_grown hp) hr
      exact sim_pre (m₀ := m₁) (h := h) rfl e1 e2 (h4 _ _ hp) h5

theorem locking_ne {l : List Thread} {t t' : Nat} {e : U64} {x : Thread} (h : l[t]? = some (.locking e)) (h' : l[t']? = some x)
    (hx : ∀ e, x ≠ .locking e) : t' ≠ t := by
  rintro rfl
  rw [h] at h'
  exact hx e (Option.some.inj h').symm

/-- a step of a goroutine that has not to do with the mutex and changes a `sync.Once` -/
theorem sim_once {s : State} (hs : Sim k Body s) (t' i : Nat) (x y : Thread) (o : Once) (st : List Nat) (cr : Bool)
    (hx : s.base.threads[t']? = some x) (hxl : ∀ e, x ≠ .locking e) (hxi : ∃ r, x.ref = some (r, i))
    (hstep : ∀ b : Manager.State, b.threads[t']? = some x → b.crashed = s.base.crashed → b.started = s.base.started →
      (b.mgr.heap i).once = (s.base.mgr.heap i).once → (b.mgr.heap i).epoch = (s.base.mgr.heap i).epoch →
      Manager.Step k Body b { b with mgr := b.mgr.setOnce i o, threads := b.threads.set t' y, started := st, crashed := cr }) :
    Sim k Body { s with base := { s.base with
      mgr := s.base.mgr.setOnce i o, threads := s.base.threads.set t' y, started := st, crashed := cr } } := by
  refine sim_other hs
    (fun b => { b with mgr := b.mgr.setOnce i o, threads := b.threads.set t' y, started := st, crashed := cr })
    (fun b => ⟨rfl, rfl, rfl⟩) ?_ ?_ ?_ ?_ ?_
  · intro t e h
    exact Manager.keep_set h (Ne.symm (locking_ne h hx hxl))
  · intro m₀ hg hr
    obtain ⟨r, hxr⟩ := hxi
    have hi : i < m₀.fresh := ((Manager.inv_reach hr).refs t' x r i hx hxr).1
    refine ⟨m₀.setOnce i o, fun e p hp => pre_setOnce hp i o hi, ?_⟩
    exact Manager.Reach.step hr (hstep { s.base with mgr := m₀ } hx rfl rfl (hg.once i hi).symm (hg.epoch i hi).symm)
  · intro t e c now h hr
    have hne := locking_ne h hx hxl
    have := Manager.Reach.step hr (hstep _ (Manager.keep_set hx hne) rfl rfl ?_ ?_)
    · simp only at this ⊢
      rw [use_setOnce, List.set_comm _ _ (Ne.symm hne).symm]
      exact this
    · show ((s.base.mgr.use c now).heap i).once = _
      simp only [Mgr.use]
      by_cases hc : i = c
      · subst hc; rw [Function.update_self]
      · rw [Function.update_of_ne hc]
    · show ((s.base.mgr.use c now).heap i).epoch = _
      simp only [Mgr.use]
      by_cases hc : i = c
      · subst hc; rw [Function.update_self]
      · rw [Function.update_of_ne hc]
  · intro t e c h hr
    have hne := locking_ne h hx hxl
    have := Manager.Reach.step hr (hstep _ (Manager.keep_set hx hne) rfl rfl rfl rfl)
    simp only at this ⊢
    rw [List.set_comm _ _ hne]
    exact this
  · intro hr
    exact Manager.Reach.step hr (hstep _ hx rfl rfl rfl rfl)

theorem setOnce_self (m : Mgr) (i : Nat) : m.setOnce i (m.heap i).once = m := by
  simp only [Mgr.setOnce]
  rw [show ({ m.heap i with once := (m.heap i).once } : Manager.Cache) = m.heap i from rfl, Function.update_eq_self]

/-- the section ends: it is one step of the atomic system -/
theorem lock_step {b : Manager.State} {h : Holder} {order : List (U64 × Nat)} {m : Mgr} {c : Nat} {sp : Option Nat} {m₀ : Mgr}
    (hc : b.crashed = false) (hst : b.stuck = false) (ht : b.threads[h.thread]? = some (.locking h.epoch)) (ho : order.Perm m₀.caches)
    (hl : ∀ now, Manager.locked k order now h.epoch m₀ = .ok (m.use c now, c, sp)) (hr : Manager.Reach k Body { b with mgr := m₀ })
    (now : Nat) (hn : b.clock ≤ now) : Manager.Reach k Body { b with
      mgr := m.use c now, clock := now, hist := (h.epoch, now) :: b.hist,
      threads := (b.threads ++ (sp.map fun f => Thread.waiting none f).toList).set h.thread (.waiting (some h.epoch) c) } := by
  have := Manager.Reach.step hr (Manager.Step.lock (k := k) (Body := Body) { b with mgr := m₀ } h.thread h.epoch order now _ c sp hc hst ht ho hn (hl now))
  obtain ⟨hlt, _⟩ := List.getElem?_eq_some_iff.mp ht
  rw [List.set_append_left _ _ hlt]
  exact this

theorem locked_hit {order : List (U64 × Nat)} {m : Mgr} {e : U64} {c : Nat} (h : Manager.get m.caches e = some c) (now : Nat) :
    Manager.locked k order now e m = .ok (m.use c now, c, none) := by
  unfold Manager.locked
  rw [h]
  rfl

theorem locked_miss {order : List (U64 × Nat)} {m m' : Mgr} {e : U64} {c : Nat} {sp : Option Nat} (h : Manager.get m.caches e = none)
    (hr : register k order e m = .ok (m', c, sp)) (now : Nat) : Manager.locked k order now e m = .ok (m'.use c now, c, sp) := by
  unfold Manager.locked
  rw [h]
  simp only [hr]
  rfl

theorem sim_step {s s' : State} (hs : Sim k Body s) (h : Step k Body s s') : Sim k Body s' := by
  cases h with
  | call e hc =>
    refine sim_other hs (fun b => { b with threads := b.threads ++ [.locking e] }) (fun b => ⟨rfl, rfl, rfl⟩) ?_ ?_ ?_ ?_ ?_
    · intro t e' h
      obtain ⟨hlt, _⟩ := List.getElem?_eq_some_iff.mp h
      show (s.base.threads ++ [Thread.locking e])[t]? = _
      rw [List.getElem?_append_left hlt]; exact h
    · intro m₀ _ hr
      exact ⟨m₀, fun _ _ h => h, Manager.Reach.step hr (.call { s.base with mgr := m₀ } e hc)⟩
    · intro t e' c now h hr
      obtain ⟨hlt, _⟩ := List.getElem?_eq_some_iff.mp h
      have := Manager.Reach.step hr (.call _ e hc)
      simp only at this ⊢
      rw [List.set_append_left _ _ hlt]
      exact this
    · intro t e' c h hr
      obtain ⟨hlt, _⟩ := List.getElem?_eq_some_iff.mp h
      have := Manager.Reach.step hr (.call _ e hc)
      simp only at this ⊢
      rw [List.set_append_left _ _ hlt]
      exact this
    · intro hr
      exact Manager.Reach.step hr (.call _ e hc)
  | lock t e hc hst hh ht =>
    have hr : Manager.Reach k Body s.base := by unfold Sim at hs; rw [hh] at hs; exact hs
    exact sim_pre (m₀ := s.base.mgr) (h := ⟨t, e, .look⟩) rfl ht hst rfl hr
  | hit h c hc hh hp hg =>
    obtain ⟨h1, h2, h3⟩ := sim_cases hh hs
    rcases h3 with ⟨_, hq, _⟩ | ⟨_, hq, _⟩ | ⟨m₀, hq, hr⟩
    · rw [hp] at hq; cases hq
    · rw [hp] at hq; cases hq
    rw [hp, Pre] at hq
    refine sim_use (h := { h with phase := .use c }) rfl h1 h2 rfl fun now hn => ?_
    have := lock_step (k := k) (Body := Body) hc h2 h1 (List.Perm.refl m₀.caches) (locked_hit (k := k) (by rw [← hq]; exact hg)) hr now hn
    simp only [Option.map_none, Option.toList_none, List.append_nil] at this
    rw [← hq] at this
    exact this
  | room h hc hh hp hg hk =>
    obtain ⟨h1, h2, h3⟩ := sim_cases hh hs
    rcases h3 with ⟨_, hq, _⟩ | ⟨_, hq, _⟩ | ⟨m₀, hq, hr⟩
    · rw [hp] at hq; cases hq
    · rw [hp] at hq; cases hq
    rw [hp, Pre] at hq
    refine sim_pre (m₀ := m₀) (h := { h with phase := .take }) rfl h1 h2 ?_ hr
    rw [hq] at hg hk
    refine ⟨hg, m₀.caches, List.Perm.refl _, ?_⟩
    show evictOne k m₀.caches m₀ = .ok s.base.mgr
    rw [hq, evictOne, if_neg hk]
    rfl
  | full h order hc hh hp hg hk ho =>
    obtain ⟨h1, h2, h3⟩ := sim_cases hh hs
    rcases h3 with ⟨_, hq, _⟩ | ⟨_, hq, _⟩ | ⟨m₀, hq, hr⟩
    · rw [hp] at hq; cases hq
    · rw [hp] at hq; cases hq
    rw [hp, Pre] at hq
    refine sim_pre (m₀ := m₀) (h := { h with phase := .evict order none }) rfl h1 h2 ?_ hr
    rw [hq] at hg hk ho
    exact ⟨hq, hg, hk, [], ho, rfl⟩
  | scan h x rest best hc hh hp =>
    obtain ⟨h1, h2, h3⟩ := sim_cases hh hs
    rcases h3 with ⟨_, hq, _⟩ | ⟨_, hq, _⟩ | ⟨m₀, hq, hr⟩
    · rw [hp] at hq; cases hq
    · rw [hp] at hq; cases hq
    rw [hp, Pre] at hq
    obtain ⟨hm, hg, hk, seen, ho, hb⟩ := hq
    refine sim_pre (m₀ := m₀) (h := { h with phase := .evict rest (evictStep s.base.mgr.heap best x) }) rfl h1 h2 ?_ hr
    refine ⟨hm, hg, hk, seen ++ [x], by simpa using ho, ?_⟩
    rw [List.foldl_append, ← hb, hm]
    rfl
  | drop h v hc hh hp =>
    obtain ⟨h1, h2, h3⟩ := sim_cases hh hs
    rcases h3 with ⟨_, hq, _⟩ | ⟨_, hq, _⟩ | ⟨m₀, hq, hr⟩
    · rw [hp] at hq; cases hq
    · rw [hp] at hq; cases hq
    rw [hp, Pre] at hq
    obtain ⟨hm, hg, hk, seen, ho, hb⟩ := hq
    refine sim_pre (m₀ := m₀) (h := { h with phase := .take }) rfl h1 h2 ?_ hr
    refine ⟨hg, seen, by simpa using ho, ?_⟩
    show evictOne k seen m₀ = .ok { s.base.mgr with caches := delete s.base.mgr.caches (s.base.mgr.heap v).epoch }
    rw [evictOne, if_pos hk, ← hb, hm]
    rfl
  | nilEvict h hc hh hp =>
    obtain ⟨h1, h2, h3⟩ := sim_cases hh hs
    rcases h3 with ⟨_, hq, _⟩ | ⟨_, hq, _⟩ | ⟨m₀, hq, hr⟩
    · rw [hp] at hq; cases hq
    · rw [hp] at hq; cases hq
    rw [hp, Pre] at hq
    obtain ⟨hm, hg, hk, seen, ho, hb⟩ := hq
    unfold Sim
    show Manager.Reach k Body _
    have hl : Manager.locked k seen s.base.clock h.epoch m₀ = .error (.panic .nilDeref) := by
      unfold Manager.locked
      rw [hg]
      simp only [register]
      rw [evictOne, if_pos hk, ← hb]
      rfl
    have := Manager.Reach.step hr (Manager.Step.lockPanic { s.base with mgr := m₀ } h.thread h.epoch seen s.base.clock _ hc h2 h1
      (by simpa using ho) (Nat.le_refl _) hl)
    rw [← hm] at this
    exact this
  | take h hc hh hp =>
    obtain ⟨h1, h2, h3⟩ := sim_cases hh hs
    rcases h3 with ⟨_, hq, _⟩ | ⟨_, hq, _⟩ | ⟨m₀, hq, hr⟩
    · rw [hp] at hq; cases hq
    · rw [hp] at hq; cases hq
    rw [hp, Pre] at hq
    obtain ⟨hg, order, ho, hv⟩ := hq
    exact sim_pre (m₀ := m₀) (h := { h with phase := .store _ }) rfl h1 h2 ⟨hg, order, _, ho, hv, rfl⟩ hr
  | store h c hc hh hp =>
    obtain ⟨h1, h2, h3⟩ := sim_cases hh hs
    rcases h3 with ⟨_, hq, _⟩ | ⟨_, hq, _⟩ | ⟨m₀, hq, hr⟩
    · rw [hp] at hq; cases hq
    · rw [hp] at hq; cases hq
    rw [hp, Pre] at hq
    obtain ⟨hg, order, m₁, ho, hv, ht⟩ := hq
    exact sim_pre (m₀ := m₀) (h := { h with phase := .ahead c }) rfl h1 h2 ⟨hg, order, m₁, _, ho, hv, ht, rfl⟩ hr
  | keep h c m hc hh hp hg =>
    obtain ⟨h1, h2, h3⟩ := sim_cases hh hs
    rcases h3 with ⟨_, hq, _⟩ | ⟨_, hq, _⟩ | ⟨m₀, hq, hr⟩
    · rw [hp] at hq; cases hq
    · rw [hp] at hq; cases hq
    rw [hp, Pre] at hq
    obtain ⟨hg0, order, m₁, m₂, ho, hv, ht, hm⟩ := hq
    rw [hm] at hg
    refine sim_use (h := { h with phase := .use c }) rfl h1 h2 rfl fun now hn => ?_
    have := lock_step (k := k) (Body := Body) hc h2 h1 ho (locked_miss hg0 (register_parts.2 ⟨m₁, m₂, hv, ht, hg⟩)) hr now hn
    simp only [Option.map_none, Option.toList_none, List.append_nil] at this
    exact this
  | next h c f m hc hh hp hg =>
    obtain ⟨h1, h2, h3⟩ := sim_cases hh hs
    rcases h3 with ⟨_, hq, _⟩ | ⟨_, hq, _⟩ | ⟨m₀, hq, hr⟩
    · rw [hp] at hq; cases hq
    · rw [hp] at hq; cases hq
    rw [hp, Pre] at hq
    obtain ⟨hg0, order, m₁, m₂, ho, hv, ht, hm⟩ := hq
    rw [hm] at hg
    exact sim_pre (m₀ := m₀) (h := { h with phase := .spawn c f }) rfl h1 h2 ⟨hg0, order, ho, register_parts.2 ⟨m₁, m₂, hv, ht, hg⟩⟩ hr
  | spawn h c f hc hh hp =>
    obtain ⟨h1, h2, h3⟩ := sim_cases hh hs
    rcases h3 with ⟨_, hq, _⟩ | ⟨_, hq, _⟩ | ⟨m₀, hq, hr⟩
    · rw [hp] at hq; cases hq
    · rw [hp] at hq; cases hq
    rw [hp, Pre] at hq
    obtain ⟨hg0, order, ho, hreg⟩ := hq
    refine sim_use (h := { h with phase := .use c }) rfl ?_ h2 rfl fun now hn => ?_
    · obtain ⟨hlt, _⟩ := List.getElem?_eq_some_iff.mp h1
      show (s.base.threads ++ [Thread.waiting none f])[h.thread]? = _
      rw [List.getElem?_append_left hlt]; exact h1
    · exact lock_step (k := k) (Body := Body) hc h2 h1 ho (locked_miss hg0 hreg) hr now hn
  | use h c now hc hh hp hn =>
    obtain ⟨h1, h2, h3⟩ := sim_cases hh hs
    rcases h3 with ⟨c', hq, hr⟩ | ⟨_, hq, _⟩ | ⟨m₀, hq, hr⟩
    · rw [hp] at hq
      injection hq with hq
      subst hq
      exact sim_unlock (h := { h with phase := .unlock c }) rfl h1 h2 rfl (hr now hn)
    · rw [hp] at hq; cases hq
    · rw [hp] at hq; exact hq.elim
  | unlock h c hc hh hp =>
    obtain ⟨h1, h2, h3⟩ := sim_cases hh hs
    rcases h3 with ⟨c', hq, hr⟩ | ⟨c', hq, hr⟩ | ⟨m₀, hq, hr⟩
    · rw [hp] at hq; cases hq
    · rw [hp] at hq
      injection hq with hq
      subst hq
      exact hr
    · rw [hp] at hq; exact hq.elim
  | start t role i hc ht ho =>
    refine sim_once hs t i (.waiting role i) (.filling role i) .running (i :: s.base.started) s.base.crashed ht (by simp)
      ⟨role, rfl⟩ fun b hb1 hb2 hb3 hb4 hb5 => ?_
    rw [← hb2, ← hb3]
    exact .start b t role i (by rw [hb2]; exact hc) hb1 (by rw [hb4]; exact ho)
  | finish t role i r hc ht hb =>
    refine sim_once hs t i (.filling role i) (.ended role i) (.done (some r)) s.base.started s.base.crashed ht (by simp)
      ⟨role, rfl⟩ fun b hb1 hb2 hb3 hb4 hb5 => ?_
    rw [← hb2, ← hb3]
    exact .finish b t role i r (by rw [hb2]; exact hc) hb1 (by rw [hb5]; exact hb)
  | finishPanic t role i p hc ht hb =>
    refine sim_once hs t i (.filling role i) (.panicked role) (.done none) s.base.started role.isNone ht (by simp)
      ⟨role, rfl⟩ fun b hb1 hb2 hb3 hb4 hb5 => ?_
    rw [← hb3]
    exact .finishPanic b t role i p (by rw [hb2]; exact hc) hb1 (by rw [hb5]; exact hb)
  | skip t role i r hc ht ho =>
    have := sim_once hs t i (.waiting role i) (.ended role i) (s.base.mgr.heap i).once s.base.started s.base.crashed ht (by simp)
      ⟨role, rfl⟩ fun b hb1 hb2 hb3 hb4 hb5 => ?_
    · rw [setOnce_self] at this
      exact this
    · rw [← hb2, ← hb3, ← hb4, setOnce_self]
      exact .skip b t role i r (by rw [hb2]; exact hc) hb1 (by rw [hb4]; exact ho)

theorem sim_reach {s : State} (h : Reach k Body s) : Sim k Body s := by
  induction h with
  | init => exact Manager.Reach.init
  | step _ hs ih => exact sim_step ih hs

end Verif.Mutex
