import Verif.Model.Manager
import Verif.Spec.Lru
import Verif.Proof.Disk
import Mathlib.Data.List.Perm.Basic
import Mathlib.Data.List.Nodup
import Mathlib.Logic.Function.Basic

/-! # Lemmas about the cache manager -/

set_option autoImplicit false

namespace Verif.Manager

open Go Dag

/-- the map is a map, its entries are registered under their epochs, and pointers are allocated -/
structure WF (m : Mgr) : Prop where
  keys : (m.caches.map Prod.fst).Nodup
  entry : ∀ x ∈ m.caches, x.2 < m.fresh ∧ (m.heap x.2).epoch = x.1
  future : ∀ f, m.future = some f → f < m.fresh

theorem get_some {caches : List (U64 × Nat)} {e : U64} {i : Nat} (h : get caches e = some i) : (e, i) ∈ caches := by
  rw [get, Option.map_eq_some_iff] at h
  obtain ⟨x, hx, rfl⟩ := h
  have h1 := List.mem_of_find?_eq_some hx
  have h2 := List.find?_some hx
  simp only [beq_iff_eq] at h2
  rw [← h2]
  exact h1

theorem get_none {caches : List (U64 × Nat)} {e : U64} (h : get caches e = none) : ∀ x ∈ caches, x.1 ≠ e := by
  rw [get, Option.map_eq_none_iff, List.find?_eq_none] at h
  intro x hx hxe
  exact h x hx (by simp [hxe])

theorem delete_of_not_mem {caches : List (U64 × Nat)} {e : U64} (h : ∀ x ∈ caches, x.1 ≠ e) : delete caches e = caches := by
  rw [delete, List.filter_eq_self]
  intro x hx
  simp [h x hx]

/-- the fold finds an entry that was used first -/
theorem evict_fold (heap : Nat → Cache) : ∀ (order : List (U64 × Nat)) (s : Option Nat),
    (order.foldl (evictStep heap) s = none ↔ order = [] ∧ s = none) ∧
    ∀ v, order.foldl (evictStep heap) s = some v → (s = some v ∨ ∃ x ∈ order, x.2 = v) ∧
      (∀ u, s = some u → (heap v).used ≤ (heap u).used) ∧ ∀ y ∈ order, (heap v).used ≤ (heap y.2).used := by
  intro order
  induction order with
  | nil =>
    intro s
    refine ⟨by simp, ?_⟩
    intro v hv
    rw [List.foldl_nil] at hv
    subst hv
    exact ⟨Or.inl rfl, by simp, by simp⟩
  | cons a l ih =>
    intro s
    rw [List.foldl_cons]
    obtain ⟨h1, h2⟩ := ih (evictStep heap s a)
    have hne : evictStep heap s a ≠ none := by
      cases s with
      | none => simp [evictStep]
      | some u =>
        rw [evictStep]
        by_cases hu : (heap a.2).used < (heap u).used
        · rw [if_pos hu]; simp
        · rw [if_neg hu]; simp
    refine ⟨by rw [h1]; simp [hne], ?_⟩
    intro v hv
    obtain ⟨h3, h4, h5⟩ := h2 v hv
    cases s with
    | none =>
      have ha : (heap v).used ≤ (heap a.2).used := h4 a.2 rfl
      refine ⟨Or.inr ?_, by simp, ?_⟩
      · rcases h3 with h3 | ⟨x, hx, hxv⟩
        · exact ⟨a, by simp, Option.some.inj h3⟩
        · exact ⟨x, by simp [hx], hxv⟩
      · intro y hy
        rcases List.mem_cons.mp hy with rfl | hy
        · exact ha
        · exact h5 y hy
    | some u =>
      rw [evictStep] at h3 h4
      by_cases hu : (heap a.2).used < (heap u).used
      · rw [if_pos hu] at h3 h4
        have ha := h4 a.2 rfl
        refine ⟨Or.inr ?_, ?_, ?_⟩
        · rcases h3 with h3 | ⟨x, hx, hxv⟩
          · exact ⟨a, by simp, Option.some.inj h3⟩
          · exact ⟨x, by simp [hx], hxv⟩
        · intro u' hu'
          injection hu' with hu'
          subst hu'
          omega
        · intro y hy
          rcases List.mem_cons.mp hy with rfl | hy
          · exact ha
          · exact h5 y hy
      · rw [if_neg hu] at h3 h4
        have ha := h4 u rfl
        refine ⟨?_, ?_, ?_⟩
        · rcases h3 with h3 | ⟨x, hx, hxv⟩
          · exact Or.inl h3
          · exact Or.inr ⟨x, by simp [hx], hxv⟩
        · intro u' hu'
          injection hu' with hu'
          subst hu'
          exact ha
        · intro y hy
          rcases List.mem_cons.mp hy with rfl | hy
          · omega
          · exact h5 y hy

/-- `m'` comes from `m` by allocations and the use of `c` -/
structure Grown (m m' : Mgr) : Prop where
  fresh : m.fresh ≤ m'.fresh
  epoch : ∀ i < m.fresh, (m'.heap i).epoch = (m.heap i).epoch
  once : ∀ i < m.fresh, (m'.heap i).once = (m.heap i).once
  idle : ∀ i, m.fresh ≤ i → i < m'.fresh → (m'.heap i).once = .idle

theorem Grown.refl (m : Mgr) : Grown m m := ⟨Nat.le_refl _, fun _ _ => rfl, fun _ _ => rfl, fun i h1 h2 => by omega⟩

theorem Grown.trans {m m' m'' : Mgr} (h : Grown m m') (h' : Grown m' m'') : Grown m m'' := by
  have := h.fresh
  have := h'.fresh
  refine ⟨by omega, fun i hi => ?_, fun i hi => ?_, fun i h1 h2 => ?_⟩
  · rw [h'.epoch i (by omega), h.epoch i hi]
  · rw [h'.once i (by omega), h.once i hi]
  · by_cases h3 : i < m'.fresh
    · rw [h'.once i h3, h.idle i h1 h3]
    · exact h'.idle i (by omega) h2

theorem alloc_grown (m : Mgr) (e : U64) : Grown m (m.alloc e).1 := by
  refine ⟨Nat.le_succ _, fun i hi => ?_, fun i hi => ?_, fun i h1 h2 => ?_⟩
  · simp only [Mgr.alloc]; rw [Function.update_of_ne (by omega)]
  · simp only [Mgr.alloc]; rw [Function.update_of_ne (by omega)]
  · have : i = m.fresh := by simp only [Mgr.alloc] at h2; omega
    subst this
    simp only [Mgr.alloc, Function.update_self]

theorem alloc_used (m : Mgr) (e : U64) (i : Nat) (hi : i < m.fresh) : ((m.alloc e).1.heap i).used = (m.heap i).used := by
  simp only [Mgr.alloc]; rw [Function.update_of_ne (by omega)]

theorem alloc_new (m : Mgr) (e : U64) (i : Nat) (h1 : m.fresh ≤ i) (h2 : i < (m.alloc e).1.fresh) : ((m.alloc e).1.heap i).epoch = e := by
  have : i = m.fresh := by simp only [Mgr.alloc] at h2; omega
  subst this
  simp only [Mgr.alloc, Function.update_self]

theorem alloc_at (m : Mgr) (e : U64) : ((m.alloc e).1.heap (m.alloc e).2).epoch = e := by
  simp only [Mgr.alloc, Function.update_self]

/-- what the section under the mutex does -/
structure After (k : Int) (m : Mgr) (e : U64) (now : Nat) (m' : Mgr) (c : Nat) (spawn : Option Nat) : Prop where
  wf : WF m'
  grown : Grown m m'
  cur : c < m'.fresh
  epoch : (m'.heap c).epoch = e
  used : (m'.heap c).used = now
  others : ∀ i < m.fresh, i ≠ c → (m'.heap i).used = (m.heap i).used
  spawned : ∀ f, spawn = some f → f < m'.fresh ∧ m.fresh ≤ f ∧ (m'.heap f).epoch = e + 1 ∧ m'.future = some f
  new_epoch : ∀ i, m.fresh ≤ i → i < m'.fresh → (m'.heap i).epoch = e ∨ (m'.heap i).epoch = e + 1
  future : (spawn = none ∧ m'.future = m.future ∧ ((e, c) ∈ m.caches ∨ ∃ f, m.future = some f ∧ e < (m.heap f).epoch)) ∨
    ∃ f, spawn = some f ∧ m'.future = some f
  caches : ((e, c) ∈ m.caches ∧ m'.caches = m.caches ∧ spawn = none) ∨
    ((∀ x ∈ m.caches, x.1 ≠ e) ∧ (∀ x ∈ m.caches, x.2 ≠ c) ∧ (m.caches.length < k ∧ m'.caches = (e, c) :: m.caches ∨
      k ≤ m.caches.length ∧ ∃ v ∈ m.caches, (∀ y ∈ m.caches, (m.heap v.2).used ≤ (m.heap y.2).used) ∧
        m'.caches = (e, c) :: m.caches.filter fun x => x.1 != v.1))

theorem evictOne_ok {k : Int} {order : List (U64 × Nat)} {m m' : Mgr} (hwf : WF m) (ho : order.Perm m.caches)
    (h : evictOne k order m = .ok m') :
    (m.caches.length < k ∧ m' = m) ∨
    (k ≤ m.caches.length ∧ ∃ v ∈ m.caches, (∀ y ∈ m.caches, (m.heap v.2).used ≤ (m.heap y.2).used) ∧
      m' = { m with caches := m.caches.filter fun x => x.1 != v.1 }) := by
  rw [evictOne] at h
  by_cases hk : k ≤ m.caches.length
  · rw [if_pos hk] at h
    obtain ⟨h1, h2⟩ := evict_fold m.heap order none
    cases hf : order.foldl (evictStep m.heap) none with
    | none => rw [hf] at h; cases h
    | some v =>
      rw [hf] at h
      injection h with h
      obtain ⟨h3, _, h4⟩ := h2 v hf
      rcases h3 with h3 | ⟨x, hx, rfl⟩
      · cases h3
      · have hx' := ho.mem_iff.mp hx
        refine Or.inr ⟨hk, x, hx', fun y hy => h4 y (ho.mem_iff.mpr hy), ?_⟩
        rw [← h, (hwf.entry x hx').2]
        rfl
  · rw [if_neg hk] at h
    injection h with h
    exact Or.inl ⟨by omega, h.symm⟩

theorem evictOne_exists {k : Int} {order : List (U64 × Nat)} {m : Mgr} (hk : 1 ≤ k) (ho : order.Perm m.caches) :
    ∃ m', evictOne k order m = .ok m' := by
  rw [evictOne]
  by_cases hl : k ≤ m.caches.length
  · rw [if_pos hl]
    obtain ⟨h1, _⟩ := evict_fold m.heap order none
    cases hf : order.foldl (evictStep m.heap) none with
    | none =>
      have := (h1.mp hf).1
      subst this
      have := ho.length_eq
      simp only [List.length_nil] at this
      omega
    | some v => exact ⟨_, rfl⟩
  · rw [if_neg hl]
    exact ⟨m, rfl⟩

theorem evictOne_panics {k : Int} {order : List (U64 × Nat)} {m : Mgr} (hk : k ≤ 0) (ho : order.Perm m.caches) (hm : m.caches = []) :
    evictOne k order m = .error (.panic .nilDeref) := by
  rw [hm] at ho
  have := List.perm_nil.mp ho
  subst this
  rw [evictOne, hm, if_pos (by simpa using hk)]
  rfl

/-- `takeCache` and what follows keep everything that was there -/
theorem takeCache_spec (e : U64) (m : Mgr) (hwf : WF m) : Grown m (takeCache e m).1 ∧ (takeCache e m).2 < (takeCache e m).1.fresh ∧
    ((takeCache e m).1.heap (takeCache e m).2).epoch = e ∧ (∀ i < m.fresh, ((takeCache e m).1.heap i).used = (m.heap i).used) ∧
    (takeCache e m).1.caches = m.caches ∧ (∀ f, (takeCache e m).1.future = some f → f < (takeCache e m).1.fresh) ∧
    ((takeCache e m).1.future = none ∨ (takeCache e m).1.future = m.future) ∧
    (∀ i, m.fresh ≤ i → i < (takeCache e m).1.fresh → ((takeCache e m).1.heap i).epoch = e) := by
  have hal : Grown m (m.alloc e).1 ∧ (m.alloc e).2 < (m.alloc e).1.fresh ∧
    ((m.alloc e).1.heap (m.alloc e).2).epoch = e ∧ (∀ i < m.fresh, ((m.alloc e).1.heap i).used = (m.heap i).used) ∧
    (m.alloc e).1.caches = m.caches ∧ (∀ f, (m.alloc e).1.future = some f → f < (m.alloc e).1.fresh) ∧
    ((m.alloc e).1.future = none ∨ (m.alloc e).1.future = m.future) ∧
    (∀ i, m.fresh ≤ i → i < (m.alloc e).1.fresh → ((m.alloc e).1.heap i).epoch = e) :=
    ⟨alloc_grown m e, Nat.lt_succ_self _, alloc_at m e, alloc_used m e, rfl, fun f hf => Nat.lt_succ_of_lt (hwf.future f hf), Or.inr rfl,
      alloc_new m e⟩
  rw [takeCache]
  cases hf : m.future with
  | none => rw [hf] at hal; exact hal
  | some f =>
    simp only
    by_cases he : (m.heap f).epoch = e
    · rw [if_pos he]
      exact ⟨⟨Nat.le_refl _, fun _ _ => rfl, fun _ _ => rfl, fun i h1 h2 => absurd h2 (by show ¬ i < m.fresh; omega)⟩,
        hwf.future f hf, he, fun _ _ => rfl, rfl, by simp, Or.inl rfl, fun i h1 h2 => absurd h2 (by show ¬ i < m.fresh; omega)⟩
    · rw [if_neg he]
      rw [hf] at hal
      exact hal

theorem preGenerate_spec (e : U64) (m : Mgr) (hf : ∀ f, m.future = some f → f < m.fresh) : Grown m (preGenerate e m).1 ∧
    (∀ i < m.fresh, ((preGenerate e m).1.heap i).used = (m.heap i).used) ∧ (preGenerate e m).1.caches = m.caches ∧
    (∀ f, (preGenerate e m).1.future = some f → f < (preGenerate e m).1.fresh) ∧
    (∀ f, (preGenerate e m).2 = some f → f < (preGenerate e m).1.fresh ∧ m.fresh ≤ f ∧ ((preGenerate e m).1.heap f).epoch = e + 1 ∧
      (preGenerate e m).1.future = some f) ∧
    (((preGenerate e m).2 = none ∧ (preGenerate e m).1.future = m.future ∧ ∃ f, m.future = some f ∧ e < (m.heap f).epoch) ∨
      ∃ f, (preGenerate e m).2 = some f ∧ (preGenerate e m).1.future = some f) ∧
    (∀ i, m.fresh ≤ i → i < (preGenerate e m).1.fresh → ((preGenerate e m).1.heap i).epoch = e + 1) := by
  have hst : Grown m (startFuture e m).1 ∧
    (∀ i < m.fresh, ((startFuture e m).1.heap i).used = (m.heap i).used) ∧ (startFuture e m).1.caches = m.caches ∧
    (∀ f, (startFuture e m).1.future = some f → f < (startFuture e m).1.fresh) ∧
    (∀ f, (startFuture e m).2 = some f → f < (startFuture e m).1.fresh ∧ m.fresh ≤ f ∧ ((startFuture e m).1.heap f).epoch = e + 1 ∧
      (startFuture e m).1.future = some f) ∧
    (((startFuture e m).2 = none ∧ (startFuture e m).1.future = m.future ∧ ∃ f, m.future = some f ∧ e < (m.heap f).epoch) ∨
      ∃ f, (startFuture e m).2 = some f ∧ (startFuture e m).1.future = some f) ∧
    (∀ i, m.fresh ≤ i → i < (startFuture e m).1.fresh → ((startFuture e m).1.heap i).epoch = e + 1) := by
    refine ⟨?_, alloc_used m (e + 1), rfl, ?_, ?_, Or.inr ⟨_, rfl, rfl⟩, alloc_new m (e + 1)⟩
    · have := alloc_grown m (e + 1)
      exact ⟨this.fresh, this.epoch, this.once, this.idle⟩
    · intro f hf
      injection hf with hf
      subst hf
      exact Nat.lt_succ_self _
    · intro f hf
      injection hf with hf
      subst hf
      exact ⟨Nat.lt_succ_self _, Nat.le_refl _, alloc_at m (e + 1), rfl⟩
  rw [preGenerate]
  cases hfu : m.future with
  | none => rw [hfu] at hst; exact hst
  | some f =>
    simp only
    by_cases he : (m.heap f).epoch ≤ e
    · rw [if_pos he]
      rw [hfu] at hst
      exact hst
    · rw [if_neg he]
      exact ⟨Grown.refl m, fun _ _ => rfl, rfl, hf, by simp, Or.inl ⟨rfl, hfu, f, rfl, BitVec.not_le.mp he⟩,
        fun i h1 h2 => absurd h2 (by show ¬ i < m.fresh; omega)⟩

theorem use_grown (m : Mgr) (i now : Nat) : Grown m (m.use i now) := by
  refine ⟨Nat.le_refl _, fun j _ => ?_, fun j _ => ?_, fun j h1 h2 => absurd h2 (by show ¬ j < m.fresh; omega)⟩
  · simp only [Mgr.use]
    by_cases h : j = i
    · subst h; rw [Function.update_self]
    · rw [Function.update_of_ne h]
  · simp only [Mgr.use]
    by_cases h : j = i
    · subst h; rw [Function.update_self]
    · rw [Function.update_of_ne h]

theorem use_used (m : Mgr) (i now j : Nat) : ((m.use i now).heap j).used = if j = i then now else (m.heap j).used := by
  simp only [Mgr.use]
  by_cases h : j = i
  · subst h; rw [Function.update_self, if_pos rfl]
  · rw [Function.update_of_ne h, if_neg h]

theorem filter_keys_nodup {l : List (U64 × Nat)} (h : (l.map Prod.fst).Nodup) (p : U64 × Nat → Bool) :
    ((l.filter p).map Prod.fst).Nodup := by
  exact h.sublist (List.Sublist.map _ List.filter_sublist)

theorem locked_after {k : Int} {order : List (U64 × Nat)} {now : Nat} {e : U64} {m m' : Mgr} {c : Nat} {spawn : Option Nat} (hwf : WF m)
    (ho : order.Perm m.caches) (h : locked k order now e m = .ok (m', c, spawn)) : After k m e now m' c spawn := by
  rw [locked] at h
  cases hg : get m.caches e with
  | some i =>
    rw [hg] at h
    injection h with h
    injection h with h1 h
    injection h with h2 h3
    subst h1 h2 h3
    have hm := get_some hg
    obtain ⟨hi, hie⟩ := hwf.entry _ hm
    have hgr := use_grown m i now
    refine ⟨⟨hwf.keys, fun x hx => ⟨(hwf.entry x hx).1, ?_⟩, hwf.future⟩, hgr, hi, ?_, ?_, ?_, by simp,
      fun i h1 h2 => absurd h2 (by show ¬ i < m.fresh; omega), Or.inl ⟨rfl, rfl, Or.inl hm⟩, Or.inl ⟨hm, rfl, rfl⟩⟩
    · rw [hgr.epoch _ (hwf.entry x hx).1]; exact (hwf.entry x hx).2
    · rw [hgr.epoch _ hi]; exact hie
    · rw [use_used, if_pos rfl]
    · intro j _ hj; rw [use_used, if_neg hj]
  | none =>
    rw [hg] at h
    have hno := get_none hg
    simp only [register] at h
    cases hev : evictOne k order m with
    | error p => rw [hev] at h; cases h
    | ok m1 =>
      rw [hev, ok_bind] at h
      have hcase := evictOne_ok hwf ho hev
      have hm1 : m1.heap = m.heap ∧ m1.fresh = m.fresh ∧ m1.future = m.future ∧ (∀ x ∈ m1.caches, x ∈ m.caches) ∧
          (m1.caches.map Prod.fst).Nodup := by
        rcases hcase with ⟨_, rfl⟩ | ⟨_, v, _, _, rfl⟩
        · exact ⟨rfl, rfl, rfl, fun _ h => h, hwf.keys⟩
        · exact ⟨rfl, rfl, rfl, fun x hx => (List.mem_filter.mp hx).1, filter_keys_nodup hwf.keys _⟩
      obtain ⟨hheap, hfresh, hfut, hsub, hnd⟩ := hm1
      have hwf1 : WF m1 := ⟨hnd, fun x hx => by rw [hheap, hfresh]; exact hwf.entry x (hsub x hx), fun f hf => by
        rw [hfresh]; exact hwf.future f (hfut ▸ hf)⟩
      obtain ⟨t1, t2, t3, t4, t5, t6, t7, t8⟩ := takeCache_spec e m1 hwf1
      obtain ⟨M2, hM2⟩ : ∃ M, M = takeCache e m1 := ⟨_, rfl⟩
      rw [← hM2] at t1 t2 t3 t4 t5 t6 t7 t8
      have hne : ∀ x ∈ m.caches, x.2 ≠ M2.2 := by
        intro x hx hxc
        have h1 := hwf.entry x hx
        have h2 := t1.epoch x.2 (by rw [hfresh]; exact h1.1)
        rw [hxc, t3, hheap, ← hxc, h1.2] at h2
        exact hno x hx h2.symm
      obtain ⟨m3, hm3⟩ : ∃ M : Mgr, M = { M2.1 with caches := put M2.1.caches e M2.2 } := ⟨_, rfl⟩
      have hc3 : m3.caches = (e, M2.2) :: m1.caches := by
        rw [hm3]
        show put M2.1.caches e M2.2 = _
        rw [put, t5, delete_of_not_mem fun x hx => hno x (hsub x hx)]
      have hh3 : m3.heap = M2.1.heap ∧ m3.fresh = M2.1.fresh ∧ m3.future = M2.1.future := by rw [hm3]; exact ⟨rfl, rfl, rfl⟩
      obtain ⟨hh3, hf3, hfu3⟩ := hh3
      obtain ⟨p1, p2, p3, p4, p5, p6, p7⟩ := preGenerate_spec e m3 (by rw [hfu3, hf3]; exact t6)
      rw [← hM2] at h
      obtain ⟨M4, hM4⟩ : ∃ M, M = preGenerate e m3 := ⟨_, rfl⟩
      rw [← hM4] at p1 p2 p3 p4 p5 p6 p7
      have h : (M4.1.use M2.2 now, M2.2, M4.2) = (m', c, spawn) := by
        rw [hM4, hm3]
        exact Except.ok.inj h
      injection h with h1 h
      injection h with h2 h3
      subst h1 h2 h3
      have hgr := use_grown M4.1 M2.2 now
      have hg13 : Grown m m3 := by
        refine ⟨by rw [hf3, ← hfresh]; exact t1.fresh, fun i hi => ?_, fun i hi => ?_, fun i h1 h2 => ?_⟩
        · rw [hh3, t1.epoch i (by omega), hheap]
        · rw [hh3, t1.once i (by omega), hheap]
        · rw [hh3]; exact t1.idle i (by omega) (by omega)
      have hgall := (hg13.trans p1).trans hgr
      have hcur : M2.2 < m3.fresh := by rw [hf3]; exact t2
      have hcur' : M2.2 < M4.1.fresh := Nat.lt_of_lt_of_le hcur p1.fresh
      have hep : ((M4.1.use M2.2 now).heap M2.2).epoch = e := by
        rw [hgr.epoch _ hcur', p1.epoch _ hcur, hh3, t3]
      have hcaches : (M4.1.use M2.2 now).caches = (e, M2.2) :: m1.caches := by
        show M4.1.caches = _
        rw [p3, hc3]
      refine ⟨⟨?_, ?_, ?_⟩, hgall, hcur', hep, ?_, ?_, ?_, ?_, ?_, Or.inr ⟨hno, hne, ?_⟩⟩
      · rw [hcaches, List.map_cons, List.nodup_cons]
        refine ⟨?_, hnd⟩
        rw [List.mem_map]
        rintro ⟨x, hx, hxe⟩
        exact hno x (hsub x hx) hxe
      · intro x hx
        rw [hcaches] at hx
        rcases List.mem_cons.mp hx with rfl | hx
        · exact ⟨hcur', hep⟩
        · have hx' := hwf.entry x (hsub x hx)
          exact ⟨Nat.lt_of_lt_of_le hx'.1 hgall.fresh, by rw [hgall.epoch _ hx'.1, hx'.2]⟩
      · exact p4
      · rw [use_used, if_pos rfl]
      · intro i hi hic
        rw [use_used, if_neg hic, p2 i (Nat.lt_of_lt_of_le hi hg13.fresh), hh3, t4 i (by omega), hheap]
      · intro f hf
        obtain ⟨q1, q2, q3, q4⟩ := p5 f hf
        exact ⟨q1, Nat.le_trans hg13.fresh q2, by rw [hgr.epoch f q1, q3], q4⟩
      · intro i h1 h2
        have h2 : i < M4.1.fresh := h2
        rw [hgr.epoch i h2]
        by_cases h3 : i < m3.fresh
        · rw [p1.epoch i h3, hh3]
          exact Or.inl (t8 i (by omega) (by omega))
        · exact Or.inr (p7 i (by omega) h2)
      · rcases p6 with ⟨q1, q2, f, q3, q4⟩ | p6
        · rw [hfu3] at q2 q3
          have hmf : M2.1.future = m.future := by
            rcases t7 with t7 | t7
            · rw [t7] at q3; cases q3
            · rw [t7, hfut]
          refine Or.inl ⟨q1, q2.trans hmf, Or.inr ⟨f, hmf ▸ q3, ?_⟩⟩
          rw [hh3, t1.epoch f (hwf1.future f (by rw [hfut, ← hmf]; exact q3)), hheap] at q4
          exact q4
        · exact Or.inr p6
      · rcases hcase with ⟨hl, hm⟩ | ⟨hl, v, hv, hmin, hm⟩
        · rw [hm] at hcaches; exact Or.inl ⟨hl, hcaches⟩
        · rw [hm] at hcaches; exact Or.inr ⟨hl, v, hv, hmin, hcaches⟩

theorem locked_exists {k : Int} {order : List (U64 × Nat)} (now : Nat) (e : U64) {m : Mgr} (hk : 1 ≤ k) (ho : order.Perm m.caches) :
    ∃ m' c spawn, locked k order now e m = .ok (m', c, spawn) := by
  rw [locked]
  cases get m.caches e with
  | some i => exact ⟨_, _, _, rfl⟩
  | none =>
    obtain ⟨m1, h1⟩ := evictOne_exists hk ho
    simp only [register, h1, ok_bind]
    exact ⟨_, _, _, rfl⟩

theorem locked_panics {k : Int} {order : List (U64 × Nat)} (now : Nat) (e : U64) {m : Mgr} (hk : k ≤ 0) (ho : order.Perm m.caches)
    (hm : m.caches = []) : locked k order now e m = .error (.panic .nilDeref) := by
  rw [locked, hm]
  simp only [get, List.find?_nil, Option.map_none, register]
  rw [evictOne_panics hk ho hm]
  rfl

/-! ## The goroutines -/

/-- the cache that a goroutine is concerned with -/
def Thread.ref : Thread → Option (Option U64 × Nat)
  | .waiting r i => some (r, i)
  | .filling r i => some (r, i)
  | .ended r i => some (r, i)
  | _ => none

/-- what holds in all executions -/
structure Inv (k : Int) (Body : U64 → Go Loaded → Prop) (s : State) : Prop where
  wf : WF s.mgr
  bound : (s.mgr.caches.length : Int) ≤ max k 0
  refs : ∀ (t : Nat) th r i, s.threads[t]? = some th → th.ref = some (r, i) → i < s.mgr.fresh ∧ ∀ e, r = some e → (s.mgr.heap i).epoch = e
  running : ∀ (t : Nat) r i, s.threads[t]? = some (.filling r i) → (s.mgr.heap i).once = .running
  single : ∀ (t t' : Nat) r r' i, s.threads[t]? = some (.filling r i) → s.threads[t']? = some (.filling r' i) → t = t'
  runner : ∀ i < s.mgr.fresh, (s.mgr.heap i).once = .running → ∃ (t : Nat) (r : Option U64), s.threads[t]? = some (.filling r i)
  started : ∀ i < s.mgr.fresh, ((s.mgr.heap i).once = .idle ↔ i ∉ s.started)
  startedLt : ∀ i ∈ s.started, i < s.mgr.fresh
  nodup : s.started.Nodup
  ended : ∀ (t : Nat) r i, s.threads[t]? = some (.ended r i) → ∃ x, (s.mgr.heap i).once = .done x
  body : ∀ i < s.mgr.fresh, ∀ x, (s.mgr.heap i).once = .done (some x) → Body (s.mgr.heap i).epoch (.ok x)
  failed : ∀ i < s.mgr.fresh, (s.mgr.heap i).once = .done none → ∃ p, Body (s.mgr.heap i).epoch (.error p)
  free : 1 ≤ k → s.stuck = false

theorem get_set_append {l l2 : List Thread} {t t' : Nat} {x y : Thread} (h : (l.set t x ++ l2)[t']? = some y) :
    (t' = t ∧ y = x) ∨ (t' ≠ t ∧ l[t']? = some y) ∨ y ∈ l2 := by
  by_cases hlt : t' < (l.set t x).length
  · rw [List.getElem?_append_left hlt] at h
    by_cases htt : t' = t
    · subst htt
      rw [List.getElem?_set_self (by simpa using hlt)] at h
      exact Or.inl ⟨rfl, (Option.some.inj h).symm⟩
    · rw [List.getElem?_set_ne (Ne.symm htt)] at h
      exact Or.inr (Or.inl ⟨htt, h⟩)
  · rw [List.getElem?_append_right (by omega)] at h
    exact Or.inr (Or.inr (List.mem_of_getElem? h))

theorem get_set {l : List Thread} {t t' : Nat} {x y : Thread} (h : (l.set t x)[t']? = some y) :
    (t' = t ∧ y = x) ∨ (t' ≠ t ∧ l[t']? = some y) := by
  have := @get_set_append l [] t t' x y (by simpa using h)
  simpa using this

theorem keep_set {l : List Thread} {t t' : Nat} {x y : Thread} (h : l[t']? = some y) (hne : t' ≠ t) : (l.set t x)[t']? = some y := by
  rw [List.getElem?_set_ne (Ne.symm hne)]; exact h

theorem set_self {l : List Thread} {t : Nat} {x y : Thread} (h : l[t]? = some y) : (l.set t x)[t]? = some x := by
  obtain ⟨hlt, _⟩ := List.getElem?_eq_some_iff.mp h
  exact List.getElem?_set_self hlt

theorem setOnce_heap (m : Mgr) (i : Nat) (o : Once) (j : Nat) : ((m.setOnce i o).heap j).epoch = (m.heap j).epoch ∧
    ((m.setOnce i o).heap j).used = (m.heap j).used ∧ ((m.setOnce i o).heap j).once = if j = i then o else (m.heap j).once := by
  simp only [Mgr.setOnce]
  by_cases h : j = i
  · subst h; rw [Function.update_self, if_pos rfl]; exact ⟨rfl, rfl, rfl⟩
  · rw [Function.update_of_ne h, if_neg h]; exact ⟨rfl, rfl, rfl⟩

theorem setOnce_wf {m : Mgr} (h : WF m) (i : Nat) (o : Once) : WF (m.setOnce i o) :=
  ⟨h.keys, fun x hx => ⟨(h.entry x hx).1, by rw [(setOnce_heap m i o x.2).1]; exact (h.entry x hx).2⟩, h.future⟩

theorem inv_init (k : Int) (Body : U64 → Go Loaded → Prop) : Inv k Body init := by
  refine ⟨⟨by simp [init, new], by simp [init, new], by simp [init, new]⟩, ?_, ?_, ?_, ?_, ?_, ?_, ?_, ?_, ?_, ?_, ?_, ?_⟩
  · simp only [init, new, List.length_nil]; omega
  all_goals simp [init, new]

variable {k : Int} {Body : U64 → Go Loaded → Prop}

theorem inv_step {s s' : State} (h : Inv k Body s) (hs : Step k Body s s') : Inv k Body s' := by
  cases hs with
  | call e hcr =>
    have key : ∀ (t : Nat) th, (s.threads ++ [Thread.locking e])[t]? = some th → s.threads[t]? = some th ∨ th = .locking e := by
      intro t th ht
      by_cases hlt : t < s.threads.length
      · rw [List.getElem?_append_left hlt] at ht; exact Or.inl ht
      · rw [List.getElem?_append_right (by omega)] at ht
        exact Or.inr (List.mem_singleton.mp (List.mem_of_getElem? ht))
    refine ⟨h.wf, h.bound, ?_, ?_, ?_, ?_, h.started, h.startedLt, h.nodup, ?_, h.body, h.failed, h.free⟩
    · intro t th r i ht hr
      rcases key t th ht with ht | rfl
      · exact h.refs t th r i ht hr
      · cases hr
    · intro t r i ht
      rcases key t _ ht with ht | ht
      · exact h.running t r i ht
      · cases ht
    · intro t t' r r' i ht ht'
      rcases key t _ ht with ht | ht
      · rcases key t' _ ht' with ht' | ht'
        · exact h.single t t' r r' i ht ht'
        · cases ht'
      · cases ht
    · intro i hi hr
      obtain ⟨t, r, ht⟩ := h.runner i hi hr
      refine ⟨t, r, ?_⟩
      have := (List.getElem?_eq_some_iff.mp ht).1
      show (s.threads ++ _)[t]? = _
      rw [List.getElem?_append_left this]
      exact ht
    · intro t r i ht
      rcases key t _ ht with ht | ht
      · exact h.ended t r i ht
      · cases ht
  | lock t e order now m c spawn hcr hst ht ho hclk hl =>
    have ha := locked_after h.wf ho hl
    have hg := ha.grown
    have key : ∀ (t' : Nat) th, (s.threads.set t (.waiting (some e) c) ++ (spawn.map fun f => Thread.waiting none f).toList)[t']? = some th →
        (th = .waiting (some e) c) ∨ (t' ≠ t ∧ s.threads[t']? = some th) ∨ ∃ f, spawn = some f ∧ th = .waiting none f := by
      intro t' th h'
      rcases get_set_append h' with h' | h' | h'
      · exact Or.inl h'.2
      · exact Or.inr (Or.inl h')
      · cases spawn with
        | none => simp at h'
        | some f => simp at h'; exact Or.inr (Or.inr ⟨f, rfl, h'⟩)
    refine ⟨ha.wf, ?_, ?_, ?_, ?_, ?_, ?_, ?_, h.nodup, ?_, ?_, ?_, h.free⟩
    · have hb := h.bound
      rcases ha.caches with ⟨_, h1, _⟩ | ⟨_, _, ⟨hlt, h1⟩ | ⟨hge, v, hv, _, h1⟩⟩
      · show ((m.caches.length : Nat) : Int) ≤ _
        rw [h1]; exact hb
      · show ((m.caches.length : Nat) : Int) ≤ _
        rw [h1, List.length_cons]; push_cast; omega
      · show ((m.caches.length : Nat) : Int) ≤ _
        rw [h1, List.length_cons]
        have : (s.mgr.caches.filter fun x => x.1 != v.1).length < s.mgr.caches.length := by
          rw [List.length_filter_lt_length_iff_exists]
          exact ⟨v, hv, by simp⟩
        omega
    · intro t' th r i h' hr
      rcases key t' th h' with rfl | ⟨_, h'⟩ | ⟨f, hf, rfl⟩
      · injection hr with hr
        injection hr with h1 h2
        subst h1 h2
        refine ⟨ha.cur, ?_⟩
        intro e' he'
        injection he' with he'
        subst he'
        exact ha.epoch
      · obtain ⟨h1, h2⟩ := h.refs t' th r i h' hr
        exact ⟨Nat.lt_of_lt_of_le h1 hg.fresh, fun e' he' => by rw [hg.epoch i h1]; exact h2 e' he'⟩
      · injection hr with hr
        injection hr with h1 h2
        subst h1 h2
        exact ⟨(ha.spawned f hf).1, by simp⟩
    · intro t' r i h'
      rcases key t' _ h' with h' | ⟨_, h'⟩ | ⟨f, hf, h'⟩
      · cases h'
      · rw [hg.once i (h.refs t' _ r i h' rfl).1]; exact h.running t' r i h'
      · cases h'
    · intro t1 t2 r r' i h1 h2
      rcases key t1 _ h1 with h1 | ⟨_, h1⟩ | ⟨f, hf, h1⟩
      · cases h1
      · rcases key t2 _ h2 with h2 | ⟨_, h2⟩ | ⟨f, hf, h2⟩
        · cases h2
        · exact h.single t1 t2 r r' i h1 h2
        · cases h2
      · cases h1
    · intro i hi hr
      by_cases hlt : i < s.mgr.fresh
      · have hr : (s.mgr.heap i).once = .running := by rw [← hg.once i hlt]; exact hr
        obtain ⟨t', r, h'⟩ := h.runner i hlt hr
        have hne : t' ≠ t := by
          rintro rfl
          rw [ht] at h'
          cases h'
        refine ⟨t', r, ?_⟩
        have hlen := (List.getElem?_eq_some_iff.mp h').1
        show (s.threads.set t _ ++ _)[t']? = _
        rw [List.getElem?_append_left (by simpa using hlen)]
        exact keep_set h' hne
      · have := hg.idle i (by omega) hi
        rw [this] at hr
        cases hr
    · intro i hi
      by_cases hlt : i < s.mgr.fresh
      · show (m.heap i).once = .idle ↔ _
        rw [hg.once i hlt]; exact h.started i hlt
      · refine ⟨fun _ hm => hlt (h.startedLt i hm), fun _ => hg.idle i (by omega) hi⟩
    · intro i hi
      exact Nat.lt_of_lt_of_le (h.startedLt i hi) hg.fresh
    · intro t' r i h'
      rcases key t' _ h' with h' | ⟨_, h'⟩ | ⟨f, hf, h'⟩
      · cases h'
      · rw [hg.once i (h.refs t' _ r i h' rfl).1]; exact h.ended t' r i h'
      · cases h'
    · intro i hi x hx
      by_cases hlt : i < s.mgr.fresh
      · rw [hg.epoch i hlt]
        exact h.body i hlt x (by rw [← hg.once i hlt]; exact hx)
      · have := hg.idle i (by omega) hi
        rw [this] at hx
        cases hx
    · intro i hi hx
      by_cases hlt : i < s.mgr.fresh
      · rw [hg.epoch i hlt]
        exact h.failed i hlt (by rw [← hg.once i hlt]; exact hx)
      · have := hg.idle i (by omega) hi
        rw [this] at hx
        cases hx
  | lockPanic t e order now p hcr hst ht ho hclk hl =>
    refine ⟨h.wf, h.bound, ?_, ?_, ?_, ?_, h.started, h.startedLt, h.nodup, ?_, h.body, h.failed, ?_⟩
    · intro t' th r i h' hr
      rcases get_set h' with ⟨_, rfl⟩ | ⟨_, h'⟩
      · cases hr
      · exact h.refs t' th r i h' hr
    · intro t' r i h'
      rcases get_set h' with ⟨_, h'⟩ | ⟨_, h'⟩
      · cases h'
      · exact h.running t' r i h'
    · intro t1 t2 r r' i h1 h2
      rcases get_set h1 with ⟨_, h1⟩ | ⟨_, h1⟩
      · cases h1
      · rcases get_set h2 with ⟨_, h2⟩ | ⟨_, h2⟩
        · cases h2
        · exact h.single t1 t2 r r' i h1 h2
    · intro i hi hr
      obtain ⟨t', r, h'⟩ := h.runner i hi hr
      refine ⟨t', r, keep_set h' ?_⟩
      rintro rfl
      rw [ht] at h'
      cases h'
    · intro t' r i h'
      rcases get_set h' with ⟨_, h'⟩ | ⟨_, h'⟩
      · cases h'
      · exact h.ended t' r i h'
    · intro hk
      obtain ⟨m', c, sp, hok⟩ := locked_exists now e hk ho
      rw [hok] at hl
      cases hl
  | start t role i hcr ht hid =>
    have hi := h.refs t _ role i ht rfl
    refine ⟨setOnce_wf h.wf i _, h.bound, ?_, ?_, ?_, ?_, ?_, ?_, ?_, ?_, ?_, ?_, h.free⟩
    · intro t' th r j h' hr
      show j < s.mgr.fresh ∧ _
      simp only [(setOnce_heap s.mgr i _ j).1]
      rcases get_set h' with ⟨_, rfl⟩ | ⟨_, h'⟩
      · injection hr with hr
        injection hr with h1 h2
        subst h1 h2
        exact hi
      · exact h.refs t' th r j h' hr
    · intro t' r j h'
      rw [(setOnce_heap s.mgr i _ j).2.2]
      rcases get_set h' with ⟨_, h'⟩ | ⟨_, h'⟩
      · injection h' with _ h'
        rw [if_pos h']
      · by_cases hj : j = i
        · rw [if_pos hj]
        · rw [if_neg hj]; exact h.running t' r j h'
    · intro t1 t2 r r' j h1 h2
      have hno : ∀ (t' : Nat) r, s.threads[t']? = some (.filling r i) → False := by
        intro t' r h'
        have := h.running t' r i h'
        rw [hid] at this
        cases this
      rcases get_set h1 with ⟨h3, h1⟩ | ⟨_, h1⟩
      · injection h1 with _ h1
        subst h1
        rcases get_set h2 with ⟨h4, h2⟩ | ⟨_, h2⟩
        · rw [h3, h4]
        · exact absurd h2 (hno t2 r')
      · rcases get_set h2 with ⟨_, h2⟩ | ⟨_, h2⟩
        · injection h2 with _ h2
          rw [h2] at h1
          exact absurd h1 (hno t1 r)
        · exact h.single t1 t2 r r' j h1 h2
    · intro j hj hr
      rw [(setOnce_heap s.mgr i _ j).2.2] at hr
      by_cases hji : j = i
      · subst hji
        exact ⟨t, role, set_self ht⟩
      · rw [if_neg hji] at hr
        obtain ⟨t', r, h'⟩ := h.runner j hj hr
        refine ⟨t', r, keep_set h' ?_⟩
        rintro rfl
        rw [ht] at h'
        cases h'
    · intro j hj
      rw [(setOnce_heap s.mgr i _ j).2.2]
      by_cases hji : j = i
      · subst hji
        rw [if_pos rfl]
        exact ⟨fun h => (by cases h), fun h => absurd List.mem_cons_self h⟩
      · rw [if_neg hji, h.started j hj]
        simp only [List.mem_cons, hji, false_or]
    · intro j hj
      rcases List.mem_cons.mp hj with rfl | hj
      · exact hi.1
      · exact h.startedLt j hj
    · exact List.nodup_cons.mpr ⟨(h.started i hi.1).mp hid, h.nodup⟩
    · intro t' r j h'
      rw [(setOnce_heap s.mgr i _ j).2.2]
      rcases get_set h' with ⟨_, h'⟩ | ⟨_, h'⟩
      · cases h'
      · obtain ⟨x, hx⟩ := h.ended t' r j h'
        by_cases hji : j = i
        · subst hji
          rw [hid] at hx
          cases hx
        · rw [if_neg hji]; exact ⟨x, hx⟩
    · intro j hj x hx
      rw [(setOnce_heap s.mgr i _ j).2.2] at hx
      rw [(setOnce_heap s.mgr i _ j).1]
      by_cases hji : j = i
      · rw [if_pos hji] at hx; cases hx
      · rw [if_neg hji] at hx; exact h.body j hj x hx
    · intro j hj hx
      rw [(setOnce_heap s.mgr i _ j).2.2] at hx
      rw [(setOnce_heap s.mgr i _ j).1]
      by_cases hji : j = i
      · rw [if_pos hji] at hx; cases hx
      · rw [if_neg hji] at hx; exact h.failed j hj hx
  | finish t role i r hcr ht hb =>
    have hi := h.refs t _ role i ht rfl
    have hrun := h.running t role i ht
    refine ⟨setOnce_wf h.wf i _, h.bound, ?_, ?_, ?_, ?_, ?_, h.startedLt, h.nodup, ?_, ?_, ?_, h.free⟩
    · intro t' th r' j h' hr
      show j < s.mgr.fresh ∧ _
      simp only [(setOnce_heap s.mgr i _ j).1]
      rcases get_set h' with ⟨_, rfl⟩ | ⟨_, h'⟩
      · injection hr with hr
        injection hr with h1 h2
        subst h1 h2
        exact hi
      · exact h.refs t' th r' j h' hr
    · intro t' r' j h'
      rw [(setOnce_heap s.mgr i _ j).2.2]
      rcases get_set h' with ⟨_, h'⟩ | ⟨hne, h'⟩
      · cases h'
      · by_cases hj : j = i
        · rw [hj] at h'
          exact absurd (h.single t' t r' role i h' ht) hne
        · rw [if_neg hj]; exact h.running t' r' j h'
    · intro t1 t2 r1 r2 j h1 h2
      rcases get_set h1 with ⟨h3, h1⟩ | ⟨_, h1⟩
      · cases h1
      · rcases get_set h2 with ⟨_, h2⟩ | ⟨_, h2⟩
        · cases h2
        · exact h.single t1 t2 r1 r2 j h1 h2
    · intro j hj hr
      rw [(setOnce_heap s.mgr i _ j).2.2] at hr
      by_cases hji : j = i
      · rw [if_pos hji] at hr; cases hr
      · rw [if_neg hji] at hr
        obtain ⟨t', r', h'⟩ := h.runner j hj hr
        refine ⟨t', r', keep_set h' ?_⟩
        rintro rfl
        rw [ht] at h'
        injection h' with h'
        injection h' with _ h'
        exact hji h'.symm
    · intro j hj
      rw [(setOnce_heap s.mgr i _ j).2.2]
      by_cases hji : j = i
      · subst hji
        rw [if_pos rfl]
        have := h.started j hj
        rw [hrun] at this
        exact ⟨fun h => (by cases h), fun h => absurd (this.mpr h) (by simp)⟩
      · rw [if_neg hji, h.started j hj]
    · intro t' r' j h'
      rw [(setOnce_heap s.mgr i _ j).2.2]
      by_cases hji : j = i
      · rw [if_pos hji]; exact ⟨_, rfl⟩
      · rw [if_neg hji]
        rcases get_set h' with ⟨_, h'⟩ | ⟨_, h'⟩
        · injection h' with _ h'
          exact absurd h' hji
        · exact h.ended t' r' j h'
    · intro j hj x hx
      rw [(setOnce_heap s.mgr i _ j).2.2] at hx
      rw [(setOnce_heap s.mgr i _ j).1]
      by_cases hji : j = i
      · subst hji
        rw [if_pos rfl] at hx
        injection hx with hx
        injection hx with hx
        subst hx
        exact hb
      · rw [if_neg hji] at hx; exact h.body j hj x hx
    · intro j hj hx
      rw [(setOnce_heap s.mgr i _ j).2.2] at hx
      rw [(setOnce_heap s.mgr i _ j).1]
      by_cases hji : j = i
      · rw [if_pos hji] at hx; injection hx with hx; cases hx
      · rw [if_neg hji] at hx; exact h.failed j hj hx
  | finishPanic t role i p hcr ht hb =>
    have hi := h.refs t _ role i ht rfl
    have hrun := h.running t role i ht
    refine ⟨setOnce_wf h.wf i _, h.bound, ?_, ?_, ?_, ?_, ?_, h.startedLt, h.nodup, ?_, ?_, ?_, h.free⟩
    · intro t' th r' j h' hr
      show j < s.mgr.fresh ∧ _
      simp only [(setOnce_heap s.mgr i _ j).1]
      rcases get_set h' with ⟨_, rfl⟩ | ⟨_, h'⟩
      · cases hr
      · exact h.refs t' th r' j h' hr
    · intro t' r' j h'
      rw [(setOnce_heap s.mgr i _ j).2.2]
      rcases get_set h' with ⟨_, h'⟩ | ⟨hne, h'⟩
      · cases h'
      · by_cases hj : j = i
        · rw [hj] at h'
          exact absurd (h.single t' t r' role i h' ht) hne
        · rw [if_neg hj]; exact h.running t' r' j h'
    · intro t1 t2 r1 r2 j h1 h2
      rcases get_set h1 with ⟨h3, h1⟩ | ⟨_, h1⟩
      · cases h1
      · rcases get_set h2 with ⟨_, h2⟩ | ⟨_, h2⟩
        · cases h2
        · exact h.single t1 t2 r1 r2 j h1 h2
    · intro j hj hr
      rw [(setOnce_heap s.mgr i _ j).2.2] at hr
      by_cases hji : j = i
      · rw [if_pos hji] at hr; cases hr
      · rw [if_neg hji] at hr
        obtain ⟨t', r', h'⟩ := h.runner j hj hr
        refine ⟨t', r', keep_set h' ?_⟩
        rintro rfl
        rw [ht] at h'
        injection h' with h'
        injection h' with _ h'
        exact hji h'.symm
    · intro j hj
      rw [(setOnce_heap s.mgr i _ j).2.2]
      by_cases hji : j = i
      · subst hji
        rw [if_pos rfl]
        have := h.started j hj
        rw [hrun] at this
        exact ⟨fun h => (by cases h), fun h => absurd (this.mpr h) (by simp)⟩
      · rw [if_neg hji, h.started j hj]
    · intro t' r' j h'
      rw [(setOnce_heap s.mgr i _ j).2.2]
      by_cases hji : j = i
      · rw [if_pos hji]; exact ⟨_, rfl⟩
      · rw [if_neg hji]
        rcases get_set h' with ⟨_, h'⟩ | ⟨_, h'⟩
        · cases h'
        · exact h.ended t' r' j h'
    · intro j hj x hx
      rw [(setOnce_heap s.mgr i _ j).2.2] at hx
      rw [(setOnce_heap s.mgr i _ j).1]
      by_cases hji : j = i
      · rw [if_pos hji] at hx; injection hx with hx; cases hx
      · rw [if_neg hji] at hx; exact h.body j hj x hx
    · intro j hj hx
      rw [(setOnce_heap s.mgr i _ j).2.2] at hx
      rw [(setOnce_heap s.mgr i _ j).1]
      by_cases hji : j = i
      · subst hji; exact ⟨p, hb⟩
      · rw [if_neg hji] at hx; exact h.failed j hj hx
  | skip t role i r hcr ht hd =>
    have hi := h.refs t _ role i ht rfl
    refine ⟨h.wf, h.bound, ?_, ?_, ?_, ?_, h.started, h.startedLt, h.nodup, ?_, h.body, h.failed, h.free⟩
    · intro t' th r' j h' hr
      rcases get_set h' with ⟨_, rfl⟩ | ⟨_, h'⟩
      · injection hr with hr
        injection hr with h1 h2
        subst h1 h2
        exact hi
      · exact h.refs t' th r' j h' hr
    · intro t' r' j h'
      rcases get_set h' with ⟨_, h'⟩ | ⟨_, h'⟩
      · cases h'
      · exact h.running t' r' j h'
    · intro t1 t2 r1 r2 j h1 h2
      rcases get_set h1 with ⟨_, h1⟩ | ⟨_, h1⟩
      · cases h1
      · rcases get_set h2 with ⟨_, h2⟩ | ⟨_, h2⟩
        · cases h2
        · exact h.single t1 t2 r1 r2 j h1 h2
    · intro j hj hr
      obtain ⟨t', r', h'⟩ := h.runner j hj hr
      refine ⟨t', r', keep_set h' ?_⟩
      rintro rfl
      rw [ht] at h'
      cases h'
    · intro t' r' j h'
      rcases get_set h' with ⟨_, h'⟩ | ⟨_, h'⟩
      · injection h' with h1 h2
        subst h1 h2
        exact ⟨r, hd⟩
      · exact h.ended t' r' j h'

theorem inv_reach {s : State} (h : Reach k Body s) : Inv k Body s := by
  induction h with
  | init => exact inv_init k Body
  | step _ hs ih => exact inv_step ih hs

end Verif.Manager
