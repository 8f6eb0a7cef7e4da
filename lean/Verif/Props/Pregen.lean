import Verif.Props.Manager

/-! # Generation ahead of time: property C68 -/

set_option autoImplicit false

namespace Verif.Props

open Go Dag Manager

/-- what the section under the mutex does with the cache that was generated ahead -/
theorem locked_future {k : Int} {order : List (U64 × Nat)} {now : Nat} {e : U64} {m m' : Mgr} {c : Nat} {spawn : Option Nat}
    (hwf : WF m)
    (h : locked k order now e m = .ok (m', c, spawn)) (hg : get m.caches e = none) :
    (∀ f, m.future = some f → (m.heap f).epoch = e → c = f) ∧
    ∀ g f, spawn = some g → m.future = some f → (m.heap f).epoch.toNat ≤ e.toNat := by
  rw [locked, hg] at h
  simp only [register] at h
  cases h1 : evictOne k order m with
  | error p => rw [h1] at h; cases h
  | ok m1 =>
    rw [h1] at h
    have a : m1.heap = m.heap ∧ m1.future = m.future ∧ m1.fresh = m.fresh := by
      rw [evictOne] at h1
      by_cases hk : k ≤ m.caches.length
      · rw [if_pos hk] at h1
        cases hv : order.foldl (evictStep m.heap) none with
        | none => rw [hv] at h1; cases h1
        | some v =>
          rw [hv] at h1
          injection h1 with h1
          subst h1
          exact ⟨rfl, rfl, rfl⟩
      · rw [if_neg hk] at h1
        injection h1 with h1
        subst h1
        exact ⟨rfl, rfl, rfl⟩
    obtain ⟨a1, a2, a3⟩ := a
    obtain ⟨T, hT⟩ : ∃ x, x = takeCache e m1 := ⟨_, rfl⟩
    obtain ⟨G, hG⟩ : ∃ x, x = preGenerate e { T.1 with caches := put T.1.caches e T.2 } := ⟨_, rfl⟩
    have hh : (Except.ok (G.1.use T.2 now, T.2, G.2) : Go (Mgr × Nat × Option Nat)) = .ok (m', c, spawn) := by
      rw [hG, hT]
      exact h
    injection hh with hh
    injection hh with _ hh
    injection hh with hc hs
    constructor
    · intro f hf he
      rw [← hc, hT, takeCache, a2, hf, a1]
      simp only
      rw [if_pos he]
    · intro g f hg hf
      by_contra hlt
      have hne : (m.heap f).epoch ≠ e := by
        rintro rfl
        exact hlt (Nat.le_refl _)
      have hff : f ≠ m.fresh := Nat.ne_of_lt (hwf.future f hf)
      have hT1 : T.1.future = some f ∧ (T.1.heap f).epoch = (m.heap f).epoch := by
        rw [hT, takeCache, a2, hf, a1]
        simp only
        rw [if_neg hne]
        refine ⟨by simp [Mgr.alloc, a2, hf], ?_⟩
        simp only [Mgr.alloc, a1, a3]
        rw [Function.update_of_ne hff]
      obtain ⟨b1, b2⟩ := hT1
      have : G.2 = none := by
        rw [hG, preGenerate]
        simp only [b1]
        rw [if_neg]
        rw [b2]
        intro hle
        exact hlt (BitVec.le_def.mp hle)
      rw [← hs, this] at hg
      cases hg

/-- the goroutine generates the cache ahead of time, or has done so -/
def Ahead (f : Nat) (th : Thread) : Prop :=
  th = .waiting none f ∨ th = .filling none f ∨ th = .ended none f ∨ th = .panicked none

/-- the epoch is below the largest number of 64 bits, so that there is a next one -/
def HasNext (e : U64) : Prop := e.toNat + 1 < 2 ^ 64

theorem next_toNat {e : U64} (h : HasNext e) : (e + 1).toNat = e.toNat + 1 := by
  rw [BitVec.toNat_add]
  exact Nat.mod_eq_of_lt h

/-- what holds for generation ahead -/
structure AheadInv (s : State) : Prop where
  sub : ∀ x ∈ s.mgr.caches, x.1 ∈ s.hist.map Prod.fst
  newest : ∀ x l, s.hist = x :: l → x.1 ∈ s.mgr.caches.map Prod.fst
  start : s.hist = [] → s.mgr.future = none ∧ s.mgr.fresh = 0
  next : s.hist ≠ [] → ∃ f : Nat, s.mgr.future = some f ∧ (∀ x ∈ s.hist, x.1.toNat < (s.mgr.heap f).epoch.toNat) ∧
    (∃ x ∈ s.hist, (s.mgr.heap f).epoch.toNat = x.1.toNat + 1)
  gen : ∀ f : Nat, s.mgr.future = some f → ∃ (t : Nat) (th : Thread), s.threads[t]? = some th ∧ Ahead f th

section
variable {k : Int} {Body : U64 → Go Loaded → Prop}

theorem ahead_set {s : State} {t : Nat} {old new : Thread} (ht : s.threads[t]? = some old) (hk : ∀ f, Ahead f old → Ahead f new)
    (h : ∀ f : Nat, s.mgr.future = some f → ∃ (t : Nat) (th : Thread), s.threads[t]? = some th ∧ Ahead f th) (f : Nat)
    (hf : s.mgr.future = some f) : ∃ (t' : Nat) (th : Thread), (s.threads.set t new)[t']? = some th ∧ Ahead f th := by
  obtain ⟨t', th, h1, h2⟩ := h f hf
  by_cases htt : t' = t
  · subst htt
    rw [ht] at h1
    injection h1 with h1
    subst h1
    exact ⟨t', new, set_self ht, hk f h2⟩
  · exact ⟨t', th, keep_set h1 htt, h2⟩

theorem ahead_step {s s' : State} (hi : Inv k Body s) (h : AheadInv s) (hs : Step k Body s s') (hn : ∀ x ∈ s'.hist, HasNext x.1) :
    AheadInv s' := by
  have hep : ∀ (i : Nat) (o : Once) (f : Nat), ((s.mgr.setOnce i o).heap f).epoch = (s.mgr.heap f).epoch := fun i o f =>
    (setOnce_heap s.mgr i o f).1
  cases hs with
  | call e hcr =>
    refine ⟨h.sub, h.newest, h.start, h.next, fun f hf => ?_⟩
    obtain ⟨t, th, h1, h2⟩ := h.gen f hf
    refine ⟨t, th, ?_, h2⟩
    show (s.threads ++ _)[t]? = _
    rw [List.getElem?_append_left (List.getElem?_eq_some_iff.mp h1).1]
    exact h1
  | lockPanic t e order now p hcr hst ht ho hclk hl =>
    exact ⟨h.sub, h.newest, h.start, h.next, ahead_set ht (by simp [Ahead]) h.gen⟩
  | skip t role i r hcr ht hd =>
    exact ⟨h.sub, h.newest, h.start, h.next, ahead_set ht (by
      intro f hf
      rcases hf with hf | hf | hf | hf <;> cases hf
      exact Or.inr (Or.inr (Or.inl rfl))) h.gen⟩
  | start t role i hcr ht hid =>
    refine ⟨h.sub, h.newest, h.start, fun hne => ?_, ahead_set ht (by
      intro f hf
      rcases hf with hf | hf | hf | hf <;> cases hf
      exact Or.inr (Or.inl rfl)) h.gen⟩
    obtain ⟨f, h1, h2⟩ := h.next hne
    exact ⟨f, h1, by simpa only [hep] using h2⟩
  | finish t role i r hcr ht hb =>
    refine ⟨h.sub, h.newest, h.start, fun hne => ?_, ahead_set ht (by
      intro f hf
      rcases hf with hf | hf | hf | hf <;> cases hf
      exact Or.inr (Or.inr (Or.inl rfl))) h.gen⟩
    obtain ⟨f, h1, h2⟩ := h.next hne
    exact ⟨f, h1, by simpa only [hep] using h2⟩
  | finishPanic t role i p hcr ht hb =>
    refine ⟨h.sub, h.newest, h.start, fun hne => ?_, ahead_set ht (by
      intro f hf
      rcases hf with hf | hf | hf | hf <;> cases hf
      exact Or.inr (Or.inr (Or.inr rfl))) h.gen⟩
    obtain ⟨f, h1, h2⟩ := h.next hne
    exact ⟨f, h1, by simpa only [hep] using h2⟩
  | lock t e order now m c spawn hcr hst ht ho hclk hl =>
    have ha := locked_after hi.wf ho hl
    have hne : HasNext e := hn (e, now) List.mem_cons_self
    have hcaches : ∀ x ∈ m.caches, x = (e, c) ∨ x ∈ s.mgr.caches := by
      intro x hx
      rcases ha.caches with ⟨_, h1, _⟩ | ⟨_, _, ⟨_, h1⟩ | ⟨_, v, _, _, h1⟩⟩
      · rw [h1] at hx; exact Or.inr hx
      · rw [h1] at hx; exact List.mem_cons.mp hx
      · rw [h1] at hx
        rcases List.mem_cons.mp hx with hx | hx
        · exact Or.inl hx
        · exact Or.inr (List.mem_filter.mp hx).1
    have hec : (e, c) ∈ m.caches := by
      rcases ha.caches with ⟨h0, h1, _⟩ | ⟨_, _, ⟨_, h1⟩ | ⟨_, v, _, _, h1⟩⟩ <;> rw [h1]
      · exact h0
      · exact List.mem_cons_self
      · exact List.mem_cons_self
    refine ⟨?_, ?_, ?_, ?_, ?_⟩
    · intro x hx
      show x.1 ∈ ((e, now) :: s.hist).map Prod.fst
      rw [List.map_cons]
      rcases hcaches x hx with rfl | hx
      · exact List.mem_cons_self
      · exact List.mem_cons_of_mem _ (h.sub x hx)
    · intro x l hxl
      injection hxl with hx _
      subst hx
      exact List.mem_map.mpr ⟨_, hec, rfl⟩
    · intro hx
      cases hx
    · intro _
      show ∃ f : Nat, m.future = some f ∧ (∀ x ∈ (e, now) :: s.hist, x.1.toNat < (m.heap f).epoch.toNat) ∧
        (∃ x ∈ (e, now) :: s.hist, (m.heap f).epoch.toNat = x.1.toNat + 1)
      rcases ha.future with ⟨h1, h2, h3⟩ | ⟨f, h1, h2⟩
      · have hold : s.hist ≠ [] := by
          intro hnil
          rcases h3 with h3 | ⟨f, h3, _⟩
          · have := h.sub _ h3
            rw [hnil] at this
            cases this
          · rw [(h.start hnil).1] at h3
            cases h3
        obtain ⟨f, q1, q2, x, q3, q4⟩ := h.next hold
        have hepf := ha.grown.epoch f (hi.wf.future f q1)
        refine ⟨f, h2.trans q1, ?_, x, List.mem_cons_of_mem _ q3, by rw [hepf]; exact q4⟩
        intro y hy
        rw [hepf]
        rcases List.mem_cons.mp hy with rfl | hy
        · rcases h3 with h3 | ⟨f', h3, h4⟩
          · obtain ⟨z, hz, hze⟩ := List.mem_map.mp (h.sub _ h3)
            have := q2 z hz
            rw [hze] at this
            exact this
          · rw [q1] at h3
            injection h3 with h3
            subst h3
            exact BitVec.lt_def.mp h4
        · exact q2 y hy
      · obtain ⟨_, _, s3, s4⟩ := ha.spawned f h1
        have hto : (m.heap f).epoch.toNat = e.toNat + 1 := by rw [s3]; exact next_toNat hne
        refine ⟨f, h2, ?_, (e, now), List.mem_cons_self, hto⟩
        intro y hy
        rw [hto]
        rcases List.mem_cons.mp hy with rfl | hy
        · exact Nat.lt_succ_self _
        · have hold : s.hist ≠ [] := by
            intro hnil
            rw [hnil] at hy
            cases hy
          obtain ⟨g, q1, q2, _⟩ := h.next hold
          have hgn : get s.mgr.caches e = none := by
            rcases ha.caches with ⟨_, _, h0⟩ | ⟨h0, _⟩
            · rw [h1] at h0; cases h0
            · unfold Manager.get
              rw [Option.map_eq_none_iff, List.find?_eq_none]
              intro x hx
              simpa using h0 x hx
          have := (locked_future hi.wf hl hgn).2 f g h1 q1
          have := q2 y hy
          omega
    · intro f hf
      have hf : m.future = some f := hf
      rcases ha.future with ⟨h1, h2, h3⟩ | ⟨g, h1, h2⟩
      · subst h1
        obtain ⟨t', th, q1, q2⟩ := ahead_set (new := .waiting (some e) c) ht (by simp [Ahead]) h.gen f (h2 ▸ hf)
        exact ⟨t', th, by simpa using q1, q2⟩
      · rw [h2] at hf
        injection hf with hf
        subst hf
        subst h1
        refine ⟨s.threads.length, .waiting none g, ?_, Or.inl rfl⟩
        show (s.threads.set t (.waiting (some e) c) ++ [Thread.waiting none g])[s.threads.length]? = _
        rw [List.getElem?_append_right (by simp)]
        simp

theorem hist_step {s s' : State} (hs : Step k Body s s') : s'.hist = s.hist ∨ ∃ x, s'.hist = x :: s.hist := by
  cases hs with
  | lock t e order now m c spawn hcr hst ht ho hclk hl => exact Or.inr ⟨_, rfl⟩
  | _ => exact Or.inl rfl

theorem ahead_reach {s : State} (h : Reach k Body s) (hn : ∀ x ∈ s.hist, HasNext x.1) : AheadInv s := by
  induction h with
  | init => exact ⟨by simp [init, new], by simp [init], fun _ => ⟨rfl, rfl⟩, by simp [init], by simp [init, new]⟩
  | @step s s' hr hs ih =>
    refine ahead_step (inv_reach hr) (ih fun x hx => ?_) hs hn
    rcases hist_step hs with h' | ⟨y, h'⟩
    · exact hn x (h' ▸ hx)
    · exact hn x (h' ▸ List.mem_cons_of_mem _ hx)

variable {s : State} (h : Reach k Body s) (hn : ∀ x ∈ s.hist, HasNext x.1)
include h hn

/-- **C68** After any requests the manager has the cache of the epoch after the highest one requested, and a goroutine of its own
generates it, or has done so. -/
theorem C68_ahead (hne : s.hist ≠ []) : ∃ f : Nat, s.mgr.future = some f ∧ (∀ x ∈ s.hist, x.1.toNat < (s.mgr.heap f).epoch.toNat) ∧
    (∃ x ∈ s.hist, (s.mgr.heap f).epoch.toNat = x.1.toNat + 1) ∧ ∃ (t : Nat) (th : Thread), s.threads[t]? = some th ∧ Ahead f th := by
  obtain ⟨f, h1, h2, h3⟩ := (ahead_reach h hn).next hne
  exact ⟨f, h1, h2, h3, (ahead_reach h hn).gen f h1⟩

/-- **C68** A request for this epoch gets this cache. -/
theorem C68_next {s' : State} (hs : Step k Body s s') (f : Nat) (hf : s.mgr.future = some f) (now : Nat)
    (hh : s'.hist = ((s.mgr.heap f).epoch, now) :: s.hist) : ((s.mgr.heap f).epoch, f) ∈ s'.mgr.caches ∧
      ∃ t : Nat, s.threads[t]? = some (.locking (s.mgr.heap f).epoch) ∧ s'.threads[t]? = some (.waiting (some (s.mgr.heap f).epoch) f) := by
  have hi := inv_reach h
  have hA := ahead_reach h hn
  have hno : ∀ l : List (U64 × Nat), ∀ x : U64 × Nat, l ≠ x :: l := by
    intro l x hl
    have := congrArg List.length hl
    rw [List.length_cons] at this
    omega
  cases hs with
  | lock t e order now' m c spawn hcr hst ht ho hclk hl =>
    injection hh with hh _
    injection hh with he _
    subst he
    have hgn : get s.mgr.caches (s.mgr.heap f).epoch = none := by
      unfold Manager.get
      rw [Option.map_eq_none_iff, List.find?_eq_none]
      intro x hx hxe
      simp only [beq_iff_eq] at hxe
      have hm := hA.sub x hx
      obtain ⟨y, hy, hye⟩ := List.mem_map.mp hm
      obtain ⟨g, q1, q2, _⟩ := hA.next (by intro hnil; rw [hnil] at hy; cases hy)
      rw [hf] at q1
      injection q1 with q1
      subst q1
      have := q2 y hy
      rw [hye, hxe] at this
      omega
    have hc := (locked_future hi.wf hl hgn).1 f hf rfl
    subst hc
    refine ⟨?_, t, ht, ?_⟩
    · rcases (locked_after hi.wf ho hl).caches with ⟨h0, h1, _⟩ | ⟨_, _, ⟨_, h1⟩ | ⟨_, v, _, _, h1⟩⟩
      · show _ ∈ m.caches
        rw [h1]; exact h0
      · show _ ∈ m.caches
        rw [h1]; exact List.mem_cons_self
      · show _ ∈ m.caches
        rw [h1]; exact List.mem_cons_self
    · have hlt := (List.getElem?_eq_some_iff.mp ht).1
      show (s.threads.set t _ ++ _)[t]? = _
      rw [List.getElem?_append_left (by simpa using hlt), List.getElem?_set_self hlt]
  | _ => exact absurd hh (hno _ _)

end

/-! ## Requests in ascending order -/

theorem locked_hit {k : Int} {order : List (U64 × Nat)} {now : Nat} {e : U64} {m m' : Mgr} {c : Nat} {spawn : Option Nat}
    (h : locked k order now e m = .ok (m', c, spawn)) (hg : e ∈ m.caches.map Prod.fst) : m'.fresh = m.fresh ∧ m'.future = m.future := by
  rw [locked] at h
  cases hc : Manager.get m.caches e with
  | none =>
    obtain ⟨x, hx, hxe⟩ := List.mem_map.mp hg
    exact absurd hxe (get_none hc x hx)
  | some i =>
    rw [hc] at h
    injection h with h
    injection h with h _
    subst h
    exact ⟨rfl, rfl⟩

theorem locked_miss {k : Int} {order : List (U64 × Nat)} {now : Nat} {e : U64} {m m' : Mgr} {c : Nat} {spawn : Option Nat}
    (h : locked k order now e m = .ok (m', c, spawn)) (hg : Manager.get m.caches e = none) :
    (m.future = none → m'.fresh = m.fresh + 2 ∧ (m'.heap m.fresh).epoch = e ∧ (m'.heap (m.fresh + 1)).epoch = e + 1 ∧
      m'.future = some (m.fresh + 1)) ∧
    ∀ f, m.future = some f → (m.heap f).epoch = e → m'.fresh = m.fresh + 1 ∧ (m'.heap m.fresh).epoch = e + 1 ∧
      m'.future = some m.fresh := by
  rw [locked, hg] at h
  simp only [register] at h
  cases h1 : evictOne k order m with
  | error p => rw [h1] at h; cases h
  | ok m1 =>
    rw [h1] at h
    have a : m1.heap = m.heap ∧ m1.future = m.future ∧ m1.fresh = m.fresh := by
      rw [evictOne] at h1
      by_cases hk : k ≤ m.caches.length
      · rw [if_pos hk] at h1
        cases hv : order.foldl (evictStep m.heap) none with
        | none => rw [hv] at h1; cases h1
        | some v =>
          rw [hv] at h1
          injection h1 with h1
          subst h1
          exact ⟨rfl, rfl, rfl⟩
      · rw [if_neg hk] at h1
        injection h1 with h1
        subst h1
        exact ⟨rfl, rfl, rfl⟩
    obtain ⟨a1, a2, a3⟩ := a
    obtain ⟨T, hT⟩ : ∃ x, x = takeCache e m1 := ⟨_, rfl⟩
    obtain ⟨G, hG⟩ : ∃ x, x = preGenerate e { T.1 with caches := put T.1.caches e T.2 } := ⟨_, rfl⟩
    have hh : (Except.ok (G.1.use T.2 now, T.2, G.2) : Go (Mgr × Nat × Option Nat)) = .ok (m', c, spawn) := by
      rw [hG, hT]
      exact h
    injection hh with hh
    injection hh with hm _
    have hep : ∀ i, (m'.heap i).epoch = (G.1.heap i).epoch := by
      intro i
      rw [← hm]
      simp only [Mgr.use]
      by_cases hi : i = T.2
      · subst hi; rw [Function.update_self]
      · rw [Function.update_of_ne hi]
    have hst : ∀ M : Mgr, (startFuture e M).1.fresh = M.fresh + 1 ∧ ((startFuture e M).1.heap M.fresh).epoch = e + 1 ∧
        (∀ i, i ≠ M.fresh → (startFuture e M).1.heap i = M.heap i) ∧ (startFuture e M).1.future = some M.fresh := by
      intro M
      refine ⟨rfl, ?_, fun i hi => ?_, rfl⟩
      · simp only [startFuture, Mgr.alloc, Function.update_self]
      · simp only [startFuture, Mgr.alloc]
        rw [Function.update_of_ne hi]
    have hfresh : m'.fresh = G.1.fresh ∧ m'.future = G.1.future := by rw [← hm]; exact ⟨rfl, rfl⟩
    constructor
    · intro hf
      have hT' : T = m1.alloc e := by rw [hT, takeCache, a2, hf]
      have hG' : G = startFuture e { T.1 with caches := put T.1.caches e T.2 } := by
        rw [hG, preGenerate]
        have : T.1.future = none := by rw [hT']; simp [Mgr.alloc, a2, hf]
        simp only [this]
      obtain ⟨b1, b2, b3, b4⟩ := hst { T.1 with caches := put T.1.caches e T.2 }
      rw [← hG'] at b1 b2 b3 b4
      have hTf : T.1.fresh = m.fresh + 1 := by rw [hT']; simp [Mgr.alloc, a3]
      rw [hfresh.1, hfresh.2, hep, hep]
      refine ⟨by rw [b1]; show T.1.fresh + 1 = _; omega, ?_, ?_, ?_⟩
      · rw [b3 _ (by show m.fresh ≠ T.1.fresh; omega)]
        show (T.1.heap m.fresh).epoch = e
        rw [hT', ← a3]
        exact alloc_at m1 e
      · rw [← hTf]
        exact b2
      · rw [← hTf]
        exact b4
    · intro f hf he
      have hT' : T = ({ m1 with future := none }, f) := by
        rw [hT, takeCache, a2, hf, a1]
        simp only
        rw [if_pos he]
      have hG' : G = startFuture e { T.1 with caches := put T.1.caches e T.2 } := by
        rw [hG, preGenerate]
        have : T.1.future = none := by rw [hT']
        simp only [this]
      obtain ⟨b1, b2, b3, b4⟩ := hst { T.1 with caches := put T.1.caches e T.2 }
      rw [← hG'] at b1 b2 b3 b4
      have hTf : T.1.fresh = m.fresh := by rw [hT']; exact a3
      rw [hfresh.1, hfresh.2, hep]
      exact ⟨by rw [b1]; show T.1.fresh + 1 = _; omega, by rw [← hTf]; exact b2, by rw [← hTf]; exact b4⟩

/-- requests (newest first) that ask for the same epoch as the one before, or for the next -/
def Ascending (hist : List (U64 × Nat)) : Prop := hist.IsChain fun new old => new.1 = old.1 ∨ new.1 = old.1 + 1

/-- what holds while requests ascend -/
structure AscInv (s : State) : Prop where
  head : ∀ x l, s.hist = x :: l → ∃ f : Nat, s.mgr.future = some f ∧ (s.mgr.heap f).epoch = x.1 + 1
  top : ∀ i < s.mgr.fresh, ∀ f : Nat, s.mgr.future = some f → (s.mgr.heap i).epoch.toNat ≤ (s.mgr.heap f).epoch.toNat
  inj : ∀ i < s.mgr.fresh, ∀ j < s.mgr.fresh, (s.mgr.heap i).epoch = (s.mgr.heap j).epoch → i = j

section
variable {k : Int} {Body : U64 → Go Loaded → Prop}

theorem asc_step {s s' : State} (hi : Inv k Body s) (hA : AheadInv s) (h : AscInv s) (hs : Step k Body s s')
    (hn : ∀ x ∈ s'.hist, HasNext x.1) (hc : Ascending s'.hist) : AscInv s' := by
  have hset : ∀ (i : Nat) (o : Once) (th : List Thread) (st : List Nat) (cr : Bool),
      AscInv { s with mgr := s.mgr.setOnce i o, threads := th, started := st, crashed := cr } := by
    intro i o th st cr
    have hep : ∀ f : Nat, ((s.mgr.setOnce i o).heap f).epoch = (s.mgr.heap f).epoch := fun f => (setOnce_heap s.mgr i o f).1
    refine ⟨fun x l hx => ?_, fun j hj f hf => ?_, fun j hj j' hj' he => ?_⟩
    · obtain ⟨f, h1, h2⟩ := h.head x l hx
      exact ⟨f, h1, (hep f).trans h2⟩
    · show ((s.mgr.setOnce i o).heap j).epoch.toNat ≤ ((s.mgr.setOnce i o).heap f).epoch.toNat
      rw [hep, hep]
      exact h.top j hj f hf
    · have he : ((s.mgr.setOnce i o).heap j).epoch = ((s.mgr.setOnce i o).heap j').epoch := he
      rw [hep, hep] at he
      exact h.inj j hj j' hj' he
  cases hs with
  | call e hcr => exact ⟨h.head, h.top, h.inj⟩
  | lockPanic t e order now p hcr hst ht ho hclk hl => exact ⟨h.head, h.top, h.inj⟩
  | skip t role i r hcr ht hd => exact ⟨h.head, h.top, h.inj⟩
  | start t role i hcr ht hid => exact hset _ _ _ _ _
  | finish t role i r hcr ht hb => exact hset _ _ _ _ _
  | finishPanic t role i p hcr ht hb =>
    exact hset _ _ _ _ _
  | lock t e order now m c spawn hcr hst ht ho hclk hl =>
    have ha := locked_after hi.wf ho hl
    have hne : HasNext e := hn (e, now) List.mem_cons_self
    have hgr := ha.grown.epoch
    by_cases hhit : e ∈ s.mgr.caches.map Prod.fst
    · -- the epoch is there
      obtain ⟨h1, h2⟩ := locked_hit hl hhit
      have hhead : ∀ x l, s.hist = x :: l → x.1 = e := by
        intro x l hx
        have hc : Ascending ((e, now) :: s.hist) := hc
        rw [hx, Ascending, List.isChain_cons_cons] at hc
        rcases hc.1 with hc1 | hc1
        · exact hc1.symm
        · exfalso
          obtain ⟨z, hz, hze⟩ := List.mem_map.mp hhit
          obtain ⟨y, hy, hye⟩ := List.mem_map.mp (hA.sub z hz)
          obtain ⟨f, q1, q2⟩ := h.head x l hx
          obtain ⟨g, q3, q4, _⟩ := hA.next (by rw [hx]; simp)
          rw [q1] at q3
          injection q3 with q3
          subst q3
          have := q4 y hy
          rw [q2, hye, hze] at this
          have hc1 : e = x.1 + 1 := hc1
          rw [hc1] at this
          omega
      refine ⟨?_, ?_, ?_⟩
      · intro x l hx
        injection hx with hx _
        subst hx
        cases hh : s.hist with
        | nil =>
          obtain ⟨z, hz, hze⟩ := List.mem_map.mp hhit
          have := hA.sub z hz
          rw [hh] at this
          cases this
        | cons y l' =>
          obtain ⟨f, q1, q2⟩ := h.head y l' hh
          refine ⟨f, h2.trans q1, ?_⟩
          show (m.heap f).epoch = e + 1
          rw [hgr f (hi.wf.future f q1), q2, hhead y l' hh]
      · intro i hlt f hf
        have hlt : i < s.mgr.fresh := h1 ▸ hlt
        have hf : s.mgr.future = some f := h2 ▸ hf
        show (m.heap i).epoch.toNat ≤ (m.heap f).epoch.toNat
        rw [hgr i hlt, hgr f (hi.wf.future f hf)]
        exact h.top i hlt f hf
      · intro i hlt j hlt' hij
        have hlt : i < s.mgr.fresh := h1 ▸ hlt
        have hlt' : j < s.mgr.fresh := h1 ▸ hlt'
        have hij : (m.heap i).epoch = (m.heap j).epoch := hij
        rw [hgr i hlt, hgr j hlt'] at hij
        exact h.inj i hlt j hlt' hij
    · have hgn : Manager.get s.mgr.caches e = none := by
        unfold Manager.get
        rw [Option.map_eq_none_iff, List.find?_eq_none]
        intro x hx hxe
        simp only [beq_iff_eq] at hxe
        exact hhit (List.mem_map.mpr ⟨x, hx, hxe⟩)
      obtain ⟨hm1, hm2⟩ := locked_miss hl hgn
      cases hh : s.hist with
      | nil =>
        obtain ⟨q1, q2⟩ := hA.start hh
        obtain ⟨r1, r2, r3, r4⟩ := hm1 q1
        rw [q2] at r1 r2 r3 r4
        have hto : (m.heap 1).epoch.toNat = e.toNat + 1 := by rw [r3]; exact next_toNat hne
        have hcase : ∀ i < m.fresh, i = 0 ∨ i = 1 := fun i hi => by rw [r1] at hi; omega
        refine ⟨?_, ?_, ?_⟩
        · intro x l hx
          injection hx with hx _
          subst hx
          exact ⟨1, r4, r3⟩
        · intro i hlt f hf
          have hf : m.future = some f := hf
          rw [r4] at hf
          injection hf with hf
          subst hf
          show (m.heap i).epoch.toNat ≤ (m.heap 1).epoch.toNat
          rw [hto]
          rcases hcase i hlt with rfl | rfl
          · rw [r2]; omega
          · rw [hto]
        · intro i hlt j hlt' hij
          have hij : (m.heap i).epoch = (m.heap j).epoch := hij
          have hij := congrArg BitVec.toNat hij
          rcases hcase i hlt with rfl | rfl <;> rcases hcase j hlt' with rfl | rfl
          · rfl
          · rw [hto, r2] at hij; omega
          · rw [hto, r2] at hij; omega
          · rfl
      | cons y l' =>
        have hc : Ascending ((e, now) :: s.hist) := hc
        rw [hh, Ascending, List.isChain_cons_cons] at hc
        obtain ⟨f, q1, q2⟩ := h.head y l' hh
        have hye : e = y.1 + 1 := by
          rcases hc.1 with hc1 | hc1
          · exact absurd (hA.newest y l' hh) (by rw [← hc1]; exact hhit)
          · exact hc1
        have hfe : (s.mgr.heap f).epoch = e := by rw [q2, hye]
        obtain ⟨r1, r2, r3⟩ := hm2 f q1 hfe
        have hto : (m.heap s.mgr.fresh).epoch.toNat = e.toNat + 1 := by rw [r2]; exact next_toNat hne
        have hold : ∀ i < s.mgr.fresh, (m.heap i).epoch.toNat ≤ e.toNat := by
          intro i hlt
          rw [hgr i hlt, ← hfe]
          exact h.top i hlt f q1
        have hcase : ∀ i < m.fresh, i < s.mgr.fresh ∨ i = s.mgr.fresh := fun i hi => by rw [r1] at hi; omega
        refine ⟨?_, ?_, ?_⟩
        · intro x l hx
          injection hx with hx _
          subst hx
          exact ⟨_, r3, r2⟩
        · intro i hlt g hg
          have hg : m.future = some g := hg
          rw [r3] at hg
          injection hg with hg
          subst hg
          show (m.heap i).epoch.toNat ≤ (m.heap s.mgr.fresh).epoch.toNat
          rw [hto]
          rcases hcase i hlt with hlt | rfl
          · have := hold i hlt; omega
          · rw [hto]
        · intro i hlt j hlt' hij
          have hij : (m.heap i).epoch = (m.heap j).epoch := hij
          rcases hcase i hlt with hlt | rfl <;> rcases hcase j hlt' with hlt' | rfl
          · rw [hgr i hlt, hgr j hlt'] at hij
            exact h.inj i hlt j hlt' hij
          · have := hold i hlt; rw [hij, hto] at this; omega
          · have := hold j hlt'; rw [← hij, hto] at this; omega
          · rfl

theorem asc_reach {s : State} (h : Reach k Body s) (hn : ∀ x ∈ s.hist, HasNext x.1) (hc : Ascending s.hist) : AscInv s := by
  induction h with
  | init => exact ⟨by simp [init], by simp [init, new], by simp [init, new]⟩
  | @step s s' hr hs ih =>
    have hn' : ∀ x ∈ s.hist, HasNext x.1 := by
      intro x hx
      rcases hist_step hs with h' | ⟨y, h'⟩
      · exact hn x (h' ▸ hx)
      · exact hn x (h' ▸ List.mem_cons_of_mem _ hx)
    refine asc_step (inv_reach hr) (ahead_reach hr hn') (ih hn' ?_) hs hn hc
    rcases hist_step hs with h' | ⟨y, h'⟩
    · exact h' ▸ hc
    · rw [h', Ascending] at hc
      exact hc.tail

/-- **C68** While every request is for the epoch of the request before or for the next one, no epoch is generated twice. -/
theorem C68_distinct {s : State} (h : Reach k Body s) (hn : ∀ x ∈ s.hist, HasNext x.1) (hc : Ascending s.hist) :
    (s.started.map fun i => (s.mgr.heap i).epoch).Nodup := by
  have hi := inv_reach h
  have ha := asc_reach h hn hc
  refine List.Nodup.map_on ?_ hi.nodup
  intro x hx y hy hxy
  exact ha.inj x (hi.startedLt x hx) y (hi.startedLt y hy) hxy

end

/-- requests for the epochs 7 and 8: the hypotheses are met, the second request gets the cache that was generated ahead, and three
epochs were generated in all -/
example : ∃ s, Reach 3 (fun _ o => o = .ok ⟨[], []⟩) s ∧ Ascending s.hist ∧ s.hist.map Prod.fst = [8, 7] ∧ s.mgr.fresh = 3 ∧
    s.threads[2]? = some (.waiting (some 8) 1) ∧ s.started = [1, 0] := by
  have h1 := Reach.step (k := 3) (Body := fun _ o => o = .ok ⟨[], []⟩) .init (.call _ 7 rfl)
  have h2 := h1.step (.lock _ 0 7 [] 5 _ 0 (some 1) rfl rfl rfl (List.Perm.refl _) (by decide) rfl)
  have h3 := h2.step (.start _ 0 (some 7) 0 rfl rfl rfl)
  have h4 := h3.step (.finish _ 0 (some 7) 0 ⟨[], []⟩ rfl rfl rfl)
  have h5 := h4.step (.start _ 1 none 1 rfl rfl rfl)
  have h6 := h5.step (.call _ 8 rfl)
  have h7 := h6.step (.lock _ 2 8 [(7, 0)] 6 _ 1 (some 2) rfl rfl rfl (List.Perm.refl _) (by decide) rfl)
  exact ⟨_, h7, by simp [Ascending, init], rfl, rfl, rfl, rfl⟩

/-- Ascending order is needed: after the epochs 7 and 3, epoch 4 is not generated ahead. -/
example : ∃ s, Reach 3 (fun _ o => o = .ok ⟨[], []⟩) s ∧ s.hist.map Prod.fst = [3, 7] ∧ ∀ i < s.mgr.fresh, (s.mgr.heap i).epoch ≠ 4 := by
  have h1 := Reach.step (k := 3) (Body := fun _ o => o = .ok ⟨[], []⟩) .init (.call _ 7 rfl)
  have h2 := h1.step (.lock _ 0 7 [] 5 _ 0 (some 1) rfl rfl rfl (List.Perm.refl _) (by decide) rfl)
  have h3 := h2.step (.call _ 3 rfl)
  have h4 := h3.step (.lock _ 2 3 [(7, 0)] 6 _ 2 none rfl rfl rfl (List.Perm.refl _) (by decide) rfl)
  refine ⟨_, h4, rfl, ?_⟩
  intro i hi
  have hi : i < 3 := hi
  match i, hi with
  | 0, _ => exact fun h => absurd (show (7 : U64) = 4 from h) (by decide)
  | 1, _ => exact fun h => absurd (show (8 : U64) = 4 from h) (by decide)
  | 2, _ => exact fun h => absurd (show (3 : U64) = 4 from h) (by decide)

end Verif.Props
