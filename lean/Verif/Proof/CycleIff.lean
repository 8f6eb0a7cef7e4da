import Verif.Proof.Orbit
import Mathlib.Data.List.Nodup
import Mathlib.Data.List.Perm.Subperm
import Mathlib.Data.Int.ModEq
import Mathlib.Data.Fintype.Card

/-! # The walk closes after `T` steps iff the edges joined to the first one form a simple cycle of `T` edges -/

set_option autoImplicit false

namespace Verif.Orbit

open Spec

variable {E N : Type}

/-- position values of an edge list -/
def vals (u v : E → N) (edges : List E) (k : Nat) : Option N :=
  (edges[k / 2]?).map (if k % 2 = 0 then u else v)

theorem half_inj {f : Nat → N} {L : Nat} {T : Nat} (h : Closed f L T) {a b : Nat} (ha : a < T) (hb : b < T)
    (he : pos f L a / 2 = pos f L b / 2) : a = b := by
  by_contra hne
  have hab : pos f L a ≠ pos f L b := fun e => hne (pos_inj h.ret ha hb e)
  have ht : pos f L a = tau (pos f L b) := by
    rcases tau_cases (pos f L b) with hh | hh <;> omega
  have hma := pos_mod (f := f) (L := L) a
  have hmb := pos_mod (f := f) (L := L) b
  have hpar : a % 2 ≠ b % 2 := by
    rw [← hma, ← hmb, ht, tau_mod]; omega
  by_cases hb0 : b = 0
  · -- use a
    have : pos f L b = qos f L (a - 1) := by
      have h1 : tau (qos f L (a - 1)) = pos f L a := by rw [qos_tau, show a - 1 + 1 = a by omega]
      have := congrArg tau (h1.trans ht)
      rw [tau_tau, tau_tau] at this; exact this.symm
    exact qos_ne_pos h.live ((a - 1) / 2) (a - 1) b (by omega) hb (by omega) this.symm
  · have : pos f L a = qos f L (b - 1) := by
      have h1 : tau (qos f L (b - 1)) = pos f L b := by rw [qos_tau, show b - 1 + 1 = b by omega]
      rw [ht, ← h1, tau_tau]
    rcases Nat.lt_or_ge a (b - 1) with hl | hl
    · exact qos_ne_pos h.live ((b - 1 - a) / 2) (b - 1) a (by omega) ha (by omega) this.symm
    · exact qos_ne_pos h.live ((a - (b - 1)) / 2) (b - 1) a (by omega) ha (by omega) this.symm

theorem closed_join {f : Nat → N} {L : Nat} {T : Nat} (h : Closed f L T) {t : Nat} (ht : t < T) :
    f (2 * (pos f L t / 2) + t % 2) = f (2 * (pos f L (t + 1) / 2) + t % 2) := by
  have hp := (sig_partner (h.live t ht)).1
  have h1 : 2 * (pos f L t / 2) + t % 2 = pos f L t := by
    have := pos_mod (f := f) (L := L) t; omega
  have h2 : 2 * (pos f L (t + 1) / 2) + t % 2 = sig f L (pos f L t) := by
    have h3 := pos_mod (f := f) (L := L) t
    have h4 := sig_mod (f := f) (L := L) (pos f L t)
    rw [pos_succ, tau_div]; omega
  rw [h1, h2]; exact hp.2.2.2.2.symm

theorem closed_distinct {f : Nat → N} {L : Nat} {T : Nat} (h : Closed f L T) {s t : Nat} (hs : s < T) (ht : t < T) (hp : s % 2 = t % 2)
    (he : f (2 * (pos f L s / 2) + s % 2) = f (2 * (pos f L t / 2) + t % 2)) : s = t := by
  have h1 : 2 * (pos f L t / 2) + t % 2 = pos f L t := by have := pos_mod (f := f) (L := L) t; omega
  have h2 : 2 * (pos f L s / 2) + s % 2 = pos f L s := by have := pos_mod (f := f) (L := L) s; omega
  rw [h1, h2] at he
  have hL : 0 < L := by have := h.ret.le; have := h.ret.pos; omega
  by_contra hne
  have hne' : pos f L t ≠ pos f L s := fun e => hne (pos_inj h.ret hs ht e.symm)
  have hpart : Partner f L (pos f L s) (pos f L t) :=
    ⟨pos_lt hL _, pos_lt hL _, hne', by rw [pos_mod, pos_mod, hp], he.symm⟩
  have := (sig_partner (h.live s hs)).2 _ hpart
  rcases Nat.lt_or_ge s t with hl | hl
  · exact qos_ne_pos h.live ((t - s) / 2) s t hs ht (by omega) this.symm
  · exact qos_ne_pos h.live ((s - t) / 2) s t hs ht (by omega) this.symm

theorem filterMap_range (edges : List E) : (List.range edges.length).filterMap (fun n => edges[n]?) = edges := by
  have e : (List.range edges.length).map (fun n => edges[n]?) = edges.map some := by
    apply List.ext_getElem?
    intro i
    simp only [List.getElem?_map]
    by_cases hi : i < edges.length
    · rw [List.getElem?_range hi]; simp only [Option.map_some]; rw [List.getElem?_eq_getElem (by omega)]; rfl
    · rw [List.getElem?_eq_none (by simp; omega), List.getElem?_eq_none (by omega)]; rfl
  have h := congrArg (List.filterMap id) e
  rw [List.filterMap_map, List.filterMap_map] at h
  rw [show ((id : Option E → Option E) ∘ fun n => edges[n]?) = fun n => edges[n]? from rfl] at h
  rw [h, show ((id : Option E → Option E) ∘ some) = some from rfl, List.filterMap_some]

theorem component_of_closed (u v : E → N) (edges : List E) {T : Nat}
    (h : Closed (vals u v edges) edges.length T) : FirstOnCycle u v edges T := by
  obtain ⟨f, hf⟩ : ∃ f, f = vals u v edges := ⟨_, rfl⟩
  obtain ⟨L, hLd⟩ : ∃ L, L = edges.length := ⟨_, rfl⟩
  rw [← hf, ← hLd] at h
  have hT : 0 < T := h.ret.pos
  have hL : 0 < L := by have := h.ret.le; omega
  have hlt : ∀ t, pos f L t / 2 < edges.length := fun t => by have := pos_lt (f := f) hL t; omega
  have heven : T % 2 = 0 := by
    have := pos_mod (f := f) (L := L) T
    rw [h.ret.ret] at this; omega
  let g : Nat → E := fun t => edges[pos f L t / 2]'(hlt t)
  have hget : ∀ t x, ((List.range T).map g)[t]? = some x → t < T ∧ edges[pos f L t / 2]? = some x := by
    intro t x hx
    rw [List.getElem?_map] at hx
    by_cases htl : t < T
    · rw [List.getElem?_range htl] at hx
      simp only [Option.map_some, Option.some.injEq] at hx
      exact ⟨htl, by rw [← hx]; exact List.getElem?_eq_getElem (hlt t)⟩
    · rw [List.getElem?_eq_none (by simp; omega)] at hx; simp at hx
  have hval : ∀ n s x, s < 2 → edges[n]? = some x → f (2 * n + s) = some ((if s = 0 then u else v) x) := by
    intro n s x hs hx
    rw [hf, vals, show (2 * n + s) / 2 = n by omega, show (2 * n + s) % 2 = s by omega, hx]; rfl
  obtain ⟨idxs, hidxs⟩ : ∃ idxs, idxs = (List.range T).map fun t => pos f L t / 2 := ⟨_, rfl⟩
  have hmem : ∀ t, pos f L t / 2 ∈ idxs := by
    intro t
    -- the orbit is periodic
    have hper : ∀ t, pos f L (t + T) = pos f L t := by
      intro t
      rw [pos, Function.iterate_add_apply]
      show (step f L)^[t] (pos f L T) = _
      rw [h.ret.ret]; rfl
    have hmod : ∀ q r, pos f L (r + T * q) = pos f L r := by
      intro q r
      induction q with
      | zero => rfl
      | succ q ih => rw [Nat.mul_succ, ← Nat.add_assoc, hper, ih]
    have := hmod (t / T) (t % T)
    rw [Nat.mod_add_div] at this
    rw [this, hidxs]
    exact List.mem_map.mpr ⟨t % T, List.mem_range.mpr (Nat.mod_lt _ hT), rfl⟩
  have hnodup : idxs.Nodup := by
    rw [hidxs]
    refine List.Nodup.map_on ?_ List.nodup_range
    intro a ha b hb hab
    exact half_inj h (List.mem_range.1 ha) (List.mem_range.1 hb) hab
  have hcyc : idxs.filterMap (fun n => edges[n]?) = (List.range T).map g := by
    rw [hidxs, List.filterMap_map, ← List.filterMap_eq_map]
    refine List.filterMap_congr ?_
    intro t _
    exact List.getElem?_eq_getElem (hlt t)
  refine ⟨(List.range T).map g, ((List.range L).filter (fun n => n ∉ idxs)).filterMap (fun n => edges[n]?), by simp, ?_,
    ⟨by simpa using hT, by simpa using heven, ?_, ?_, ?_, ?_⟩, ?_, ?_⟩
  · have hp : (idxs ++ (List.range L).filter (fun n => n ∉ idxs)).Perm (List.range L) := by
      rw [List.perm_ext_iff_of_nodup]
      · intro n
        simp only [List.mem_append, List.mem_filter, List.mem_range, decide_eq_true_eq]
        constructor
        · rintro (hn | hn)
          · rw [hidxs] at hn
            obtain ⟨t, _, rfl⟩ := List.mem_map.mp hn
            have := hlt t
            omega
          · exact hn.1
        · intro hn
          by_cases hi : n ∈ idxs
          · exact Or.inl hi
          · exact Or.inr ⟨hn, hi⟩
      · refine List.Nodup.append hnodup (List.nodup_range.filter _) ?_
        intro n h1 h2
        have := (List.mem_filter.mp h2).2
        simp only [decide_eq_true_eq] at this
        exact this h1
      · exact List.nodup_range
    have := hp.filterMap (fun n => edges[n]?)
    rw [List.filterMap_append, hcyc] at this
    refine this.trans ?_
    rw [hLd, filterMap_range]
  · intro t a b ha hb
    obtain ⟨h1, ha⟩ := hget _ _ ha
    obtain ⟨h2, hb⟩ := hget _ _ hb
    have := closed_join h h1
    rw [show 2 * t % 2 = 0 by omega, hval _ 0 _ (by omega) ha, hval _ 0 _ (by omega) hb] at this
    simpa using this
  · intro t a b ha hb
    obtain ⟨h1, ha⟩ := hget _ _ ha
    obtain ⟨h2, hb⟩ := hget _ _ hb
    have := closed_join h h1
    have hp : pos f L ((2 * t + 2) % ((List.range T).map g).length) = pos f L (2 * t + 2) := by
      simp only [List.length_map, List.length_range]
      rcases Nat.lt_or_ge (2 * t + 2) T with hl | hl
      · rw [Nat.mod_eq_of_lt hl]
      · have : 2 * t + 2 = T := by omega
        rw [this, Nat.mod_self, h.ret.ret]; rfl
    rw [hp] at hb
    rw [show (2 * t + 1) % 2 = 1 by omega, hval _ 1 _ (by omega) ha, hval _ 1 _ (by omega) hb] at this
    simpa using this
  · intro s t a b ha hb hab
    obtain ⟨h1, ha⟩ := hget _ _ ha
    obtain ⟨h2, hb⟩ := hget _ _ hb
    have := closed_distinct h h1 h2 (by omega) (by
      rw [show 2 * s % 2 = 0 by omega, show 2 * t % 2 = 0 by omega, hval _ 0 _ (by omega) ha, hval _ 0 _ (by omega) hb]
      simpa using hab)
    omega
  · intro s t a b ha hb hab
    obtain ⟨h1, ha⟩ := hget _ _ ha
    obtain ⟨h2, hb⟩ := hget _ _ hb
    have := closed_distinct h h1 h2 (by omega) (by
      rw [show (2 * s + 1) % 2 = 1 by omega, show (2 * t + 1) % 2 = 1 by omega, hval _ 1 _ (by omega) ha, hval _ 1 _ (by omega) hb]
      simpa using hab)
    omega
  · intro e he
    refine List.mem_map.mpr ⟨0, List.mem_range.mpr hT, ?_⟩
    rw [List.head?_eq_getElem?, List.getElem?_eq_getElem (by omega)] at he
    have h0 : pos f L 0 / 2 = 0 := by rw [pos_zero]
    have : edges[pos f L 0 / 2]? = some (g 0) := List.getElem?_eq_getElem (hlt 0)
    rw [h0, List.getElem?_eq_getElem (by omega), he] at this
    exact (Option.some.inj this).symm
  · -- an edge that meets the cycle is on it
    have key : ∀ (t n s : Nat) (a b : E), t < T → s < 2 → edges[pos f L t / 2]? = some a → edges[n]? = some b → n ∉ idxs →
        (if s = 0 then u else v) a ≠ (if s = 0 then u else v) b := by
      intro t n s a b ht hs ha hb hn hab
      have hnL : n < L := by
        by_contra hge
        rw [List.getElem?_eq_none (by omega)] at hb; simp at hb
      have hpl := pos_lt (f := f) hL t
      have hne : 2 * n + s ≠ 2 * (pos f L t / 2) + s := by
        intro e
        apply hn
        rw [show n = pos f L t / 2 by omega]
        exact hmem t
      have hpart : Partner f L (2 * (pos f L t / 2) + s) (2 * n + s) :=
        ⟨by omega, by omega, hne, by omega, by rw [hval _ s _ hs ha, hval _ s _ hs hb, hab]⟩
      by_cases hst : s = t % 2
      · have e : 2 * (pos f L t / 2) + s = pos f L t := by have := pos_mod (f := f) (L := L) t; omega
        rw [e] at hpart
        have := (sig_partner (h.live t ht)).2 _ hpart
        apply hn
        have h1 := hmem (t + 1)
        rw [pos_succ, tau_div, ← this, show (2 * n + s) / 2 = n by omega] at h1
        exact h1
      · -- the other end of the edge is where the step before came from
        obtain ⟨t', ht', hpt⟩ : ∃ t', t' < T ∧ pos f L (t' + 1) = pos f L t := by
          by_cases h0 : t = 0
          · exact ⟨T - 1, by omega, by rw [Nat.sub_add_cancel hT, h.ret.ret, h0]; rfl⟩
          · exact ⟨t - 1, by omega, by rw [Nat.sub_add_cancel (by omega)]⟩
        have e : 2 * (pos f L t / 2) + s = sig f L (pos f L t') := by
          have h1 : tau (sig f L (pos f L t')) = pos f L t := by rw [← pos_succ, hpt]
          have h2 : sig f L (pos f L t') = tau (pos f L t) := by rw [← h1, tau_tau]
          have h3 := pos_mod (f := f) (L := L) t
          rw [h2]
          rcases tau_cases (pos f L t) with hh | hh <;> omega
        rw [e] at hpart
        have hs2 := sig_partner (h.live t' ht')
        have hpp := hs2.1.symm
        have hu : ∀ k, Partner f L (sig f L (pos f L t')) k → k = pos f L t' := uniq_partner hs2.1 hs2.2
        have := hu _ hpart
        apply hn
        have h1 := hmem t'
        rw [← this, show (2 * n + s) / 2 = n by omega] at h1
        exact h1
    intro a ha b hb
    obtain ⟨t, ht, rfl⟩ := List.mem_map.mp ha
    obtain ⟨n, hn, hb⟩ := List.mem_filterMap.mp hb
    have hn := (List.mem_filter.mp hn).2
    simp only [decide_eq_true_eq] at hn
    have hga := List.getElem?_eq_getElem (hlt t)
    refine ⟨?_, ?_⟩
    · simpa using key t n 0 _ b (List.mem_range.mp ht) (by omega) hga hb hn
    · simpa using key t n 1 _ b (List.mem_range.mp ht) (by omega) hga hb hn

/-- A cycle indexed by the integers: `A x` is the edge at place `x`, `g s n` the value of endpoint `s` of edge `n`. -/
structure CycZ (g : Int → Nat → N) (L T : Nat) (A : Int → Nat) : Prop where
  pos : 0 < T
  even : T % 2 = 0
  lt : ∀ x, A x < L
  surj : ∃ x, A x = 0
  alone : ∀ n, n < L → (∃ x, A x = n) ∨ ∀ x s : Int, (s = 0 ∨ s = 1) → g s n ≠ g s (A x)
  inj : ∀ x y, A x = A y → (T : Int) ∣ x - y
  per : ∀ x y, (T : Int) ∣ x - y → A x = A y
  join : ∀ x, g (x % 2) (A x) = g (x % 2) (A (x + 1))
  dist : ∀ x y, x % 2 = y % 2 → g (x % 2) (A x) = g (x % 2) (A y) → (T : Int) ∣ x - y

theorem CycZ.rebase {g : Int → Nat → N} {L T : Nat} {A : Int → Nat} (h : CycZ g L T A) :
    ∃ B, CycZ g L T B ∧ B 0 = 0 := by
  obtain ⟨r, hr⟩ := h.surj
  rcases Int.emod_two_eq_zero_or_one r with hpar | hpar
  · refine ⟨fun x => A (x + r), ⟨h.pos, h.even, fun x => h.lt _, ⟨0, by simpa using hr⟩, ?_, ?_, ?_, ?_, ?_⟩, by simpa using hr⟩
    · intro n hn
      rcases h.alone n hn with ⟨x, hx⟩ | hx
      · exact Or.inl ⟨x - r, by simpa using hx⟩
      · exact Or.inr fun x => hx (x + r)
    · intro x y hxy
      have := h.inj _ _ hxy
      rwa [show x + r - (y + r) = x - y by omega] at this
    · intro x y hxy
      exact h.per _ _ (by rwa [show x + r - (y + r) = x - y by omega])
    · intro x
      have := h.join (x + r)
      rw [show (x + r) % 2 = x % 2 by omega, show x + r + 1 = x + 1 + r by omega] at this
      exact this
    · intro x y hp hxy
      have := h.dist (x + r) (y + r) (by omega) (by rw [show (x + r) % 2 = x % 2 by omega]; exact hxy)
      rwa [show x + r - (y + r) = x - y by omega] at this
  · refine ⟨fun x => A (r - x), ⟨h.pos, h.even, fun x => h.lt _, ⟨0, by simpa using hr⟩, ?_, ?_, ?_, ?_, ?_⟩, by simpa using hr⟩
    · intro n hn
      rcases h.alone n hn with ⟨x, hx⟩ | hx
      · exact Or.inl ⟨r - x, by simpa using hx⟩
      · exact Or.inr fun x => hx (r - x)
    · intro x y hxy
      have := h.inj _ _ hxy
      rw [show r - x - (r - y) = -(x - y) by omega] at this
      exact (Int.dvd_neg.1 this)
    · intro x y hxy
      refine h.per _ _ ?_
      rw [show r - x - (r - y) = -(x - y) by omega]; exact Int.dvd_neg.2 hxy
    · intro x
      have := h.join (r - x - 1)
      rw [show (r - x - 1) % 2 = x % 2 by omega, show r - x - 1 + 1 = r - x by omega, show r - x - 1 = r - (x + 1) by omega] at this
      exact this.symm
    · intro x y hp hxy
      have h1 := h.join (r - x - 1)
      rw [show (r - x - 1) % 2 = x % 2 by omega, show r - x - 1 + 1 = r - x by omega] at h1
      have h2 := h.join (r - y - 1)
      rw [show (r - y - 1) % 2 = x % 2 by omega, show r - y - 1 + 1 = r - y by omega] at h2
      have := h.dist (r - x - 1) (r - y - 1) (by omega) (by
        rw [show (r - x - 1) % 2 = x % 2 by omega, h1, h2]; exact hxy)
      rw [show r - x - 1 - (r - y - 1) = -(x - y) by omega] at this
      exact Int.dvd_neg.1 this

theorem CycZ.closed {f : Nat → N} {L T : Nat} {A : Int → Nat} (hTL : T ≤ L)
    (h : CycZ (fun s n => f (2 * n + s.toNat)) L T A) (h0 : A 0 = 0) : Closed f L T := by
  have hL := h.pos
  have hev := h.even
  have hsig : ∀ t : Nat, Partner f L (2 * A t + t % 2) (2 * A (t + 1) + t % 2) ∧
      ∀ k, Partner f L (2 * A t + t % 2) k → k = 2 * A (t + 1) + t % 2 := by
    intro t
    have hA := h.lt t
    have hA1 := h.lt (t + 1)
    have hne : A (t + 1) ≠ A t := by
      intro e
      have := h.inj _ _ e
      rw [show ((t : Int) + 1 - t) = 1 by omega] at this
      have := Int.le_of_dvd (by omega) this
      omega
    have htn : ((t : Int) % 2).toNat = t % 2 := by omega
    refine ⟨⟨by omega, by omega, by omega, by omega, ?_⟩, ?_⟩
    · have := h.join t
      simp only [htn] at this
      exact this.symm
    · rintro k ⟨_, hk, hkne, hkp, hkf⟩
      obtain ⟨n, hn⟩ : ∃ n, k = 2 * n + t % 2 := ⟨k / 2, by omega⟩
      subst hn
      rcases h.alone n (by omega) with ⟨m, hm⟩ | hm
      swap
      · have := hm t ((t : Int) % 2) (by omega)
        simp only [htn] at this
        exact absurd hkf this
      subst hm
      by_cases hmp : m % 2 = (t : Int) % 2
      · have := h.dist m t hmp (by rw [hmp]; simp only [htn]; exact hkf)
        have := h.per _ _ this
        rw [this] at hkne; exact absurd rfl hkne
      · have hmp' : (m - 1) % 2 = (t : Int) % 2 := by omega
        have h1 := h.join (m - 1)
        rw [show m - 1 + 1 = m by omega] at h1
        have := h.dist (m - 1) t hmp' (by rw [h1, hmp']; simp only [htn]; exact hkf)
        have := h.per m (t + 1) (by rwa [show m - ((t : Int) + 1) = m - 1 - t by omega])
        rw [this]
  have hpos : ∀ t : Nat, Orbit.pos f L t = 2 * A t + t % 2 := by
    intro t
    induction t with
    | zero => simp [h0]
    | succ t ih =>
      rw [pos_succ, ih, sig_of (hsig t).1 (hsig t).2]
      rcases tau_cases (2 * A (t + 1) + t % 2) with hh | hh
      · rw [hh.2]; push_cast; omega
      · rw [hh.2]; push_cast; omega
  refine ⟨⟨hL, by omega, ?_, ?_⟩, ?_⟩
  · rw [hpos, h.per T 0 (by simp), h0]; omega
  · intro t h1 h2 h3
    rw [hpos] at h3
    have : A t = A 0 := by omega
    have := h.inj _ _ this
    have := Int.le_of_dvd (by omega) this
    omega
  · intro t _
    rw [hpos, sig_of (hsig t).1 (hsig t).2]
    exact (hsig t).1.2.2.1

theorem perm_order {l₁ l₂ : List E} (h : l₁.Perm l₂) :
    ∃ o : Nat → Nat, (∀ t, t < l₁.length → o t < l₁.length ∧ l₁[t]? = l₂[o t]?) ∧
      (∀ s t, s < l₁.length → t < l₁.length → o s = o t → s = t) := by
  induction h with
  | nil => exact ⟨id, by simp, by simp⟩
  | cons x _ ih =>
    obtain ⟨o, h1, h2⟩ := ih
    refine ⟨fun t => match t with | 0 => 0 | t + 1 => o t + 1, ?_, ?_⟩
    · intro t ht
      cases t with
      | zero => simp
      | succ t => simp only [List.length_cons, Nat.add_lt_add_iff_right] at ht ⊢; simpa using h1 t ht
    · intro s t hs ht hst
      cases s with
      | zero => cases t with
        | zero => rfl
        | succ t => exact absurd hst (by simp)
      | succ s => cases t with
        | zero => exact absurd hst (by simp)
        | succ t =>
          simp only [List.length_cons, Nat.add_lt_add_iff_right] at hs ht
          simp only [Nat.add_right_cancel_iff] at hst ⊢
          exact h2 _ _ hs ht hst
  | swap x y l =>
    refine ⟨fun t => if t = 0 then 1 else if t = 1 then 0 else t, ?_, ?_⟩
    · intro t ht
      rcases t with _ | _ | t <;> simp_all
    · intro s t _ _ hst
      simp only at hst
      split at hst <;> split at hst <;> (try split at hst) <;> (try split at hst) <;> omega
  | trans h _ ih1 ih2 =>
    obtain ⟨o1, a1, b1⟩ := ih1
    obtain ⟨o2, a2, b2⟩ := ih2
    have hl := h.length_eq
    refine ⟨fun t => o2 (o1 t), ?_, ?_⟩
    · intro t ht
      have h1 := a1 t ht
      have h2 := a2 (o1 t) (by omega)
      exact ⟨by have := h2.1; simp only; omega, h1.2.trans h2.2⟩
    · intro s t hs ht hst
      exact b1 s t hs ht (b2 _ _ (by have := a1 s hs; omega) (by have := a1 t ht; omega) hst)

theorem closed_of_component (u v : E → N) (edges : List E) {T : Nat} (h : FirstOnCycle u v edges T) :
    Closed (vals u v edges) edges.length T := by
  obtain ⟨cyc, rest, hT, hperm, hc, hfirst, hrest⟩ := h
  have hlen := hperm.length_eq
  rw [List.length_append] at hlen
  obtain ⟨o, ho', hinj'⟩ := perm_order hperm
  rw [List.length_append] at ho' hinj'
  rw [← hlen, ← hT]
  have ho : ∀ t, t < cyc.length → o t < cyc.length + rest.length ∧ cyc[t]? = edges[o t]? := by
    intro t ht
    have := ho' t (by omega)
    rw [List.getElem?_append_left ht] at this
    exact this
  have hinj : ∀ s t, s < cyc.length → t < cyc.length → o s = o t → s = t := fun s t hs ht h => hinj' s t (by omega) (by omega) h
  set L := cyc.length with hLd
  have hL := hc.pos
  have hev := hc.even
  have hsurj : ∀ n, n < L + rest.length → ∃ t, t < L + rest.length ∧ o t = n := by
    let F : Fin (L + rest.length) → Fin (L + rest.length) := fun t => ⟨o t, (ho' t t.2).1⟩
    have hF : Function.Injective F := by
      intro a b hab
      have := hinj' a b a.2 b.2 (by simpa [F] using hab)
      exact Fin.ext this
    have := Finite.surjective_of_injective hF
    intro n hn
    obtain ⟨t, ht⟩ := this ⟨n, hn⟩
    exact ⟨t, t.2, by simpa [F] using ht⟩
  -- values along the cycle
  have hv : ∀ t s, t < L → s < 2 → ∃ a, cyc[t]? = some a ∧ vals u v edges (2 * o t + s) = some ((if s = 0 then u else v) a) := by
    intro t s ht hs
    refine ⟨cyc[t], List.getElem?_eq_getElem ht, ?_⟩
    rw [vals, show (2 * o t + s) / 2 = o t by omega, show (2 * o t + s) % 2 = s by omega, ← (ho t ht).2,
      List.getElem?_eq_getElem ht]; rfl
  have hLi : (L : Int) ≠ 0 := by omega
  have hmodlt : ∀ x : Int, (x % L).toNat < L := by
    intro x
    have h1 := Int.emod_nonneg x hLi
    have h2 := Int.emod_lt_of_pos x (show (0 : Int) < L by omega)
    omega
  have hmod2 : ∀ x : Int, ((x % L).toNat : Int) % 2 = x % 2 := by
    intro x
    have h1 := Int.emod_nonneg x hLi
    rw [Int.toNat_of_nonneg h1]
    exact Int.emod_emod_of_dvd x (by omega)
  have hdvd : ∀ x y : Int, (x % L).toNat = (y % L).toNat → (L : Int) ∣ x - y := by
    intro x y hxy
    have h1 := Int.emod_nonneg x hLi
    have h2 := Int.emod_nonneg y hLi
    exact Int.ModEq.dvd (by unfold Int.ModEq; omega)
  have hsucc : ∀ x : Int, ((x + 1) % L).toNat = ((x % L).toNat + 1) % L := by
    intro x
    have h1 := Int.emod_nonneg x hLi
    have h3 := Int.emod_nonneg (x + 1) hLi
    have : (((x + 1) % L).toNat : Int) = (((x % L).toNat + 1 : Nat) : Int) % L := by
      rw [Int.toNat_of_nonneg h3]
      push_cast
      rw [Int.toNat_of_nonneg h1, Int.emod_add_emod]
    have h4 := Int.natCast_mod ((x % L).toNat + 1) L
    omega
  have htmod : ∀ t : Nat, t < L → ((t : Int) % L).toNat = t := by
    intro t ht
    rw [Int.emod_eq_of_lt (by omega) (by omega)]; simp
  -- an edge that is not on the cycle does not meet it
  have hoff : ∀ t, L ≤ t → t < L + rest.length → ∀ t', t' < L → ∀ s, s < 2 →
      vals u v edges (2 * o t + s) ≠ vals u v edges (2 * o t' + s) := by
    intro t h1 h2 t' h3 s hs heq
    obtain ⟨a, ha, hva⟩ := hv t' s h3 hs
    have hb := (ho' t h2).2
    rw [List.getElem?_append_right h1, ← hLd, List.getElem?_eq_getElem (by omega)] at hb
    have hvb : vals u v edges (2 * o t + s) = some ((if s = 0 then u else v) rest[t - L]) := by
      rw [vals, show (2 * o t + s) / 2 = o t by omega, show (2 * o t + s) % 2 = s by omega, ← hb]; rfl
    rw [hva, hvb] at heq
    have := hrest a (List.mem_of_getElem? ha) rest[t - L] (List.getElem_mem _)
    have hs' : s = 0 ∨ s = 1 := by omega
    rcases hs' with rfl | rfl
    · exact this.1 (Option.some.inj heq).symm
    · exact this.2 (Option.some.inj heq).symm
  have hzero : ∃ t, t < L ∧ o t = 0 := by
    obtain ⟨t, ht, h0⟩ := hsurj 0 (by omega)
    refine ⟨t, ?_, h0⟩
    by_contra hge
    have hb := (ho' t ht).2
    rw [h0, List.getElem?_append_right (by omega), ← hLd, List.getElem?_eq_getElem (by omega)] at hb
    have hm := hfirst _ (by rw [List.head?_eq_getElem?]; exact hb.symm)
    exact (hrest _ hm _ (List.getElem_mem _)).1 rfl
  have hZ : CycZ (fun s n => vals u v edges (2 * n + s.toNat)) (L + rest.length) L (fun x => o ((x % L).toNat)) := by
    refine ⟨hL, hev, fun x => (ho _ (hmodlt x)).1, ?_, ?_, ?_, ?_, ?_, ?_⟩
    · obtain ⟨t, ht, he⟩ := hzero
      exact ⟨t, by simpa only [htmod t ht] using he⟩
    · intro n hn
      obtain ⟨t, ht, he⟩ := hsurj n hn
      by_cases htL : t < L
      · exact Or.inl ⟨t, by simpa only [htmod t htL] using he⟩
      · right
        intro x s hs
        rw [← he]
        exact hoff t (by omega) ht _ (hmodlt x) s.toNat (by omega)
    · intro x y hxy
      exact hdvd x y (hinj _ _ (hmodlt x) (hmodlt y) hxy)
    · intro x y hxy
      have : x % L = y % L := (Int.ModEq.symm (Int.modEq_iff_dvd.2 hxy))
      simp only [this]
    · intro x
      set t := (x % L).toNat with htd
      have htL := hmodlt x
      have hm2 := hmod2 x
      simp only [hsucc x, ← htd]
      obtain ⟨a, ha, hva⟩ := hv t (x % 2).toNat htL (by omega)
      obtain ⟨b, hb, hvb⟩ := hv ((t + 1) % L) (x % 2).toNat (Nat.mod_lt _ hL) (by omega)
      rw [hva, hvb]
      rcases Int.emod_two_eq_zero_or_one x with h2 | h2
      · simp only [h2]
        have hte : t = 2 * (t / 2) := by omega
        rw [Nat.mod_eq_of_lt (by omega)] at hb
        simp only [Int.toNat_zero, if_true]
        rw [hc.joinU (t / 2) a b (by rw [← hte]; exact ha) (by rw [← hte]; exact hb)]
      · simp only [h2]
        have hte : t = 2 * (t / 2) + 1 := by omega
        have : v a = v b := hc.joinV (t / 2) a b (by rw [← hte]; exact ha) (by
          rw [show 2 * (t / 2) + 2 = t + 1 by omega]; exact hb)
        simp [this]
    · intro x y hp hxy
      apply hdvd
      have hx2 := hmod2 x
      have hy2 := hmod2 y
      obtain ⟨a, ha, hva⟩ := hv (x % L).toNat (x % 2).toNat (hmodlt x) (by omega)
      obtain ⟨b, hb, hvb⟩ := hv (y % L).toNat (x % 2).toNat (hmodlt y) (by omega)
      rw [hva, hvb] at hxy
      set s := (x % L).toNat
      set t := (y % L).toNat
      rcases Int.emod_two_eq_zero_or_one x with h2 | h2
      · have := hc.distinctU (s / 2) (t / 2) a b (by rw [show 2 * (s / 2) = s by omega]; exact ha)
          (by rw [show 2 * (t / 2) = t by omega]; exact hb) (by simpa [h2] using hxy)
        omega
      · have := hc.distinctV (s / 2) (t / 2) a b (by rw [show 2 * (s / 2) + 1 = s by omega]; exact ha)
          (by rw [show 2 * (t / 2) + 1 = t by omega]; exact hb) (by simpa [h2] using hxy)
        omega
  obtain ⟨B, hB, hB0⟩ := hZ.rebase
  exact hB.closed (by omega) hB0

theorem closed_iff_component (u v : E → N) (edges : List E) (T : Nat) :
    Closed (vals u v edges) edges.length T ↔ FirstOnCycle u v edges T :=
  ⟨component_of_closed u v edges, closed_of_component u v edges⟩

theorem firstOnCycle_all (u v : E → N) (edges : List E) : FirstOnCycle u v edges edges.length ↔ FormCycle u v edges := by
  constructor
  · rintro ⟨cyc, rest, hl, hp, hc, _, _⟩
    have := hp.length_eq
    rw [List.length_append] at this
    have h0 : rest = [] := List.length_eq_zero_iff.mp (by omega)
    rw [h0, List.append_nil] at hp
    exact ⟨cyc, hp, hc⟩
  · rintro ⟨cyc, hp, hc⟩
    refine ⟨cyc, [], hp.length_eq, by rw [List.append_nil]; exact hp, hc, ?_, by simp⟩
    intro e he
    exact hp.mem_iff.mpr (List.mem_of_mem_head? he)

theorem closed_iff (u v : E → N) (edges : List E) :
    Closed (vals u v edges) edges.length edges.length ↔ FormCycle u v edges :=
  (closed_iff_component u v edges _).trans (firstOnCycle_all u v edges)

end Verif.Orbit
