import Verif.Proof.Manager

/-! # The cache manager evicts like a least-recently-used cache -/

set_option autoImplicit false

namespace Verif.Manager

open Go Dag Spec.Lru

section
variable {α : Type} [DecidableEq α]

theorem recent_nodup : ∀ h : List α, (recent h).Nodup
  | [] => by simp [recent]
  | e :: h => by
    rw [recent, List.nodup_cons]
    exact ⟨by simp, (recent_nodup h).filter _⟩

theorem mem_recent (a : α) : ∀ h : List α, a ∈ recent h ↔ a ∈ h
  | [] => by simp [recent]
  | e :: h => by
    rw [recent, List.mem_cons, List.mem_filter, mem_recent a h, List.mem_cons]
    by_cases hae : a = e
    · simp [hae]
    · simp [hae]

/-- removing something beyond the first `j` does not change them -/
theorem take_filter (e : α) : ∀ (j : Nat) (R : List α), e ∉ R.take j → (R.filter (· ≠ e)).take j = R.take j
  | 0, R, _ => by simp
  | j + 1, [], _ => by simp
  | j + 1, a :: R, h => by
    rw [List.take_succ_cons, List.mem_cons, not_or] at h
    rw [List.filter_cons, if_pos (by simpa using Ne.symm h.1), List.take_succ_cons, List.take_succ_cons, take_filter e j R h.2]

/-- moving one of the first `k` to the front -/
theorem front_perm (e : α) : ∀ (k : Nat) (R : List α), R.Nodup → e ∈ R.take k → ((e :: R.filter (· ≠ e)).take k).Perm (R.take k)
  | 0, R, _, h => by simp at h
  | k + 1, [], _, h => by simp at h
  | k + 1, a :: R, hn, h => by
    rw [List.nodup_cons] at hn
    by_cases hae : e = a
    · subst hae
      have : (e :: R).filter (· ≠ e) = R := by
        rw [List.filter_cons, if_neg (by simp), List.filter_eq_self]
        intro x hx
        have : x ≠ e := fun hxe => hn.1 (hxe ▸ hx)
        simpa using this
      rw [this]
    · rw [List.take_succ_cons, List.mem_cons, or_iff_right hae] at h
      rw [List.filter_cons, if_pos (by simpa using Ne.symm hae)]
      cases k with
      | zero => simp at h
      | succ k =>
        rw [List.take_succ_cons, List.take_succ_cons, List.take_succ_cons]
        have ih := front_perm e (k + 1) R hn.2 h
        rw [List.take_succ_cons] at ih
        exact (List.Perm.swap a e _).trans (ih.cons a)

/-- times strictly decreasing: the newest request is the latest -/
def Strict (h : List (α × Nat)) : Prop := h.Pairwise fun a b => b.2 < a.2

theorem lastUse_mem (a : α) (t : Nat) : ∀ h : List (α × Nat), lastUse h a = some t → (a, t) ∈ h
  | [], h => by simp [lastUse] at h
  | (e, u) :: h, hl => by
    rw [lastUse] at hl
    by_cases hae : a = e
    · rw [if_pos hae] at hl
      injection hl with hl
      subst hae hl
      simp
    · rw [if_neg hae] at hl
      exact List.mem_cons_of_mem _ (lastUse_mem a t h hl)

theorem lastUse_some (a : α) : ∀ h : List (α × Nat), a ∈ h.map Prod.fst → ∃ t, lastUse h a = some t
  | [], h => by simp at h
  | (e, u) :: h, hm => by
    rw [lastUse]
    by_cases hae : a = e
    · exact ⟨u, by rw [if_pos hae]⟩
    · rw [if_neg hae]
      rw [List.map_cons, List.mem_cons] at hm
      exact lastUse_some a h (hm.resolve_left hae)

/-- the list of recent keys is ordered by the time of the last request -/
theorem recent_sorted : ∀ h : List (α × Nat), Strict h →
    (recent (h.map Prod.fst)).Pairwise fun a b => ∀ t u, lastUse h a = some t → lastUse h b = some u → u < t
  | [], _ => by simp [recent]
  | (e, t) :: h, hs => by
    rw [Strict, List.pairwise_cons] at hs
    rw [List.map_cons, recent, List.pairwise_cons]
    constructor
    · intro b hb t' u ht hu
      have hbe : b ≠ e := by simpa using (List.mem_filter.mp hb).2
      rw [lastUse, if_pos rfl] at ht
      rw [lastUse, if_neg hbe] at hu
      injection ht with ht
      subst ht
      exact hs.1 _ (lastUse_mem b u h hu)
    · have ih := recent_sorted h hs.2
      rw [List.pairwise_filter]
      refine ih.imp ?_
      intro a b hab ha hb t' u ht hu
      rw [lastUse, if_neg (by simpa using ha)] at ht
      rw [lastUse, if_neg (by simpa using hb)] at hu
      exact hab t' u ht hu

end

/-- what the history has to do with the state -/
structure HistInv (s : State) : Prop where
  used : ∀ x ∈ s.mgr.caches, lastUse s.hist x.1 = some (s.mgr.heap x.2).used
  clock : ∀ x ∈ s.hist, x.2 ≤ s.clock
  sorted : s.hist.Pairwise fun a b => b.2 ≤ a.2

variable {k : Int} {Body : U64 → Go Loaded → Prop}

theorem hist_step {s s' : State} (hi : Inv k Body s) (h : HistInv s) (hs : Step k Body s s') : HistInv s' := by
  have once : ∀ i o x, x ∈ (s.mgr.setOnce i o).caches → lastUse s.hist x.1 = some ((s.mgr.setOnce i o).heap x.2).used := by
    intro i o x hx
    rw [(setOnce_heap s.mgr i o x.2).2.1]
    exact h.used x hx
  cases hs with
  | call e hcr => exact ⟨h.used, h.clock, h.sorted⟩
  | lock t e order now m c spawn hcr hst ht ho hclk hl =>
    have ha := locked_after hi.wf ho hl
    refine ⟨?_, ?_, ?_⟩
    · intro x hx
      show lastUse ((e, now) :: s.hist) x.1 = some (m.heap x.2).used
      rw [lastUse]
      have hxe := ha.wf.entry x hx
      have old : x ∈ s.mgr.caches → x.1 ≠ e → lastUse s.hist x.1 = some (m.heap x.2).used := by
        intro hx' hne
        have hlt := (hi.wf.entry x hx').1
        have hxc : x.2 ≠ c := by
          intro hxc
          rw [hxc, ha.epoch] at hxe
          exact hne hxe.2.symm
        rw [ha.others x.2 hlt hxc]
        exact h.used x hx'
      have new : x.1 = e → (m.heap x.2).used = now := by
        intro hxe1
        have hreg : (e, c) ∈ m.caches := by
          rcases ha.caches with ⟨h1, h2, _⟩ | ⟨_, _, ⟨_, h2⟩ | ⟨_, _, _, _, h2⟩⟩
          · rw [h2]; exact h1
          · rw [h2]; exact List.mem_cons_self
          · rw [h2]; exact List.mem_cons_self
        have : x = (e, c) := List.inj_on_of_nodup_map ha.wf.keys hx hreg hxe1
        rw [this]
        exact ha.used
      by_cases hx1 : x.1 = e
      · rw [if_pos hx1, new hx1]
      · rw [if_neg hx1]
        refine old ?_ hx1
        rcases ha.caches with ⟨h1, h2, _⟩ | ⟨_, _, ⟨_, h2⟩ | ⟨_, _, _, _, h2⟩⟩
        · rw [h2] at hx; exact hx
        · rw [h2] at hx
          rcases List.mem_cons.mp hx with rfl | hx
          · exact absurd rfl hx1
          · exact hx
        · rw [h2] at hx
          rcases List.mem_cons.mp hx with rfl | hx
          · exact absurd rfl hx1
          · exact (List.mem_filter.mp hx).1
    · intro x hx
      rcases List.mem_cons.mp hx with rfl | hx
      · exact Nat.le_refl _
      · exact Nat.le_trans (h.clock x hx) hclk
    · exact List.pairwise_cons.mpr ⟨fun x hx => Nat.le_trans (h.clock x hx) hclk, h.sorted⟩
  | lockPanic t e order now p hcr hst ht ho hclk hl => exact ⟨h.used, h.clock, h.sorted⟩
  | start t role i hcr ht hid => exact ⟨once i _, h.clock, h.sorted⟩
  | finish t role i r hcr ht hb => exact ⟨once i _, h.clock, h.sorted⟩
  | finishPanic t role i p hcr ht hb => exact ⟨once i _, h.clock, h.sorted⟩
  | skip t role i r hcr ht hd => exact ⟨h.used, h.clock, h.sorted⟩

theorem hist_reach {s : State} (h : Reach k Body s) : HistInv s := by
  induction h with
  | init => exact ⟨by simp [init, new], by simp [init], by simp [init]⟩
  | step hr hs ih => exact hist_step (inv_reach hr) ih hs

theorem filter_last {α : Type} [DecidableEq α] (K : List α) (hn : K.Nodup) (z : α) (hz : K.getLast? = some z) :
    K.filter (· ≠ z) = K.dropLast := by
  obtain ⟨l, rfl⟩ : ∃ l, K = l ++ [z] := ⟨K.dropLast, by
    rw [List.getLast?_eq_some_iff] at hz
    obtain ⟨l, rfl⟩ := hz
    rw [List.dropLast_concat]⟩
  rw [List.dropLast_concat, List.filter_append, List.filter_cons, if_neg (by simp), List.filter_nil, List.append_nil, List.filter_eq_self]
  intro x hx
  rw [List.nodup_append] at hn
  simpa using hn.2.2 x hx z (by simp)

/-- with a strictly increasing clock the registered epochs are those of a least-recently-used cache -/
theorem lru_reach {s : State} (hk : 0 ≤ k) (h : Reach k Body s) (hs : Strict s.hist) :
    (s.mgr.caches.map Prod.fst).Perm (resident k.toNat (s.hist.map Prod.fst)) := by
  induction h with
  | init => simp [init, new, resident, recent]
  | @step s s' hr hst ih =>
    cases hst with
    | call e hcr => exact ih hs
    | lockPanic t e order now p hcr hst ht ho hclk hl => exact ih hs
    | start t role i hcr ht hid => exact ih hs
    | finish t role i r hcr ht hb => exact ih hs
    | finishPanic t role i p hcr ht hb => exact ih hs
    | skip t role i r hcr ht hd => exact ih hs
    | lock t e order now m c spawn hcr hst ht ho hclk hl =>
      have hinv := inv_reach hr
      have hh := hist_reach hr
      have ha := locked_after hinv.wf ho hl
      have hs' : Strict s.hist := (List.pairwise_cons.mp hs).2
      have ih := ih hs'
      obtain ⟨R, hR⟩ : ∃ R, R = recent (s.hist.map Prod.fst) := ⟨_, rfl⟩
      have hRn : R.Nodup := hR ▸ recent_nodup _
      have hRs := recent_sorted s.hist hs'
      rw [← hR] at hRs
      obtain ⟨K, hK⟩ : ∃ K, K = s.mgr.caches.map Prod.fst := ⟨_, rfl⟩
      rw [resident, ← hR, ← hK] at ih
      show (m.caches.map Prod.fst).Perm (resident k.toNat (e :: s.hist.map Prod.fst))
      rw [resident, recent, ← hR]
      have hKlen : K.length = s.mgr.caches.length := by rw [hK, List.length_map]
      have hlen := ih.length_eq
      rw [List.length_take] at hlen
      rcases ha.caches with ⟨h1, h2, _⟩ | ⟨hno, _, ⟨hlt, h2⟩ | ⟨hge, v, hv, hmin, h2⟩⟩
      · rw [h2, ← hK]
        refine ih.trans (front_perm e k.toNat R hRn ?_).symm
        refine ih.mem_iff.mp ?_
        rw [hK]
        exact List.mem_map.mpr ⟨_, h1, rfl⟩
      · have heK : e ∉ K := by
          rw [hK, List.mem_map]
          rintro ⟨x, hx, hxe⟩
          exact hno x hx hxe
        have hRlen : R.length < k.toNat := by omega
        rw [List.take_of_length_le (by omega)] at ih
        have heR : e ∉ R := fun he => heK (ih.mem_iff.mpr he)
        have hfil : R.filter (· ≠ e) = R := by
          rw [List.filter_eq_self]
          intro x hx
          have : x ≠ e := fun hxe => heR (hxe ▸ hx)
          simpa using this
        rw [h2, List.map_cons, ← hK, hfil, List.take_of_length_le (by rw [List.length_cons]; omega)]
        exact ih.cons e
      · have heK : e ∉ K := by
          rw [hK, List.mem_map]
          rintro ⟨x, hx, hxe⟩
          exact hno x hx hxe
        have heR : e ∉ R.take k.toNat := fun he => heK (ih.mem_iff.mpr he)
        have hv0 : 0 < s.mgr.caches.length := List.length_pos_of_mem hv
        have hkpos : 0 < k.toNat := by omega
        obtain ⟨j, hj⟩ : ∃ j, k.toNat = j + 1 := ⟨k.toNat - 1, by omega⟩
        rw [hj] at ih heR hlen ⊢
        rw [List.take_succ_cons]
        have hvK : v.1 ∈ K := by rw [hK]; exact List.mem_map.mpr ⟨v, hv, rfl⟩
        -- the last of the resident keys is the one that is evicted
        have hne : R.take (j + 1) ≠ [] := by
          intro h0
          have := congrArg List.length h0
          rw [List.length_take, List.length_nil] at this
          omega
        obtain ⟨z, hz⟩ : ∃ z, (R.take (j + 1)).getLast? = some z :=
          ⟨_, List.getLast?_eq_some_getLast hne⟩
        have hzK : z ∈ R.take (j + 1) := List.mem_of_getLast? hz
        have hvz : v.1 = z := by
          by_contra hvz
          have hvR : v.1 ∈ R.take (j + 1) := ih.mem_iff.mp hvK
          obtain ⟨l, hl'⟩ := List.getLast?_eq_some_iff.mp hz
          have hvl : v.1 ∈ l := by
            rw [hl', List.mem_append, List.mem_singleton] at hvR
            exact hvR.resolve_right hvz
          have hp : (R.take (j + 1)).Pairwise fun a b => ∀ t u, lastUse s.hist a = some t → lastUse s.hist b = some u → u < t :=
            hRs.sublist (List.take_sublist _ _)
          rw [hl', List.pairwise_append] at hp
          have hzc : z ∈ K := ih.mem_iff.mpr hzK
          rw [hK, List.mem_map] at hzc
          obtain ⟨y, hy, hyz⟩ := hzc
          have h3 := hh.used v hv
          have h4 := hh.used y hy
          rw [hyz] at h4
          have := hp.2.2 v.1 hvl z (by simp) _ _ h3 h4
          have := hmin y hy
          omega
        have hfilK : (s.mgr.caches.filter fun x => x.1 != v.1).map Prod.fst = K.filter (· ≠ z) := by
          rw [hK, List.filter_map, hvz]
          congr 1
          apply List.filter_congr
          intro x _
          simp [bne, Function.comp]
          by_cases hxz : x.1 = z <;> simp [hxz]
        rw [h2, List.map_cons, hfilK]
        refine List.Perm.cons e ?_
        refine (ih.filter _).trans ?_
        rw [filter_last _ (hRn.sublist (List.take_sublist _ _)) z hz, List.dropLast_eq_take, List.length_take, List.take_take,
          show min (min (j + 1) R.length - 1) (j + 1) = j by omega,
          take_filter e j R (fun he => heR (List.take_subset_take_left R (Nat.le_succ j) he))]

end Verif.Manager
