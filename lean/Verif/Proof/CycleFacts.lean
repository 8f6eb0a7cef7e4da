import Verif.Go.Prelude
import Verif.Spec.Cycle
import Mathlib.Data.List.Nodup

/-! # Facts about the cycle specification -/

set_option autoImplicit false

namespace Verif.Spec

variable {E N : Type} {u v : E → N}

theorem IsCycle.no_adjacent_repeat {cyc : List E} (h : IsCycle u v cyc) (hL : 2 < cyc.length) {x y : Nat} {a : E}
    (hx : cyc[2 * x]? = some a) (hy : cyc[2 * y + 1]? = some a) : False := by
  have hev := h.even
  have hxl : 2 * x < cyc.length := by
    by_contra hge; rw [List.getElem?_eq_none (by omega)] at hx; simp at hx
  have hyl : 2 * y + 1 < cyc.length := by
    by_contra hge; rw [List.getElem?_eq_none (by omega)] at hy; simp at hy
  have hu : u cyc[2 * y] = u a := h.joinU y _ _ (List.getElem?_eq_getElem (by omega)) hy
  have hxy : x = y := h.distinctU x y a cyc[2 * y] hx (List.getElem?_eq_getElem (by omega)) hu.symm
  by_cases hx0 : x = 0
  · obtain ⟨z, hz⟩ : ∃ z, cyc.length = 2 * z + 2 := ⟨cyc.length / 2 - 1, by omega⟩
    have hv : v cyc[2 * z + 1] = v a := h.joinV z _ _ (List.getElem?_eq_getElem (by omega)) (by
      rw [hz, Nat.mod_self]; rw [hx0] at hx; exact hx)
    have := h.distinctV z y cyc[2 * z + 1] a (List.getElem?_eq_getElem (by omega)) hy hv
    omega
  · have hv : v cyc[2 * (x - 1) + 1] = v a := h.joinV (x - 1) _ _ (List.getElem?_eq_getElem (by omega)) (by
      rw [Nat.mod_eq_of_lt (by omega), show 2 * (x - 1) + 2 = 2 * x by omega]; exact hx)
    have := h.distinctV (x - 1) y _ a (List.getElem?_eq_getElem (by omega)) hy hv
    omega

theorem IsCycle.nodup {cyc : List E} (h : IsCycle u v cyc) (hL : 2 < cyc.length) : cyc.Nodup := by
  rw [List.nodup_iff_getElem?_ne_getElem?]
  intro i j hij hj he
  have hgi : cyc[i]? = some (cyc[i]'(by omega)) := List.getElem?_eq_getElem (by omega)
  rw [hgi] at he
  set a := cyc[i]'(by omega)
  rcases Nat.mod_two_eq_zero_or_one i with hi2 | hi2 <;> rcases Nat.mod_two_eq_zero_or_one j with hj2 | hj2
  · have := h.distinctU (i / 2) (j / 2) a a (by rw [show 2 * (i / 2) = i by omega]; exact hgi)
      (by rw [show 2 * (j / 2) = j by omega]; exact he.symm) rfl
    omega
  · exact h.no_adjacent_repeat hL (x := i / 2) (y := j / 2) (a := a) (by rw [show 2 * (i / 2) = i by omega]; exact hgi)
      (by rw [show 2 * (j / 2) + 1 = j by omega]; exact he.symm)
  · exact h.no_adjacent_repeat hL (x := j / 2) (y := i / 2) (a := a) (by rw [show 2 * (j / 2) = j by omega]; exact he.symm)
      (by rw [show 2 * (i / 2) + 1 = i by omega]; exact hgi)
  · have := h.distinctV (i / 2) (j / 2) a a (by rw [show 2 * (i / 2) + 1 = i by omega]; exact hgi)
      (by rw [show 2 * (j / 2) + 1 = j by omega]; exact he.symm) rfl
    omega

theorem FormCycle.nodup {edges : List E} (h : FormCycle u v edges) (hL : 2 < edges.length) : edges.Nodup := by
  obtain ⟨cyc, hp, hc⟩ := h
  exact hp.nodup_iff.1 (hc.nodup (by rw [hp.length_eq]; exact hL))

theorem FormCycle.even {edges : List E} (h : FormCycle u v edges) : edges.length % 2 = 0 := by
  obtain ⟨cyc, hp, hc⟩ := h
  rw [← hp.length_eq]; exact hc.even

theorem FormCycle.perm {e₁ e₂ : List E} (h : FormCycle u v e₁) (hp : e₁.Perm e₂) : FormCycle u v e₂ := by
  obtain ⟨cyc, hc, h⟩ := h
  exact ⟨cyc, hc.trans hp, h⟩

theorem formCycle_pair (e : E) : FormCycle u v [e, e] := by
  refine ⟨[e, e], List.Perm.refl _, by simp, by simp, ?_, ?_, ?_, ?_⟩
  · intro t a b ha hb
    have : t = 0 := by
      by_contra hne
      rw [List.getElem?_eq_none (by simp; omega)] at ha; simp at ha
    subst this; simp at ha hb; rw [← ha, ← hb]
  · intro t a b ha hb
    have : t = 0 := by
      by_contra hne
      rw [List.getElem?_eq_none (by simp; omega)] at ha; simp at ha
    subst this; simp at ha hb; rw [← ha, ← hb]
  · intro s t a b ha hb _
    have h1 : s = 0 := by
      by_contra hne
      rw [List.getElem?_eq_none (by simp; omega)] at ha; simp at ha
    have h2 : t = 0 := by
      by_contra hne
      rw [List.getElem?_eq_none (by simp; omega)] at hb; simp at hb
    omega
  · intro s t a b ha hb _
    have h1 : s = 0 := by
      by_contra hne
      rw [List.getElem?_eq_none (by simp; omega)] at ha; simp at ha
    have h2 : t = 0 := by
      by_contra hne
      rw [List.getElem?_eq_none (by simp; omega)] at hb; simp at hb
    omega

end Verif.Spec
