import Verif.Go.Prelude
import Verif.Go.Update
import Verif.Proof.Heavy
import Mathlib.LinearAlgebra.Matrix.Rank

/-! # The elimination routine computes the rank (exact arithmetic) -/

set_option autoImplicit false

namespace Verif.Heavy

open Go Matrix

/-- exact arithmetic in a field: a number is "big" when it is not zero -/
def exact (K : Type) [Field K] [DecidableEq K] : Num K where
  ofU16 x := (x.toNat : K)
  div a b := a / b
  mulSub x p c := x - p * c
  big x := decide (x ≠ 0)
  small x := decide (x = 0)

/-! ### one elimination step on matrices -/

section Algebra
variable {K : Type} [Field K] {n : Nat}

/-- If `N = N' + u ⊗ r`, where `r` is a row of `N` with a non-zero entry in a column where `N'` vanishes, the rank drops by one. -/
theorem rank_step (N N' : Matrix (Fin n) (Fin n) K) (u r : Fin n → K) (i j : Fin n) (hr : N j = r) (hri : r i ≠ 0)
    (h0 : ∀ k, N' k i = 0) (h : ∀ k, N k = N' k + u k • r) : N.rank = N'.rank + 1 := by
  rw [rank_eq_finrank_span_row, rank_eq_finrank_span_row]
  have hs : Submodule.span K (Set.range N.row) = Submodule.span K (Set.range N'.row) ⊔ Submodule.span K {r} := by
    apply le_antisymm
    · rw [Submodule.span_le]
      rintro _ ⟨k, rfl⟩
      show N k ∈ _
      rw [h k]
      apply Submodule.add_mem
      · exact Submodule.mem_sup_left (Submodule.subset_span ⟨k, rfl⟩)
      · exact Submodule.smul_mem _ _ (Submodule.mem_sup_right (Submodule.subset_span rfl))
    · have hrm : r ∈ Submodule.span K (Set.range N.row) := Submodule.subset_span ⟨j, hr⟩
      apply sup_le
      · rw [Submodule.span_le]
        rintro _ ⟨k, rfl⟩
        show N' k ∈ _
        rw [show N' k = N k - u k • r by rw [h k]; simp]
        exact Submodule.sub_mem _ (Submodule.subset_span ⟨k, rfl⟩) (Submodule.smul_mem _ _ hrm)
      · rw [Submodule.span_le]
        rintro _ rfl
        exact hrm
  have hn : r ∉ Submodule.span K (Set.range N'.row) := by
    intro hm
    have : Submodule.span K (Set.range N'.row) ≤ LinearMap.ker (LinearMap.proj i : (Fin n → K) →ₗ[K] K) := by
      rw [Submodule.span_le]
      rintro _ ⟨k, rfl⟩
      exact h0 k
    exact hri (this hm)
  rw [hs]
  exact Submodule.finrank_sup_span_singleton hn

end Algebra

/-! ### the loops -/

theorem getD_get {α : Type} (l : List α) (i : Nat) (d : α) (h : i < l.length) : l.getD i d = l[i] := by
  simp [List.getD_eq_getElem?_getD, List.getElem?_eq_getElem h]


section Lists
variable {K : Type} [Field K] [DecidableEq K]

/-- whether a row has been selected -/
def selAt (sel : List Bool) (k : Nat) : Bool := sel.getD k false

/-- entry of a list of rows -/
def at2 (c : List (List K)) (k l : Nat) : K := (c.getD k []).getD l 0

omit [DecidableEq K] in
theorem at2_eq (c : List (List K)) (k l : Nat) (r : List K) (x : K) (h : c[k]? = some r) (h2 : r[l]? = some x) : at2 c k l = x := by
  simp [at2, h, h2]

theorem divLoop (i : Nat) (row : List K) (hl : row.length = 64) (hi : i < 64) :
    forRange (i + 1) size row (divStep (exact K) i) =
      .ok (row.mapIdx fun l x => if i + 1 ≤ l ∧ l < 64 then x / row.getD i 0 else x) := by
  apply forRange_updateFrom (fun _ x => x / row.getD i 0) (i + 1) 64 row (by omega) (by omega)
  intro l m x h1 h2 hml hm hx hx'
  have hmi : m[i]? = some (row.getD i 0) := by
    rw [hm i, if_neg (by omega), List.getElem?_eq_getElem (show i < row.length by omega), getD_get _ _ _ (by omega)]
  unfold divStep
  simp only [idx, hx, hmi, ok_bind]
  rw [upd_ok _ _ _ (by omega)]
  rfl

theorem subLoop (i : Nat) (pivot row : List K) (hp : pivot.length = 64) (hl : row.length = 64) (hi : i < 64) :
    forRange (i + 1) size row (subStep (exact K) pivot i) =
      .ok (row.mapIdx fun l x => if i + 1 ≤ l ∧ l < 64 then x - pivot.getD l 0 * row.getD i 0 else x) := by
  apply forRange_updateFrom (fun l x => x - pivot.getD l 0 * row.getD i 0) (i + 1) 64 row (by omega) (by omega)
  intro l m x h1 h2 hml hm hx hx'
  have hmi : m[i]? = some (row.getD i 0) := by
    rw [hm i, if_neg (by omega), List.getElem?_eq_getElem (show i < row.length by omega), getD_get _ _ _ (by omega)]
  have hpl : pivot[l]? = some (pivot.getD l 0) := by
    rw [List.getElem?_eq_getElem (by omega), getD_get _ _ _ (by omega)]
  unfold subStep
  simp only [idx, hx, hmi, hpl, ok_bind]
  rw [upd_ok _ _ _ (by omega)]
  rfl

/-- row `k` after eliminating with the (normalised) pivot row `j` -/
def elimRow (i j : Nat) (pivot : List K) (k : Nat) (row : List K) : List K :=
  if k = j ∨ row.getD i 0 = 0 then row
  else row.mapIdx fun l x => if i + 1 ≤ l ∧ l < 64 then x - pivot.getD l 0 * row.getD i 0 else x

theorem elimLoop (i j : Nat) (c : List (List K)) (hc : Square c) (hi : i < 64) (hj : j < 64) :
    forRange 0 size c (elimStep (exact K) i j) = .ok (c.mapIdx fun k row => elimRow i j (c.getD j []) k row) := by
  rw [show size = 64 from rfl, forRange_updateFrom (fun k row => elimRow i j (c.getD j []) k row) 0 64 c (by omega) (by rw [hc.1])]
  · congr 1
    apply List.ext_getElem?
    intro k
    simp only [List.getElem?_mapIdx]
    by_cases h : k < 64
    · simp [h]
    · rw [List.getElem?_eq_none (by rw [hc.1]; omega)]; rfl
  · intro k m row _ hk hml hm hx hx'
    have hrl : row.length = 64 := hc.2 row (List.mem_of_getElem? hx')
    have hpl : c[j]? = some (c.getD j []) := by
      rw [List.getElem?_eq_getElem (by rw [hc.1]; omega), getD_get _ _ _ (by rw [hc.1]; omega)]
    have hpr : (c.getD j []).length = 64 := hc.2 _ (List.mem_of_getElem? hpl)
    have hmj : m[j]? = some (c.getD j []) := by
      rw [hm j, hpl]
      by_cases h : 0 ≤ j ∧ j < k
      · rw [if_pos h]; simp [elimRow]
      · rw [if_neg h]
    have hset : m.set k row = m := by
      apply List.ext_getElem?
      intro q
      by_cases hq : k = q
      · subst hq; rw [List.getElem?_set_self (by rw [hml, hc.1]; omega), hx]
      · rw [List.getElem?_set_ne hq]
    have hri : row[i]? = some (row.getD i 0) := by
      rw [List.getElem?_eq_getElem (by omega), getD_get _ _ _ (by omega)]
    unfold elimStep elimRow
    by_cases h1 : k = j
    · rw [if_pos h1, if_pos (Or.inl h1), hset]; rfl
    · rw [if_neg h1]
      simp only [idx, hx, hri, hmj, ok_bind]
      by_cases h2 : row.getD i 0 = 0
      · rw [if_pos (show (exact K).small _ = true by simpa [exact] using h2), if_pos (Or.inr h2), hset]; rfl
      · rw [if_neg (show ¬ (exact K).small _ = true by simpa [exact] using h2), if_neg (by tauto), subLoop i _ row hpr hrl hi, ok_bind,
          upd_ok _ _ _ (by rw [hml, hc.1]; omega)]

theorem findPivot_spec (c : List (List K)) (sel : List Bool) (i : Nat) (hc : Square c) (hs : sel.length = 64) (hi : i < 64) :
    (findPivot (exact K) c sel i = .ok 64 ∧ ∀ j < 64, selAt sel j = true ∨ at2 c j i = 0) ∨
    (∃ j < 64, findPivot (exact K) c sel i = .ok j ∧ selAt sel j = false ∧ at2 c j i ≠ 0) := by
  have key := forRangeE_inv (f := pivotStep (exact K) c sel i)
    (fun j _ => ∀ j' < j, selAt sel j' = true ∨ at2 c j' i = 0)
    (fun j => j < 64 ∧ selAt sel j = false ∧ at2 c j i ≠ 0) 0 64 () (by omega) (by intros; omega) (by
      intro j _ _ hj hI
      have hcj : j < c.length := by rw [hc.1]; exact hj
      have hrl : (c[j]).length = 64 := hc.2 _ (List.getElem_mem _)
      have hat : at2 c j i = c[j][i] := at2_eq _ _ _ _ _ (List.getElem?_eq_getElem hcj) (List.getElem?_eq_getElem (by omega))
      have hsl : selAt sel j = sel[j] := getD_get _ _ _ (by omega)
      unfold pivotStep
      rw [idx_ok _ _ (by omega), ok_bind, idx_ok _ _ hcj, ok_bind, idx_ok _ _ (by omega), ok_bind]
      by_cases h1 : (!sel[j] && (exact K).big c[j][i]) = true
      · rw [if_pos h1]
        simp only [exact, Bool.and_eq_true, Bool.not_eq_true', decide_eq_true_eq] at h1
        exact Or.inr ⟨j, rfl, hj, by rw [hsl]; exact h1.1, by rw [hat]; exact h1.2⟩
      · rw [if_neg h1]
        refine Or.inl ⟨(), rfl, ?_⟩
        intro j' hj'
        by_cases h2 : j' = j
        · subst h2
          rw [hsl, hat]
          simp only [exact, Bool.and_eq_true, Bool.not_eq_true', decide_eq_true_eq, not_and_or, Bool.not_eq_false, not_not] at h1
          exact h1
        · exact hI j' (by omega))
  unfold findPivot
  rcases key with ⟨s, e, h⟩ | ⟨b, e, h⟩
  · left
    refine ⟨?_, h⟩
    rw [show size = 64 from rfl, e, ok_bind]; rfl
  · right
    refine ⟨b, h.1, ?_, h.2⟩
    rw [show size = 64 from rfl, e, ok_bind]; rfl

/-- what is left to eliminate before step `i`: the unselected rows, from column `i` on -/
def rest (c : List (List K)) (sel : List Bool) (i : Nat) : Matrix (Fin 64) (Fin 64) K :=
  fun k l => if selAt sel k = true ∨ l.1 < i then 0 else at2 c k l

theorem rankStep_spec (i : Nat) (hi : i < 64) (s : RankState K) (hc : Square s.copied) (hs : s.rowsSelected.length = 64) :
    ∃ s', rankStep (exact K) i s = .ok s' ∧ Square s'.copied ∧ s'.rowsSelected.length = 64 ∧
      s.rank + (rest s.copied s.rowsSelected i).rank = s'.rank + (rest s'.copied s'.rowsSelected (i + 1)).rank := by
  obtain ⟨c, r, sel⟩ := s
  dsimp only at hc hs ⊢
  rcases findPivot_spec c sel i hc hs hi with ⟨e, h⟩ | ⟨j, hj, e, h1, h2⟩
  · refine ⟨⟨c, r, sel⟩, ?_, hc, hs, ?_⟩
    · unfold rankStep
      dsimp only
      rw [e, ok_bind, if_neg (by simp [size])]; rfl
    · dsimp only
      congr 2
      funext k l
      unfold rest
      by_cases h1 : selAt sel k = true ∨ l.1 < i
      · rw [if_pos h1, if_pos (h1.imp_right (by omega))]
      · rw [if_neg h1]
        by_cases h2 : l.1 = i
        · rw [if_pos (by omega), h2]
          exact (h k k.isLt).resolve_left (fun hh => h1 (Or.inl hh))
        · rw [if_neg]
          rintro (h3 | h3)
          · exact h1 (Or.inl h3)
          · omega
  · have hcj : j < c.length := by rw [hc.1]; exact hj
    have hgd : c.getD j [] = c[j] := getD_get _ _ _ hcj
    have hrl : (c[j]).length = 64 := hc.2 _ (List.getElem_mem _)
    obtain ⟨prow, hprow⟩ : ∃ p, p = (c[j]).mapIdx fun l x => if i + 1 ≤ l ∧ l < 64 then x / (c[j]).getD i 0 else x := ⟨_, rfl⟩
    have hpl : prow.length = 64 := by rw [hprow]; simpa using hrl
    have hc1 : Square (c.set j prow) := by
      refine ⟨by simpa using hc.1, fun x hx => ?_⟩
      rcases List.mem_or_eq_of_mem_set hx with hx | rfl
      · exact hc.2 x hx
      · exact hpl
    have hg1 : (c.set j prow).getD j [] = prow := by
      rw [getD_get _ _ _ (by simpa using hcj), List.getElem_set_self]
    refine ⟨⟨(c.set j prow).mapIdx fun k row => elimRow i j prow k row, r + 1, sel.set j true⟩, ?_, ?_, by simpa using hs, ?_⟩
    · unfold rankStep
      dsimp only
      rw [e, ok_bind, if_pos (by rw [size]; omega), upd_ok _ _ _ (by omega), ok_bind, idx_ok _ _ hcj, ok_bind, divLoop i _ hrl hi, ok_bind,
        ← hprow, upd_ok _ _ _ hcj, ok_bind, elimLoop i j _ hc1 hi hj, ok_bind, hg1]
      rfl
    · refine ⟨by simpa using hc.1, fun x hx => ?_⟩
      obtain ⟨k, hk, rfl⟩ := List.mem_iff_getElem.1 hx
      rw [List.getElem_mapIdx]
      have : ((c.set j prow)[k]'(by simpa using hk)).length = 64 := hc1.2 _ (List.getElem_mem _)
      unfold elimRow
      split
      · exact this
      · simpa using this
    · dsimp only
      have hd : at2 c j i = (c[j]).getD i 0 := by rw [at2, hgd]
      have hpat : ∀ l, l < 64 → prow.getD l 0 = if i + 1 ≤ l then at2 c j l / at2 c j i else at2 c j l := by
        intro l hl
        rw [getD_get _ _ _ (by omega)]
        subst hprow
        rw [List.getElem_mapIdx]
        have : at2 c j l = (c[j])[l] := by rw [at2, hgd, getD_get _ _ _ (by omega)]
        rw [this]
        by_cases h : i + 1 ≤ l
        · rw [if_pos ⟨h, hl⟩, if_pos h, hd]
        · rw [if_neg (by omega), if_neg h]
      have hnew : ∀ k l, k < 64 → l < 64 → k ≠ j → i < l →
          at2 ((c.set j prow).mapIdx fun k row => elimRow i j prow k row) k l =
            at2 c k l - at2 c k i * (at2 c j l / at2 c j i) := by
        intro k l hk hl hkj hil
        have hck : k < c.length := by rw [hc.1]; exact hk
        have hkl : (c[k]).length = 64 := hc.2 _ (List.getElem_mem _)
        have e1 : ((c.set j prow).mapIdx fun k row => elimRow i j prow k row)[k]? = some (elimRow i j prow k c[k]) := by
          rw [List.getElem?_mapIdx, List.getElem?_set_ne (by omega), List.getElem?_eq_getElem hck]; rfl
        have a1 : at2 c k l = (c[k])[l] := at2_eq _ _ _ _ _ (List.getElem?_eq_getElem hck) (List.getElem?_eq_getElem (by omega))
        have a2 : at2 c k i = (c[k]).getD i 0 := by
          rw [at2, getD_get _ _ _ hck]
        rw [show at2 ((c.set j prow).mapIdx fun k row => elimRow i j prow k row) k l = (elimRow i j prow k c[k]).getD l 0 by
          rw [at2, List.getD_eq_getElem?_getD (i := k), e1, Option.getD_some]]
        unfold elimRow
        by_cases hz : (c[k]).getD i 0 = 0
        · rw [if_pos (Or.inr hz), a2, hz, a1, getD_get _ _ _ (by omega)]; ring
        · rw [if_neg (by tauto), getD_get _ _ _ (by simp; omega), List.getElem_mapIdx, if_pos ⟨by omega, hl⟩, hpat l hl,
            if_pos (by omega), a1, a2]
          ring
      have hstep := rank_step (rest c sel i)
        (rest ((c.set j prow).mapIdx fun k row => elimRow i j prow k row) (sel.set j true) (i + 1))
        (fun k => if selAt sel k = true then 0 else at2 c k i / at2 c j i)
        (rest c sel i ⟨j, hj⟩) ⟨i, hi⟩ ⟨j, hj⟩ rfl
        (by unfold rest; rw [if_neg (by simp [h1])]; exact h2)
        (by intro k; unfold rest; rw [if_pos (by right; simp)])
        (by
          intro k
          funext l
          simp only [Pi.add_apply, Pi.smul_apply, smul_eq_mul]
          have hsel : selAt (sel.set j true) k = if k.1 = j then true else selAt sel k := by
            unfold selAt
            rw [getD_get _ _ _ (by rw [List.length_set, hs]; exact k.isLt), List.getElem_set, getD_get _ _ _ (by rw [hs]; exact k.isLt)]
            by_cases hkj : j = k.1
            · rw [if_pos hkj, if_pos hkj.symm]
            · rw [if_neg hkj, if_neg (fun h => hkj h.symm)]
          unfold rest
          simp only [hsel]
          by_cases hk : selAt sel k = true
          · have hkj : k.1 ≠ j := by rintro rfl; rw [h1] at hk; exact absurd hk (by simp)
            rw [if_pos (Or.inl hk), if_neg hkj, if_pos (Or.inl hk), if_pos hk]; simp
          · by_cases hli : l.1 < i
            · simp [hli, show l.1 < i + 1 by omega]
            · by_cases hkj : k.1 = j
              · have hone : at2 c k i / at2 c j i = 1 := by rw [hkj]; exact div_self h2
                rw [if_neg (by tauto), if_pos hkj, if_pos (Or.inl rfl), if_neg hk, if_neg (by rw [h1]; simp; omega), hone, hkj]; simp
              · rw [if_neg hkj]
                by_cases hl2 : l.1 = i
                · rw [if_neg (by tauto), if_pos (by right; omega), if_neg hk, if_neg (by rw [h1]; simp; omega), hl2]
                  rw [div_mul_cancel₀ _ h2]; simp
                · rw [if_neg (by tauto), if_neg (by rintro (h | h); exact hk h; omega), if_neg hk, if_neg (by rw [h1]; simp; omega),
                    hnew k l k.isLt l.isLt hkj (by omega)]
                  ring)
      rw [hstep]; omega

/-- the matrix with the entries of a list of rows -/
def toMatrix (mat : List (List U16)) : Matrix (Fin 64) (Fin 64) K := fun i j => ((((mat.getD i []).getD j 0).toNat : Nat) : K)

theorem calculateRank_eq (mat : List (List U16)) (h : Square mat) :
    calculateRank (exact K) mat = .ok (toMatrix (K := K) mat).rank := by
  have hc : Square (mat.map fun row => row.map (exact K).ofU16) := by
    refine ⟨by simpa using h.1, fun r hr => ?_⟩
    obtain ⟨r', hr', rfl⟩ := List.mem_map.1 hr
    simpa using h.2 r' hr'
  obtain ⟨s, e, -, -, hr⟩ := forRange_inv (f := rankStep (exact K))
    (fun i s => Square s.copied ∧ s.rowsSelected.length = 64 ∧
      (toMatrix (K := K) mat).rank = s.rank + (rest s.copied s.rowsSelected i).rank) 0 64
    { copied := mat.map fun row => row.map (exact K).ofU16, rank := 0, rowsSelected := List.replicate size false } (by omega)
    ⟨hc, by simp [size], by
      dsimp only
      rw [Nat.zero_add]
      congr 1
      funext k l
      have hk : k.1 < mat.length := by rw [h.1]; exact k.isLt
      have hl : l.1 < (mat[k.1]).length := by rw [h.2 _ (List.getElem_mem _)]; exact l.isLt
      unfold rest
      rw [if_neg (by rw [selAt, getD_get _ _ _ (by simp [size]), List.getElem_replicate]; simp), at2_eq _ _ _ ((mat[k.1]).map (exact K).ofU16) ((exact K).ofU16 (mat[k.1])[l.1]) (by simp [hk]) (by simp [hl])]
      unfold toMatrix
      rw [getD_get _ _ _ hk, getD_get _ _ _ hl]
      rfl⟩ (by
      rintro i s _ hi ⟨h1, h2, h3⟩
      obtain ⟨s', e, k1, k2, k3⟩ := rankStep_spec i hi s h1 h2
      exact ⟨s', e, k1, k2, by rw [h3, k3]⟩)
  unfold calculateRank
  dsimp only
  rw [show size = 64 from rfl] at *
  rw [e, ok_bind, hr]
  have : rest s.copied s.rowsSelected 64 = 0 := by
    funext k l
    unfold rest
    rw [if_pos (Or.inr l.isLt)]; rfl
  rw [this, Matrix.rank_zero]; rfl

end Lists

end Verif.Heavy
