import Verif.Go.Prelude
import Verif.Go.Update
import Verif.Proof.Heavy

/-! # The elimination routine as a function, for any arithmetic and any size -/

set_option autoImplicit false

namespace Verif.Heavy

open Go

section Pure
variable {F : Type} (N : Num F)

/-- the matrix, the selected rows and the rank -/
structure Elim (F : Type) where
  M : Nat → Nat → F
  sel : Nat → Bool
  rank : Nat

/-- the first row not yet selected with a big entry in column `i` -/
def pivot (n : Nat) (s : Elim F) (i : Nat) : Option Nat := (List.range n).find? fun j => !s.sel j && N.big (s.M j i)

/-- the entries after the elimination of column `i` with row `j` -/
def elimM (n i j : Nat) (M : Nat → Nat → F) (k l : Nat) : F :=
  if i < l ∧ l < n then
    if k = j then N.div (M j l) (M j i)
    else if N.small (M k i) then M k l
    else N.mulSub (M k l) (N.div (M j l) (M j i)) (M k i)
  else M k l

/-- one column -/
def elimCol (n : Nat) (s : Elim F) (i : Nat) : Elim F :=
  match pivot N n s i with
  | none => s
  | some j => ⟨elimM N n i j s.M, fun k => if k = j then true else s.sel k, s.rank + 1⟩

/-- the first `m` columns -/
def elimTo (n : Nat) (s : Elim F) (m : Nat) : Elim F := (List.range m).foldl (elimCol N n) s

theorem elimTo_succ (n : Nat) (s : Elim F) (m : Nat) : elimTo N n s (m + 1) = elimCol N n (elimTo N n s m) m := by
  simp [elimTo, List.range_succ]

/-- the beginning -/
def elimInit (M : Nat → Nat → F) : Elim F := ⟨M, fun _ => false, 0⟩

/-! ### the routine computes it -/

/-- the list of the first 64 values of a function -/
def tab {α : Type} (f : Nat → α) : List α := (List.range 64).map f

theorem tab_length {α : Type} (f : Nat → α) : (tab f).length = 64 := by simp [tab]

theorem tab_congr {α : Type} {f g : Nat → α} (h : ∀ i < 64, f i = g i) : tab f = tab g :=
  List.map_congr_left fun i hi => h i (List.mem_range.1 hi)

theorem idx_tab {α : Type} (f : Nat → α) (i : Nat) (hi : i < 64) : idx (tab f) i = .ok (f i) := by
  rw [idx_ok _ _ (by rw [tab_length]; exact hi)]
  simp [tab]

theorem upd_tab {α : Type} (f : Nat → α) (i : Nat) (v : α) (hi : i < 64) : upd (tab f) i v = .ok (tab fun k => if k = i then v else f k) := by
  rw [upd_ok _ _ _ (by rw [tab_length]; exact hi)]
  refine congrArg Except.ok ?_
  apply List.ext_getElem?
  intro k
  by_cases hk : i = k
  · subst hk
    rw [List.getElem?_set_self (by rw [tab_length]; exact hi)]
    simp [tab, hi]
  · rw [List.getElem?_set_ne hk]
    simp only [tab, List.getElem?_map]
    by_cases h : k < 64
    · rw [List.getElem?_range h]
      simp [if_neg (Ne.symm hk)]
    · rw [List.getElem?_eq_none (by simp; omega)]
      rfl

theorem divLoop_pure (i : Nat) (hi : i < 64) (f : Nat → F) :
    forRange (i + 1) size (tab f) (divStep N i) = .ok (tab fun l => if i < l ∧ l < 64 then N.div (f l) (f i) else f l) := by
  obtain ⟨s, e, hs⟩ := forRange_inv (f := divStep N i)
    (fun b s => s = tab fun l => if i < l ∧ l < b then N.div (f l) (f i) else f l) (i + 1) 64 (tab f) (by omega)
    (tab_congr fun l _ => by rw [if_neg (by omega)]) (by
      rintro b s h1 h2 rfl
      refine ⟨_, ?_, rfl⟩
      unfold divStep
      rw [idx_tab _ _ h2, ok_bind, idx_tab _ _ hi, ok_bind, upd_tab _ _ _ h2]
      refine congrArg Except.ok (tab_congr fun l _ => ?_)
      rw [if_neg (show ¬ (i < b ∧ b < b) by omega), if_neg (show ¬ (i < i ∧ i < b) by omega)]
      by_cases hl : l = b
      · subst hl
        rw [if_pos rfl, if_pos ⟨by omega, by omega⟩]
      · rw [if_neg hl]
        by_cases h : i < l ∧ l < b
        · rw [if_pos h, if_pos ⟨h.1, by omega⟩]
        · rw [if_neg h, if_neg (by omega)])
  rw [show size = 64 from rfl, e, hs]

theorem subLoop_pure (i : Nat) (hi : i < 64) (p f : Nat → F) :
    forRange (i + 1) size (tab f) (subStep N (tab p) i) =
      .ok (tab fun l => if i < l ∧ l < 64 then N.mulSub (f l) (p l) (f i) else f l) := by
  obtain ⟨s, e, hs⟩ := forRange_inv (f := subStep N (tab p) i)
    (fun b s => s = tab fun l => if i < l ∧ l < b then N.mulSub (f l) (p l) (f i) else f l) (i + 1) 64 (tab f) (by omega)
    (tab_congr fun l _ => by rw [if_neg (by omega)]) (by
      rintro b s h1 h2 rfl
      refine ⟨_, ?_, rfl⟩
      unfold subStep
      rw [idx_tab _ _ h2, ok_bind, idx_tab _ _ h2, ok_bind, idx_tab _ _ hi, ok_bind, upd_tab _ _ _ h2]
      refine congrArg Except.ok (tab_congr fun l _ => ?_)
      rw [if_neg (show ¬ (i < b ∧ b < b) by omega), if_neg (show ¬ (i < i ∧ i < b) by omega)]
      by_cases hl : l = b
      · subst hl
        rw [if_pos rfl, if_pos ⟨by omega, by omega⟩]
      · rw [if_neg hl]
        by_cases h : i < l ∧ l < b
        · rw [if_pos h, if_pos ⟨h.1, by omega⟩]
        · rw [if_neg h, if_neg (by omega)])
  rw [show size = 64 from rfl, e, hs]

/-- the rows of a matrix -/
def rows (M : Nat → Nat → F) : List (List F) := tab fun k => tab (M k)

/-- the entries after the pivot row has been divided -/
def divM (i j : Nat) (M : Nat → Nat → F) (k l : Nat) : F :=
  if k = j then if i < l ∧ l < 64 then N.div (M j l) (M j i) else M j l else M k l

theorem elimLoop_pure (i j : Nat) (hi : i < 64) (hj : j < 64) (M : Nat → Nat → F) :
    forRange 0 size (rows (divM N i j M)) (elimStep N i j) = .ok (rows (elimM N 64 i j M)) := by
  obtain ⟨s, e, hs⟩ := forRange_inv (f := elimStep N i j)
    (fun b s => s = rows fun k l => if k < b then elimM N 64 i j M k l else divM N i j M k l) 0 64 (rows (divM N i j M)) (by omega)
    (tab_congr fun k _ => tab_congr fun l _ => by beta_reduce; rw [if_neg (by omega)]) (by
      rintro b s h1 h2 rfl
      refine ⟨_, ?_, rfl⟩
      unfold elimStep
      by_cases hb : b = j
      · subst hb
        rw [if_pos rfl]
        refine congrArg Except.ok (tab_congr fun k _ => tab_congr fun l _ => ?_)
        beta_reduce
        rcases Nat.lt_trichotomy k b with h | h | h
        · rw [if_pos h, if_pos (by omega)]
        · subst h
          rw [if_neg (by omega), if_pos (by omega)]
          unfold divM elimM
          rw [if_pos rfl, if_pos rfl]
        · rw [if_neg (by omega), if_neg (by omega)]
      · rw [if_neg hb]
        unfold rows
        have hbi : (fun k l => if k < b then elimM N 64 i j M k l else divM N i j M k l) b i = M b i := by
          beta_reduce
          rw [if_neg (by omega), divM, if_neg hb]
        rw [idx_tab _ _ h2, ok_bind, idx_tab _ _ hi, ok_bind, hbi]
        by_cases hsm : N.small (M b i) = true
        · rw [if_pos hsm]
          refine congrArg Except.ok (tab_congr fun k _ => tab_congr fun l _ => ?_)
          beta_reduce
          rcases Nat.lt_trichotomy k b with h | h | h
          · rw [if_pos h, if_pos (by omega)]
          · subst h
            rw [if_neg (by omega), if_pos (by omega)]
            unfold divM elimM
            rw [if_neg hb]
            by_cases hl : i < l ∧ l < 64
            · rw [if_pos hl, if_neg hb, if_pos hsm]
            · rw [if_neg hl]
          · rw [if_neg (by omega), if_neg (by omega)]
        · rw [if_neg hsm, idx_tab _ _ hj, ok_bind, subLoop_pure N i hi, ok_bind, upd_tab _ _ _ h2]
          refine congrArg Except.ok (tab_congr fun k _ => ?_)
          by_cases hk : k = b
          · subst hk
            rw [if_pos rfl]
            refine tab_congr fun l _ => ?_
            beta_reduce
            rw [if_pos (show k < k + 1 by omega), if_neg (show ¬ k < k by omega), if_neg (show ¬ k < k by omega)]
            by_cases hl : i < l ∧ l < 64
            · have hp : (if j < k then elimM N 64 i j M j l else divM N i j M j l) = N.div (M j l) (M j i) := by
                unfold elimM divM
                rw [if_pos hl, if_pos rfl, if_pos rfl, if_pos hl, ite_self]
              rw [if_pos hl, hp]
              unfold divM elimM
              rw [if_neg hb, if_neg hb, if_pos hl, if_neg hb, if_neg hsm]
            · rw [if_neg hl]
              unfold divM elimM
              rw [if_neg hb, if_neg hl]
          · rw [if_neg hk]
            refine tab_congr fun l _ => ?_
            beta_reduce
            by_cases h : k < b
            · rw [if_pos h, if_pos (by omega)]
            · rw [if_neg h, if_neg (by omega)])
  rw [show size = 64 from rfl, e, hs]
  refine congrArg Except.ok (tab_congr fun k hk => tab_congr fun l _ => ?_)
  beta_reduce
  rw [if_pos hk]

theorem findPivot_pure (t : Elim F) (i : Nat) (hi : i < 64) :
    findPivot N (rows t.M) (tab t.sel) i = .ok ((pivot N 64 t i).getD 64) ∧ ∀ j, pivot N 64 t i = some j → j < 64 := by
  have key := forRangeE_inv (f := pivotStep N (rows t.M) (tab t.sel) i)
    (fun b _ => ∀ j < b, (!t.sel j && N.big (t.M j i)) = false)
    (fun j => j < 64 ∧ (!t.sel j && N.big (t.M j i)) = true ∧ ∀ j' < j, (!t.sel j' && N.big (t.M j' i)) = false) 0 64 () (by omega)
    (by intros; omega) (by
      intro j _ _ hj hI
      unfold pivotStep rows
      rw [idx_tab _ _ hj, ok_bind, idx_tab _ _ hj, ok_bind, idx_tab _ _ hi, ok_bind]
      by_cases h1 : (!t.sel j && N.big (t.M j i)) = true
      · rw [if_pos h1]
        exact Or.inr ⟨j, rfl, hj, h1, hI⟩
      · rw [if_neg h1]
        refine Or.inl ⟨(), rfl, ?_⟩
        intro j' hj'
        by_cases h2 : j' = j
        · subst h2
          simpa using h1
        · exact hI j' (by omega))
  unfold findPivot
  rw [show size = 64 from rfl]
  refine ⟨?_, ?_⟩
  · rcases key with ⟨s, e, h⟩ | ⟨b, e, h1, h2, h3⟩
    · have hn : pivot N 64 t i = none := by
        unfold pivot
        rw [List.find?_eq_none]
        intro j hj
        rw [h j (List.mem_range.1 hj)]
        simp
      rw [e, ok_bind, hn]
      rfl
    · have hn : pivot N 64 t i = some b := by
        unfold pivot
        rw [List.find?_range_eq_some]
        refine ⟨h2, List.mem_range.2 h1, ?_⟩
        intro j hj
        rw [h3 j hj]
        rfl
      rw [e, ok_bind, hn]
      rfl
  · intro j hj
    unfold pivot at hj
    exact List.mem_range.1 (List.mem_of_find?_eq_some hj)

theorem rankStep_pure (t : Elim F) (i : Nat) (hi : i < 64) :
    rankStep N i ⟨rows t.M, t.rank, tab t.sel⟩ =
      .ok ⟨rows (elimCol N 64 t i).M, (elimCol N 64 t i).rank, tab (elimCol N 64 t i).sel⟩ := by
  obtain ⟨h1, h2⟩ := findPivot_pure N t i hi
  unfold rankStep
  dsimp only
  rw [h1, ok_bind]
  unfold elimCol
  cases hp : pivot N 64 t i with
  | none =>
    rw [Option.getD_none, if_neg (by simp [size])]
    rfl
  | some j =>
    have hj := h2 j hp
    rw [Option.getD_some, if_pos (by rw [size]; omega), upd_tab _ _ _ hj, ok_bind]
    have hr : idx (rows t.M) j = .ok (tab (t.M j)) := idx_tab _ _ hj
    rw [hr, ok_bind, divLoop_pure N i hi, ok_bind]
    have hu : upd (rows t.M) j (tab fun l => if i < l ∧ l < 64 then N.div (t.M j l) (t.M j i) else t.M j l) =
        .ok (rows (divM N i j t.M)) := by
      unfold rows
      rw [upd_tab _ _ _ hj]
      refine congrArg Except.ok (tab_congr fun k _ => ?_)
      by_cases hk : k = j
      · rw [if_pos hk]
        refine tab_congr fun l _ => ?_
        unfold divM
        rw [if_pos hk]
      · rw [if_neg hk]
        refine tab_congr fun l _ => ?_
        unfold divM
        rw [if_neg hk]
    rw [hu, ok_bind, elimLoop_pure N i j hi hj, ok_bind]
    rfl

/-- the entries of a list of rows as numbers -/
def entries (mat : List (List U16)) (k l : Nat) : F := N.ofU16 ((mat.getD k []).getD l 0)

/-- the routine computes the rank of the function -/
theorem calculateRank_pure (mat : List (List U16)) (h : Square mat) (M : Nat → Nat → F) (hM : ∀ k < 64, ∀ l < 64, M k l = entries N mat k l) :
    calculateRank N mat = .ok (elimTo N 64 (elimInit M) 64).rank := by
  have hrows0 : (mat.map fun row => row.map N.ofU16) = rows (entries N mat) := by
    apply List.ext_getElem
    · rw [List.length_map, h.1, rows, tab_length]
    · intro k hk hk'
      have hk2 : k < mat.length := by simpa using hk
      have hr := h.2 _ (List.getElem_mem hk2)
      apply List.ext_getElem
      · simp [rows, tab, hr]
      · intro l hl hl'
        have hl2 : l < (mat[k]).length := by simpa using hl
        simp [rows, tab, entries, List.getD_eq_getElem?_getD, List.getElem?_eq_getElem hk2, List.getElem?_eq_getElem hl2]
  have hrows : (mat.map fun row => row.map N.ofU16) = rows M := by
    rw [hrows0]
    exact tab_congr fun k hk => tab_congr fun l hl => (hM k hk l hl).symm
  obtain ⟨s, e, hs⟩ := forRange_inv (f := rankStep N)
    (fun i s => s = ⟨rows (elimTo N 64 (elimInit M) i).M, (elimTo N 64 (elimInit M) i).rank,
      tab (elimTo N 64 (elimInit M) i).sel⟩) 0 64
    { copied := rows M, rank := 0, rowsSelected := List.replicate size false } (by omega)
    (by
      have : List.replicate size false = tab fun _ => false := by decide
      rw [this]
      rfl) (by
      rintro i s _ hi rfl
      refine ⟨_, rankStep_pure N _ i hi, ?_⟩
      rw [elimTo_succ])
  unfold calculateRank
  dsimp only
  rw [hrows, show size = 64 from rfl]
  rw [show size = 64 from rfl] at e
  rw [e, ok_bind, hs]
  obtain ⟨t, ht⟩ : ∃ t, t = elimTo N 64 (elimInit M) 64 := ⟨_, rfl⟩
  rw [← ht]
  rfl

end Pure

end Verif.Heavy
