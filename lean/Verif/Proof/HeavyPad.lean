import Verif.Proof.HeavyPure

/-! # The routine on a small block completed by a unit matrix -/

set_option autoImplicit false

namespace Verif.Heavy

open Go

theorem find?_congr {α : Type} {l : List α} {p q : α → Bool} (h : ∀ a ∈ l, p a = q a) : l.find? p = l.find? q := by
  induction l with
  | nil => rfl
  | cons a l ih =>
    rw [List.find?_cons, List.find?_cons, h a (by simp), ih fun b hb => h b (by simp [hb])]

section Pad
variable {F : Type} (N : Num F)

/-- a predicate `Z` that holds of the zeros and is kept by the operations of the elimination -/
structure ZeroLike (Z : F → Prop) : Prop where
  zero : Z (N.ofU16 0)
  small_zero : N.small (N.ofU16 0) = true
  big_one : N.big (N.ofU16 1) = true
  not_big : ∀ x, Z x → N.big x = false
  div : ∀ x y, Z x → Z (N.div x y)
  mulSub : ∀ x p c, Z x → Z p → Z (N.mulSub x p c)

/-- `M` outside the first `n` rows and columns is the unit matrix -/
def UnitOutside (n : Nat) (M : Nat → Nat → F) : Prop := ∀ k l, ¬ (k < n ∧ l < n) → M k l = if k = l then N.ofU16 1 else N.ofU16 0

variable {N} {Z : F → Prop} (hZ : ZeroLike N Z) {n : Nat} (hn : n ≤ 64) {M : Nat → Nat → F} (hM : UnitOutside N n M)

include hZ hn hM

theorem pad_block (i : Nat) (hi : i ≤ n) :
    (∀ k < n, (elimTo N 64 (elimInit M) i).sel k = (elimTo N n (elimInit M) i).sel k) ∧
    (∀ k, n ≤ k → (elimTo N 64 (elimInit M) i).sel k = false) ∧
    (elimTo N 64 (elimInit M) i).rank = (elimTo N n (elimInit M) i).rank ∧
    (∀ k < n, ∀ l < n, (elimTo N 64 (elimInit M) i).M k l = (elimTo N n (elimInit M) i).M k l) ∧
    (∀ k < n, ∀ l, n ≤ l → Z ((elimTo N 64 (elimInit M) i).M k l)) ∧
    (∀ k l, n ≤ k → (elimTo N 64 (elimInit M) i).M k l = M k l) := by
  induction i with
  | zero =>
    refine ⟨fun _ _ => rfl, fun _ _ => rfl, rfl, fun _ _ _ _ => rfl, ?_, fun _ _ _ => rfl⟩
    intro k hk l hl
    show Z (M k l)
    rw [hM k l (by omega), if_neg (by omega)]
    exact hZ.zero
  | succ i ih =>
    obtain ⟨h1, h2, h3, h4, h5, h6⟩ := ih (by omega)
    rw [elimTo_succ, elimTo_succ]
    obtain ⟨t, ht⟩ : ∃ t, t = elimTo N 64 (elimInit M) i := ⟨_, rfl⟩
    obtain ⟨u, hu⟩ : ∃ u, u = elimTo N n (elimInit M) i := ⟨_, rfl⟩
    rw [← ht] at h1 h2 h3 h4 h5 h6 ⊢
    rw [← hu] at h1 h3 h4 ⊢
    have hMz : ∀ k, n ≤ k → M k i = N.ofU16 0 := by
      intro k hk
      rw [hM k i (by omega), if_neg (by omega)]
    have hp : pivot N 64 t i = pivot N n u i := by
      unfold pivot
      have hr : List.range 64 = List.range n ++ (List.range (64 - n)).map (n + ·) := by
        rw [← List.range_add]
        congr 1
        omega
      have hnone : ((List.range (64 - n)).map (n + ·)).find? (fun j => !t.sel j && N.big (t.M j i)) = none := by
        rw [List.find?_eq_none]
        intro j hj
        obtain ⟨a, _, rfl⟩ := List.mem_map.1 hj
        rw [h6 _ _ (by omega), hMz _ (by omega), hZ.not_big _ hZ.zero]
        simp
      rw [hr, List.find?_append, hnone, Option.or_none]
      apply find?_congr
      intro j hj
      have hj' := List.mem_range.1 hj
      rw [h1 j hj', h4 j hj' i (by omega)]
    unfold elimCol
    rw [hp]
    cases hq : pivot N n u i with
    | none => exact ⟨h1, h2, h3, h4, h5, h6⟩
    | some j =>
      have hj : j < n := by
        unfold pivot at hq
        exact List.mem_range.1 (List.mem_of_find?_eq_some hq)
      dsimp only
      refine ⟨?_, ?_, by rw [h3], ?_, ?_, ?_⟩
      · intro k hk
        rw [h1 k hk]
      · intro k hk
        rw [if_neg (by omega), h2 k hk]
      · intro k hk l hl
        unfold elimM
        rw [h4 k hk l hl, h4 j hj l hl, h4 j hj i (by omega), h4 k hk i (by omega)]
        by_cases hil : i < l
        · rw [if_pos (show i < l ∧ l < 64 from ⟨hil, by omega⟩), if_pos (show i < l ∧ l < n from ⟨hil, hl⟩)]
        · rw [if_neg (show ¬ (i < l ∧ l < 64) by omega), if_neg (show ¬ (i < l ∧ l < n) by omega)]
      · intro k hk l hl
        unfold elimM
        by_cases hil : i < l ∧ l < 64
        · rw [if_pos hil]
          by_cases hkj : k = j
          · rw [if_pos hkj]
            exact hZ.div _ _ (h5 j hj l hl)
          · rw [if_neg hkj]
            by_cases hs : N.small (t.M k i) = true
            · rw [if_pos hs]
              exact h5 k hk l hl
            · rw [if_neg hs]
              exact hZ.mulSub _ _ _ (h5 k hk l hl) (hZ.div _ _ (h5 j hj l hl))
        · rw [if_neg hil]
          exact h5 k hk l hl
      · intro k l hk
        unfold elimM
        rw [h6 k i hk, hMz k hk, hZ.small_zero, if_pos rfl, if_neg (show ¬ k = j by omega), ite_self, h6 k l hk]

theorem pad_unit (i : Nat) (hi : n ≤ i) (hi' : i ≤ 64) :
    (∀ k, n ≤ k → k < i → (elimTo N 64 (elimInit M) i).sel k = true) ∧
    (∀ k, i ≤ k → (elimTo N 64 (elimInit M) i).sel k = false) ∧
    (elimTo N 64 (elimInit M) i).rank = (elimTo N n (elimInit M) n).rank + (i - n) ∧
    (∀ k < n, ∀ l, i ≤ l → Z ((elimTo N 64 (elimInit M) i).M k l)) ∧
    (∀ k l, i ≤ k → (elimTo N 64 (elimInit M) i).M k l = M k l) := by
  induction i, hi using Nat.le_induction with
  | base =>
    obtain ⟨h1, h2, h3, h4, h5, h6⟩ := pad_block hZ hn hM n (Nat.le_refl n)
    exact ⟨fun k _ _ => by omega, h2, by rw [h3]; omega, h5, h6⟩
  | succ i hni ih =>
    obtain ⟨h1, h2, h3, h5, h6⟩ := ih (by omega)
    rw [elimTo_succ]
    obtain ⟨t, ht⟩ : ∃ t, t = elimTo N 64 (elimInit M) i := ⟨_, rfl⟩
    rw [← ht] at h1 h2 h3 h5 h6 ⊢
    have hMz : ∀ k l, i ≤ k → k ≠ l → M k l = N.ofU16 0 := by
      intro k l hk hl
      rw [hM k l (by omega), if_neg hl]
    have hp : pivot N 64 t i = some i := by
      unfold pivot
      rw [List.find?_range_eq_some]
      refine ⟨?_, List.mem_range.2 (by omega), ?_⟩
      · rw [h2 i (Nat.le_refl i), h6 i i (Nat.le_refl i), hM i i (by omega), if_pos rfl, hZ.big_one]
        rfl
      · intro j hj
        by_cases hjn : j < n
        · rw [hZ.not_big _ (h5 j hjn i (Nat.le_refl i))]
          simp
        · rw [h1 j (by omega) hj]
          simp
    unfold elimCol
    rw [hp]
    dsimp only
    refine ⟨?_, ?_, by rw [h3]; omega, ?_, ?_⟩
    · intro k hk hk'
      by_cases hki : k = i
      · rw [if_pos hki]
      · rw [if_neg hki, h1 k hk (by omega)]
    · intro k hk
      rw [if_neg (by omega), h2 k (by omega)]
    · intro k hk l hl
      unfold elimM
      by_cases hil : i < l ∧ l < 64
      · rw [if_pos hil, if_neg (by omega)]
        by_cases hs : N.small (t.M k i) = true
        · rw [if_pos hs]
          exact h5 k hk l (by omega)
        · rw [if_neg hs]
          refine hZ.mulSub _ _ _ (h5 k hk l (by omega)) (hZ.div _ _ ?_)
          rw [h6 i l (Nat.le_refl i), hMz i l (Nat.le_refl i) (by omega)]
          exact hZ.zero
      · rw [if_neg hil]
        exact h5 k hk l (by omega)
    · intro k l hk
      unfold elimM
      rw [h6 k i (by omega), hMz k i (by omega) (by omega), hZ.small_zero, if_pos rfl, if_neg (show ¬ k = i by omega), ite_self, h6 k l (by omega)]

/-- the rank of the completed block -/
theorem pad_rank : (elimTo N 64 (elimInit M) 64).rank = (elimTo N n (elimInit M) n).rank + (64 - n) :=
  (pad_unit hZ hn hM 64 hn (Nat.le_refl 64)).2.2.1

end Pad

/-! ### evaluation with lists -/

section Eval
variable {F : Type} (N : Num F)

/-- one column, with the first remaining column at the head of the rows; a selected row is marked -/
def listCol (z : F) (rows : List (Bool × List F)) : List (Bool × List F) × Nat :=
  match rows.findIdx? fun r => !r.1 && N.big (r.2.headD z) with
  | none => (rows.map fun r => (r.1, r.2.tail), 0)
  | some j =>
    let r := rows.getD j (true, [])
    let p := r.2.tail.map (N.div · (r.2.headD z))
    (rows.mapIdx fun k r =>
      if k = j then (true, p)
      else (r.1, if N.small (r.2.headD z) then r.2.tail else List.zipWith (N.mulSub · · (r.2.headD z)) r.2.tail p), 1)

/-- all the columns -/
def listRank (z : F) : Nat → List (Bool × List F) → Nat
  | 0, _ => 0
  | n + 1, rows => let (rows', r) := listCol N z rows; r + listRank z n rows'

/-- the rows of the state from column `i` on -/
def listOf (n i : Nat) (t : Elim F) : List (Bool × List F) :=
  (List.range n).map fun k => (t.sel k, (List.range (n - i)).map fun l => t.M k (i + l))

theorem listOf_row (n i : Nat) (hi : i < n) (t : Elim F) (z : F) (k : Nat) :
    ((List.range (n - i)).map fun l => t.M k (i + l)).headD z = t.M k i ∧
    ((List.range (n - i)).map fun l => t.M k (i + l)).tail = (List.range (n - (i + 1))).map fun l => t.M k (i + 1 + l) := by
  obtain ⟨m, hm⟩ : ∃ m, n - i = m + 1 := ⟨n - i - 1, by omega⟩
  have hm' : n - (i + 1) = m := by omega
  rw [hm, hm', List.range_succ_eq_map]
  refine ⟨by simp, ?_⟩
  rw [List.map_cons, List.tail_cons, List.map_map]
  apply List.map_congr_left
  intro l _
  show t.M k (i + (l + 1)) = _
  rw [show i + (l + 1) = i + 1 + l by omega]

theorem listCol_eq (n i : Nat) (hi : i < n) (t : Elim F) (z : F) :
    (listCol N z (listOf n i t)).1 = listOf n (i + 1) (elimCol N n t i) ∧ t.rank + (listCol N z (listOf n i t)).2 = (elimCol N n t i).rank := by
  have hpiv : (listOf n i t).findIdx? (fun r => !r.1 && N.big (r.2.headD z)) = pivot N n t i := by
    unfold pivot listOf
    rw [List.findIdx?_map]
    have hc : ((fun r : Bool × List F => !r.1 && N.big (r.2.headD z)) ∘ fun k => (t.sel k, (List.range (n - i)).map fun l => t.M k (i + l))) =
        fun j => !t.sel j && N.big (t.M j i) := by
      funext j
      show (!t.sel j && N.big (((List.range (n - i)).map fun l => t.M j (i + l)).headD z)) = _
      rw [(listOf_row n i hi t z j).1]
    rw [hc]
    obtain ⟨p, hp⟩ : ∃ p : Nat → Bool, p = fun j => !t.sel j && N.big (t.M j i) := ⟨_, rfl⟩
    rw [← hp]
    cases hf : (List.range n).find? p with
    | none =>
      rw [List.find?_eq_none] at hf
      rw [List.findIdx?_eq_none_iff]
      intro x hx
      simpa using hf x hx
    | some j =>
      rw [List.find?_range_eq_some] at hf
      obtain ⟨h1, h2, h3⟩ := hf
      rw [List.findIdx?_eq_some_iff_getElem]
      have hj := List.mem_range.1 h2
      refine ⟨by simpa using hj, by simpa using h1, ?_⟩
      intro a ha
      have := h3 a ha
      simpa using this
  unfold listCol elimCol
  rw [hpiv]
  cases hq : pivot N n t i with
  | none =>
    refine ⟨?_, rfl⟩
    show (listOf n i t).map (fun r => (r.1, r.2.tail)) = _
    unfold listOf
    rw [List.map_map]
    apply List.map_congr_left
    intro k _
    show (t.sel k, ((List.range (n - i)).map fun l => t.M k (i + l)).tail) = _
    rw [(listOf_row n i hi t z k).2]
  | some j =>
    have hj : j < n := by
      unfold pivot at hq
      exact List.mem_range.1 (List.mem_of_find?_eq_some hq)
    refine ⟨?_, rfl⟩
    dsimp only
    have hrow : (listOf n i t).getD j (true, []) = (t.sel j, (List.range (n - i)).map fun l => t.M j (i + l)) := by
      unfold listOf
      simp [List.getD_eq_getElem?_getD, hj]
    rw [hrow]
    dsimp only
    rw [(listOf_row n i hi t z j).1, (listOf_row n i hi t z j).2, List.map_map]
    apply List.ext_getElem
    · simp [listOf]
    · intro k hk hk'
      have hkn : k < n := by simpa [listOf] using hk'
      rw [List.getElem_mapIdx]
      have hg : (listOf n i t)[k]'(by simpa [listOf] using hkn) = (t.sel k, (List.range (n - i)).map fun l => t.M k (i + l)) := by
        simp [listOf]
      rw [hg]
      have hg' : (listOf n (i + 1) ⟨elimM N n i j t.M, fun k => if k = j then true else t.sel k, t.rank + 1⟩)[k]'hk' =
          (if k = j then true else t.sel k, (List.range (n - (i + 1))).map fun l => elimM N n i j t.M k (i + 1 + l)) := by
        simp [listOf]
      rw [hg']
      dsimp only
      rw [(listOf_row n i hi t z k).1, (listOf_row n i hi t z k).2]
      by_cases hkj : k = j
      · rw [if_pos hkj, if_pos hkj]
        refine congrArg (Prod.mk true) ?_
        apply List.map_congr_left
        intro l hl
        have := List.mem_range.1 hl
        unfold elimM
        rw [if_pos (by omega), if_pos hkj]
        rfl
      · rw [if_neg hkj, if_neg hkj]
        refine congrArg (Prod.mk (t.sel k)) ?_
        by_cases hs : N.small (t.M k i) = true
        · rw [if_pos hs]
          apply List.map_congr_left
          intro l hl
          have := List.mem_range.1 hl
          unfold elimM
          rw [if_pos (by omega), if_neg hkj, if_pos hs]
        · rw [if_neg hs]
          apply List.ext_getElem
          · simp
          · intro l hl hl'
            have := List.mem_range.1 (by simpa using hl' : l ∈ List.range (n - (i + 1)))
            simp only [List.getElem_zipWith, List.getElem_map, List.getElem_range, Function.comp]
            unfold elimM
            rw [if_pos (by omega), if_neg hkj, if_neg hs]

theorem listRank_eq (z : F) (n m i : Nat) (hi : i + m = n) (t : Elim F) (s : Elim F) (ht : t = elimTo N n s i) :
    t.rank + listRank N z m (listOf n i t) = (elimTo N n s n).rank := by
  induction m generalizing i t with
  | zero =>
    have : i = n := by omega
    subst this
    rw [ht]
    rfl
  | succ m ih =>
    obtain ⟨h1, h2⟩ := listCol_eq N n i (by omega) t z
    have := ih (i + 1) (by omega) (elimCol N n t i) (by rw [elimTo_succ, ht])
    rw [← this, ← h1, ← h2]
    show t.rank + ((listCol N z (listOf n i t)).2 + listRank N z m (listCol N z (listOf n i t)).1) = _
    omega

/-- the rows of the first `n` rows and columns of a matrix -/
def blockOf (n : Nat) (M : Nat → Nat → F) : List (Bool × List F) :=
  (List.range n).map fun k => (false, (List.range n).map (M k))

theorem listRank_block (z : F) (n : Nat) (M : Nat → Nat → F) : (elimTo N n (elimInit M) n).rank = listRank N z n (blockOf n M) := by
  have := listRank_eq N z n n 0 (by omega) (elimInit M) (elimInit M) rfl
  rw [← this]
  show 0 + _ = _
  rw [Nat.zero_add]
  refine congrArg (listRank N z n) ?_
  unfold listOf blockOf
  apply List.map_congr_left
  intro k _
  refine congrArg (Prod.mk false) ?_
  apply List.map_congr_left
  intro l _
  rw [Nat.zero_add]
  rfl

end Eval

/-- a matrix of 64 rows: the block `f` of `n` rows and columns completed by the unit matrix -/
def padded (n : Nat) (f : Nat → Nat → Nat) : List (List U16) :=
  (List.range 64).map fun i => (List.range 64).map fun j => BitVec.ofNat 16 (if i < n ∧ j < n then f i j else if i = j then 1 else 0)

theorem padded_square (n : Nat) (f : Nat → Nat → Nat) : Square (padded n f) := by
  refine ⟨by simp [padded], ?_⟩
  intro r hr
  obtain ⟨i, _, rfl⟩ := List.mem_map.1 hr
  simp

/-- the entries of a padded matrix -/
def paddedEntries {F : Type} (N : Num F) (n : Nat) (f : Nat → Nat → Nat) (k l : Nat) : F :=
  N.ofU16 (BitVec.ofNat 16 (if k < n ∧ l < n then f k l else if k = l then 1 else 0))

/-- the rank computed for a padded matrix -/
theorem padded_rank {F : Type} (N : Num F) {Z : F → Prop} (hZ : ZeroLike N Z) (z : F) (n : Nat) (hn : n ≤ 64) (f : Nat → Nat → Nat) :
    calculateRank N (padded n f) = .ok (listRank N z n (blockOf n (paddedEntries N n f)) + (64 - n)) := by
  rw [calculateRank_pure N _ (padded_square n f) (paddedEntries N n f), pad_rank hZ hn, listRank_block N z]
  · intro k l h
    unfold paddedEntries
    rw [if_neg h]
    by_cases hkl : k = l
    · rw [if_pos hkl, if_pos hkl]
      rfl
    · rw [if_neg hkl, if_neg hkl]
      rfl
  · intro k hk l hl
    unfold paddedEntries entries padded
    simp [List.getD_eq_getElem?_getD, hk, hl]

end Verif.Heavy
