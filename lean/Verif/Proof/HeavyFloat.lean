import Verif.Proof.HeavyPad
import Verif.Proof.HeavyRank
import Verif.Proof.Float64
import Verif.Model.HeavyFloat

/-! # The rank routine with the doubles of Go -/

set_option autoImplicit false

namespace Verif.Heavy

open Go

/-! ### any arithmetic -/

section Any
variable {F : Type} (N : Num F)

theorem elimCol_cases (n : Nat) (s : Elim F) (i : Nat) :
    (elimCol N n s i = s ∧ ∀ j < n, s.sel j = true ∨ N.big (s.M j i) = false) ∨
    ∃ j, j < n ∧ s.sel j = false ∧ N.big (s.M j i) = true ∧ (∀ j' < j, s.sel j' = true ∨ N.big (s.M j' i) = false) ∧
      elimCol N n s i = ⟨elimM N n i j s.M, fun k => if k = j then true else s.sel k, s.rank + 1⟩ := by
  unfold elimCol
  have hb : ∀ j, (!s.sel j && N.big (s.M j i)) = false → s.sel j = true ∨ N.big (s.M j i) = false := by
    intro j h
    cases h1 : s.sel j <;> cases h2 : N.big (s.M j i) <;> simp_all
  cases hp : pivot N n s i with
  | none =>
    left
    refine ⟨rfl, fun j hj => ?_⟩
    unfold pivot at hp
    rw [List.find?_eq_none] at hp
    exact hb j (by simpa using hp j (List.mem_range.2 hj))
  | some j =>
    right
    unfold pivot at hp
    rw [List.find?_range_eq_some] at hp
    obtain ⟨h1, h2, h3⟩ := hp
    have h1' : s.sel j = false ∧ N.big (s.M j i) = true := by simpa using h1
    refine ⟨j, List.mem_range.1 h2, h1'.1, h1'.2, fun j' hj' => hb j' ?_, rfl⟩
    have := h3 j' hj'
    rwa [Bool.not_eq_true'] at this

/-- the rank counts columns -/
theorem elimTo_rank_le (n : Nat) (M : Nat → Nat → F) (i : Nat) : (elimTo N n (elimInit M) i).rank ≤ i := by
  induction i with
  | zero => exact Nat.le_refl 0
  | succ i ih =>
    rw [elimTo_succ]
    rcases elimCol_cases N n (elimTo N n (elimInit M) i) i with ⟨h, _⟩ | ⟨j, _, _, _, _, h⟩
    · rw [h]; omega
    · rw [h]; show _ + 1 ≤ _; omega

/-- the rank counts the selected rows -/
theorem elimTo_rank_sel (n : Nat) (M : Nat → Nat → F) (i : Nat) :
    (elimTo N n (elimInit M) i).rank = (List.range n).countP (elimTo N n (elimInit M) i).sel := by
  induction i with
  | zero =>
    show 0 = (List.range n).countP fun _ => false
    simp
  | succ i ih =>
    rw [elimTo_succ]
    obtain ⟨t, ht⟩ : ∃ t, t = elimTo N n (elimInit M) i := ⟨_, rfl⟩
    rw [← ht] at ih ⊢
    rcases elimCol_cases N n t i with ⟨h, _⟩ | ⟨j, hj, hs, _, _, h⟩
    · rw [h]; exact ih
    · rw [h]
      dsimp only
      rw [ih]
      obtain ⟨m, hm⟩ : ∃ m, n = j + 1 + m := ⟨n - (j + 1), by omega⟩
      have key : ∀ p : Nat → Bool, (List.range n).countP p =
          (List.range j).countP p + ((if p j then 1 else 0) + ((List.range m).map (j + 1 + ·)).countP p) := by
        intro p
        rw [hm, List.range_add, List.range_succ, List.countP_append, List.countP_append, List.countP_singleton]
        omega
      have hc : ∀ l : List Nat, j ∉ l → l.countP (fun k => if k = j then true else t.sel k) = l.countP t.sel := by
        intro l hl
        apply List.countP_congr
        intro x hx
        have : x ≠ j := fun hh => hl (hh ▸ hx)
        simp [this]
      rw [key, key, hc _ (by simp), hc _ (by simp; omega), if_pos rfl, if_pos rfl, hs]
      simp
      omega

variable {N} {Z : F → Prop} (hZ : ZeroLike N Z)

include hZ

/-- a column of zeros is never counted -/
theorem zeroCol_rank (M : Nat → Nat → F) (c : Nat) (hc : c < 64) (hcol : ∀ k < 64, M k c = N.ofU16 0) :
    (elimTo N 64 (elimInit M) 64).rank ≤ 63 := by
  have hI : ∀ i, ∀ k < 64, Z ((elimTo N 64 (elimInit M) i).M k c) := by
    intro i
    induction i with
    | zero =>
      intro k hk
      show Z (M k c)
      rw [hcol k hk]
      exact hZ.zero
    | succ i ih =>
      intro k hk
      rw [elimTo_succ]
      rcases elimCol_cases N 64 (elimTo N 64 (elimInit M) i) i with ⟨h, _⟩ | ⟨j, hj, _, _, _, h⟩
      · rw [h]; exact ih k hk
      · rw [h]
        show Z (elimM N 64 i j _ k c)
        unfold elimM
        split_ifs
        · exact hZ.div _ _ (ih j hj)
        · exact ih k hk
        · exact hZ.mulSub _ _ _ (ih k hk) (hZ.div _ _ (ih j hj))
        · exact ih k hk
  have hR : ∀ i, c < i → (elimTo N 64 (elimInit M) i).rank + 1 ≤ i := by
    intro i hi
    induction i, hi using Nat.le_induction with
    | base =>
      rw [elimTo_succ]
      have hle := elimTo_rank_le N 64 M c
      rcases elimCol_cases N 64 (elimTo N 64 (elimInit M) c) c with ⟨h, _⟩ | ⟨j, hj, _, hb, _, h⟩
      · rw [h]; omega
      · rw [hZ.not_big _ (hI c j hj)] at hb
        cases hb
    | succ i hi ih =>
      rw [elimTo_succ]
      rcases elimCol_cases N 64 (elimTo N 64 (elimInit M) i) i with ⟨h, _⟩ | ⟨j, _, _, _, _, h⟩
      · rw [h]; omega
      · rw [h]; show _ + 1 + 1 ≤ _; omega
  have := hR 64 hc
  omega

/-- a row of zeros is never selected -/
theorem zeroRow_rank (M : Nat → Nat → F) (r : Nat) (hr : r < 64) (hrow : ∀ l < 64, M r l = N.ofU16 0) :
    (elimTo N 64 (elimInit M) 64).rank ≤ 63 := by
  have hI : ∀ i ≤ 64, (elimTo N 64 (elimInit M) i).sel r = false ∧ ∀ l < 64, (elimTo N 64 (elimInit M) i).M r l = N.ofU16 0 := by
    intro i hi
    induction i with
    | zero => exact ⟨rfl, hrow⟩
    | succ i ih =>
      obtain ⟨h1, h2⟩ := ih (by omega)
      rw [elimTo_succ]
      rcases elimCol_cases N 64 (elimTo N 64 (elimInit M) i) i with ⟨h, _⟩ | ⟨j, hj, _, hb, _, h⟩
      · rw [h]; exact ⟨h1, h2⟩
      · have hjr : ¬ r = j := by
          rintro rfl
          rw [h2 i (by omega), hZ.not_big _ hZ.zero] at hb
          cases hb
        rw [h]
        dsimp only
        refine ⟨by rw [if_neg hjr]; exact h1, ?_⟩
        intro l hl
        unfold elimM
        rw [if_neg hjr, h2 i (by omega), hZ.small_zero, if_pos rfl, h2 l hl, ite_self]
  rw [elimTo_rank_sel]
  have hlt : (List.range 64).countP (elimTo N 64 (elimInit M) 64).sel < (List.range 64).length := by
    refine lt_of_le_of_ne List.countP_le_length fun h => ?_
    have := List.countP_eq_length.1 h r (List.mem_range.2 hr)
    rw [(hI 64 (Nat.le_refl _)).1] at this
    cases this
  rw [List.length_range] at hlt
  omega

/-- an upper triangular matrix with a nonzero diagonal has rank 64 -/
theorem upper_rank (M : Nat → Nat → F) (hlow : ∀ k < 64, ∀ l < k, M k l = N.ofU16 0) (hdiag : ∀ k < 64, N.big (M k k) = true) :
    (elimTo N 64 (elimInit M) 64).rank = 64 := by
  have hI : ∀ i ≤ 64, (elimTo N 64 (elimInit M) i).rank = i ∧
      (∀ k < i, (elimTo N 64 (elimInit M) i).sel k = true) ∧ (∀ k, i ≤ k → (elimTo N 64 (elimInit M) i).sel k = false) ∧
      (∀ k < 64, i ≤ k → ∀ l, (elimTo N 64 (elimInit M) i).M k l = M k l) := by
    intro i hi
    induction i with
    | zero => exact ⟨rfl, fun k hk => absurd hk (Nat.not_lt_zero k), fun _ _ => rfl, fun _ _ _ _ => rfl⟩
    | succ i ih =>
      obtain ⟨h1, h2, h3, h4⟩ := ih (by omega)
      rw [elimTo_succ]
      obtain ⟨t, ht⟩ : ∃ t, t = elimTo N 64 (elimInit M) i := ⟨_, rfl⟩
      rw [← ht] at h1 h2 h3 h4 ⊢
      have hii : N.big (t.M i i) = true := by rw [h4 i (by omega) (Nat.le_refl i)]; exact hdiag i (by omega)
      rcases elimCol_cases N 64 t i with ⟨_, h⟩ | ⟨j, hj, hs, hb, hmin, h⟩
      · rcases h i (by omega) with h | h
        · rw [h3 i (Nat.le_refl i)] at h; cases h
        · rw [hii] at h; cases h
      · have hji : j = i := by
          rcases Nat.lt_trichotomy j i with hlt | heq | hgt
          · rw [h2 j hlt] at hs; cases hs
          · exact heq
          · rw [h4 j hj (by omega), hlow j hj i hgt, hZ.not_big _ hZ.zero] at hb; cases hb
        subst hji
        rw [h]
        dsimp only
        refine ⟨by omega, ?_, ?_, ?_⟩
        · intro k hk
          by_cases hkj : k = j
          · rw [if_pos hkj]
          · rw [if_neg hkj, h2 k (by omega)]
        · intro k hk
          rw [if_neg (by omega), h3 k (by omega)]
        · intro k hk hjk l
          unfold elimM
          rw [if_neg (show ¬ k = j by omega), h4 k hk (by omega) j, hlow k hk j (by omega), hZ.small_zero, if_pos rfl, ite_self,
            h4 k hk (by omega) l]
  exact (hI 64 (Nat.le_refl _)).1

end Any

/-! ### doubles -/

open F64 in
/-- zero of either sign, or NaN -/
def DZero (x : F64) : Prop := x = .nan ∨ ∃ s, x = .fin s 0

theorem round_zero (s : Bool) (d : Nat) : F64.round s 0 d = .fin s 0 := by
  have h : F64.roundNat 0 d = 0 := by
    unfold F64.roundNat
    simp
  unfold F64.round
  dsimp only
  rw [h, if_neg]
  have h1 : 0 < F64.one := F64.one_pos
  have h2 : 0 < 2 ^ 1024 * F64.one := Nat.mul_pos (Nat.pow_pos (by decide)) h1
  omega

theorem epsilon_lt_one : epsilon < F64.one := by decide +kernel

attribute [local irreducible] F64.round F64.one epsilon F64.ofNat

theorem dzero_div (x y : F64) (h : DZero x) : DZero (F64.div x y) := by
  rcases h with rfl | ⟨s, rfl⟩
  · exact Or.inl rfl
  · cases y with
    | nan => exact Or.inl rfl
    | inf t => exact Or.inr ⟨_, rfl⟩
    | fin t b =>
      show DZero (if b = 0 then if 0 = 0 then .nan else .inf (s != t) else F64.round (s != t) (0 * F64.one) b)
      by_cases hb : b = 0
      · rw [if_pos hb, if_pos rfl]; exact Or.inl rfl
      · rw [if_neg hb, Nat.zero_mul, round_zero]; exact Or.inr ⟨_, rfl⟩

theorem dzero_mul (x y : F64) (h : DZero x) : DZero (F64.mul x y) := by
  rcases h with rfl | ⟨s, rfl⟩
  · exact Or.inl rfl
  · cases y with
    | nan => exact Or.inl rfl
    | inf t => exact Or.inl rfl
    | fin t b => show DZero (F64.round (s != t) (0 * b) F64.one); rw [Nat.zero_mul, round_zero]; exact Or.inr ⟨_, rfl⟩

theorem roundDiff_zero (s t : Bool) (d : Nat) : ∃ v, F64.roundDiff s 0 t 0 d = .fin v 0 := by
  unfold F64.roundDiff
  by_cases h : s = t
  · rw [if_pos h]; exact ⟨_, rfl⟩
  · rw [if_neg h]; exact ⟨_, rfl⟩

theorem dzero_sub (x y : F64) (hx : DZero x) (hy : DZero y) : DZero (F64.sub x y) := by
  rcases hx with rfl | ⟨s, rfl⟩
  · exact Or.inl rfl
  · rcases hy with rfl | ⟨t, rfl⟩
    · exact Or.inl rfl
    · exact Or.inr (roundDiff_zero s t 1)

theorem dzero_fused (x p c : F64) (hx : DZero x) (hp : DZero p) : DZero (F64.fusedMulSub x p c) := by
  rcases hx with rfl | ⟨s, rfl⟩
  · exact Or.inl rfl
  · rcases hp with rfl | ⟨t, rfl⟩
    · cases c <;> exact Or.inl rfl
    · cases c with
      | nan => exact Or.inl rfl
      | inf v => exact Or.inl rfl
      | fin v b =>
        show DZero (F64.roundDiff s (0 * F64.one) (t != v) (0 * b) F64.one)
        rw [Nat.zero_mul, Nat.zero_mul]
        exact Or.inr (roundDiff_zero _ _ _)

theorem ofU16_exact (x : U16) : F64.ofNat x.toNat = .fin false (x.toNat * F64.one) :=
  F64.ofNat_exact _ (lt_trans x.isLt (by decide))

theorem separate_big (x : U16) (hx : x ≠ 0) : separate.big (separate.ofU16 x) = true := by
  show F64.absGt epsilon (F64.ofNat x.toNat) = true
  rw [ofU16_exact]
  have h1 := epsilon_lt_one
  have h2 : x.toNat ≠ 0 := fun h => hx (by apply BitVec.eq_of_toNat_eq; simpa using h)
  have h3 : F64.one ≤ x.toNat * F64.one := Nat.le_mul_of_pos_left _ (by omega)
  show decide (epsilon < _) = true
  rw [decide_eq_true_iff]
  omega

theorem dzero_not_big (x : F64) (h : DZero x) : F64.absGt epsilon x = false := by
  rcases h with rfl | ⟨s, rfl⟩
  · rfl
  · show decide (epsilon < 0) = false
    simp

theorem ofNat_zero : F64.ofNat 0 = .fin false 0 := by
  have := ofU16_exact 0
  simpa using this

theorem separate_zero : ZeroLike separate DZero where
  zero := Or.inr ⟨false, ofNat_zero⟩
  small_zero := by
    show F64.absLe epsilon (F64.ofNat 0) = true
    rw [ofNat_zero]
    show decide (0 ≤ epsilon) = true
    simp
  big_one := separate_big 1 (by decide)
  not_big := dzero_not_big
  div := dzero_div
  mulSub x p c hx hp := dzero_sub _ _ hx (dzero_mul _ _ hp)

theorem fused_zero : ZeroLike fused DZero where
  zero := separate_zero.zero
  small_zero := separate_zero.small_zero
  big_one := separate_zero.big_one
  not_big := dzero_not_big
  div := dzero_div
  mulSub := dzero_fused

theorem exact_zero {K : Type} [Field K] [DecidableEq K] : ZeroLike (exact K) (fun x => x = 0) where
  zero := by simp [exact]
  small_zero := by simp [exact]
  big_one := by simp [exact]
  not_big := by simp [exact]
  div := by rintro x y rfl; simp [exact]
  mulSub := by rintro x p c rfl rfl; simp [exact]

end Verif.Heavy
