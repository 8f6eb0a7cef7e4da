import Verif.Proof.HeavyFloat
import Verif.Props.Heavy
import Mathlib.Algebra.Field.Rat

/-! # C81: the rank of HeavyHash is computed with doubles -/

set_option autoImplicit false

namespace Verif.Props

open Go Go.F64 Heavy Spec.Double

attribute [local irreducible] F64.round F64.one epsilon F64.ofNat F64.unit

/-! ### the operations round correctly -/

/-- the product of two finite doubles is the exact product, rounded to nearest with ties to even -/
theorem C81_mul (s t : Bool) (a b : Nat) : Gives (val (.fin s a) * val (.fin t b)) (F64.mul (.fin s a) (.fin t b)) := mul_gives s t a b

/-- the quotient -/
theorem C81_div (s t : Bool) (a b : Nat) (hb : b ≠ 0) : Gives (val (.fin s a) / val (.fin t b)) (F64.div (.fin s a) (.fin t b)) :=
  div_gives s t a b hb

/-- the difference -/
theorem C81_sub (s t : Bool) (a b : Nat) : Gives (val (.fin s a) - val (.fin t b)) (F64.sub (.fin s a) (.fin t b)) := sub_gives s t a b

/-- the fused operation rounds once -/
theorem C81_fused (s t v : Bool) (x a b : Nat) :
    Gives (val (.fin s x) - val (.fin t a) * val (.fin v b)) (F64.fusedMulSub (.fin s x) (.fin t a) (.fin v b)) := fusedMulSub_gives s t v x a b

/-- an exact value determines the result up to the sign of a zero -/
theorem C81_determined (x : ℚ) (r r' : F64) (h : Gives x r) (h' : Gives x r') : val r = val r' ∧ ((∃ s, r = .inf s) → r = r') := by
  obtain ⟨y, hy, h⟩ := h
  obtain ⟨y', hy', h'⟩ := h'
  have := hy.unique hy'
  subst this
  rcases h with ⟨h1, s, k, rfl, h2⟩ | ⟨h1, rfl⟩
  · rcases h' with ⟨_, s', k', rfl, h2'⟩ | ⟨h1', _⟩
    · exact ⟨h2.trans h2'.symm, fun ⟨_, h⟩ => by cases h⟩
    · exact absurd h1 (not_lt.2 h1')
  · rcases h' with ⟨h1', _⟩ | ⟨_, rfl⟩
    · exact absurd h1' (not_lt.2 h1)
    · exact ⟨rfl, fun _ => rfl⟩

/-- matrix.go:39: the conversion of an entry is exact -/
theorem C81_entry (N : Num F64) (hN : N = separate ∨ N = fused) (x : U16) : ∃ k, N.ofU16 x = .fin false k ∧ val (N.ofU16 x) = x.toNat := by
  have h : N.ofU16 x = .fin false (x.toNat * F64.one) := by
    rcases hN with rfl | rfl <;> exact ofU16_exact x
  refine ⟨_, h, ?_⟩
  rw [h, val_fin]
  simp only [sgn, Bool.false_eq_true, if_false]
  rw [Nat.cast_mul, mul_assoc, one_unit]
  ring

/-- matrix.go:12, :48 and :61: a finite number is big if its magnitude exceeds the double nearest to `1e-9`, and small otherwise; NaN is neither -/
theorem C81_compare (N : Num F64) (hN : N = separate ∨ N = fused) : ∃ ε : ℚ, Rounded (1 / 10 ^ 9) ε ∧
    (∀ s k, N.big (.fin s k) = decide (ε < |val (.fin s k)|) ∧ N.small (.fin s k) = decide (|val (.fin s k)| ≤ ε)) ∧
    N.big .nan = false ∧ N.small .nan = false ∧ ∀ s, N.big (.inf s) = true ∧ N.small (.inf s) = false := by
  refine ⟨epsilon * F64.unit, ?_, ?_, ?_⟩
  · have h := roundNat_rounded F64.one (10 ^ 9) (by decide)
    have e : ((F64.one : Nat) : ℚ) / ((10 ^ 9 : Nat) : ℚ) * F64.unit = 1 / 10 ^ 9 := by
      rw [div_mul_eq_mul_div, one_unit]
      norm_num
    rw [e] at h
    unfold epsilon
    exact h
  · intro s k
    have hv : |val (.fin s k)| = (k : ℚ) * F64.unit := by
      rw [val_fin, abs_sgn, abs_of_nonneg (mul_nonneg (Nat.cast_nonneg _) unit_pos.le)]
    have h1 : (epsilon < k) ↔ ((epsilon : ℚ) * F64.unit < k * F64.unit) := by
      rw [mul_lt_mul_iff_left₀ unit_pos]
      exact_mod_cast Iff.rfl
    have h2 : (k ≤ epsilon) ↔ ((k : ℚ) * F64.unit ≤ epsilon * F64.unit) := by
      rw [mul_le_mul_iff_left₀ unit_pos]
      exact_mod_cast Iff.rfl
    rw [hv]
    rcases hN with rfl | rfl
    · exact ⟨decide_eq_decide.2 h1, decide_eq_decide.2 h2⟩
    · exact ⟨decide_eq_decide.2 h1, decide_eq_decide.2 h2⟩
  · rcases hN with rfl | rfl <;> exact ⟨rfl, rfl, fun _ => ⟨rfl, rfl⟩⟩

/-! ### what holds with doubles -/

theorem zeroLike_of (N : Num F64) (hN : N = separate ∨ N = fused) : ZeroLike N DZero := by
  rcases hN with rfl | rfl
  · exact separate_zero
  · exact fused_zero

/-- the routine returns a number up to 64 whatever the arithmetic does -/
theorem C81_returns (N : Num F64) (mat : List (List U16)) (hl : mat.length = 64) (hr : ∀ r ∈ mat, r.length = 64) :
    ∃ k ≤ 64, calculateRank N mat = .ok k :=
  ⟨_, elimTo_rank_le N 64 (entries N mat) 64, calculateRank_pure N mat ⟨hl, hr⟩ _ fun _ _ _ _ => rfl⟩

/-- with a row of zeros the computed rank is below 64 -/
theorem C81_zero_row (N : Num F64) (hN : N = separate ∨ N = fused) (mat : List (List U16)) (hl : mat.length = 64) (hr : ∀ r ∈ mat, r.length = 64)
    (hz : List.replicate 64 0 ∈ mat) : calculateRank N mat ≠ .ok 64 := by
  rw [calculateRank_pure N mat ⟨hl, hr⟩ _ fun _ _ _ _ => rfl]
  obtain ⟨i, hi, he⟩ := List.getElem_of_mem hz
  have := zeroRow_rank (zeroLike_of N hN) (entries N mat) i (by omega) (by
    intro l hl'
    unfold entries
    rw [show mat.getD i [] = List.replicate 64 0 by rw [List.getD_eq_getElem?_getD, List.getElem?_eq_getElem hi, Option.getD_some, he]]
    refine congrArg N.ofU16 ?_
    rw [List.getD_eq_getElem?_getD, List.getElem?_replicate, if_pos hl']
    rfl)
  intro h
  have := Except.ok.inj h
  omega

/-- with a column of zeros the computed rank is below 64 -/
theorem C81_zero_column (N : Num F64) (hN : N = separate ∨ N = fused) (mat : List (List U16)) (hl : mat.length = 64)
    (hr : ∀ r ∈ mat, r.length = 64) (c : Nat) (hc : c < 64) (hz : ∀ r ∈ mat, r[c]? = some 0) : calculateRank N mat ≠ .ok 64 := by
  rw [calculateRank_pure N mat ⟨hl, hr⟩ _ fun _ _ _ _ => rfl]
  have := zeroCol_rank (zeroLike_of N hN) (entries N mat) c hc (by
    intro k hk
    have hk' : k < mat.length := by omega
    unfold entries
    rw [show mat.getD k [] = mat[k] by rw [List.getD_eq_getElem?_getD, List.getElem?_eq_getElem hk', Option.getD_some],
      List.getD_eq_getElem?_getD, hz _ (List.getElem_mem hk')]
    rfl)
  intro h
  have := Except.ok.inj h
  omega

/-- an upper triangular matrix without a zero on the diagonal has computed rank 64, whatever the entries above the diagonal are -/
theorem C81_triangular (N : Num F64) (hN : N = separate ∨ N = fused) (f : Nat → Nat → U16) (hlow : ∀ i j, j < i → f i j = 0)
    (hdiag : ∀ i, f i i ≠ 0) : calculateRank N ((List.range 64).map fun i => (List.range 64).map (f i)) = .ok 64 := by
  rw [calculateRank_pure N _ ⟨by simp, by simp⟩ (fun i j => N.ofU16 (f i j))
    (by intro k hk l hl; unfold entries; simp [List.getD_eq_getElem?_getD, hk, hl])]
  rw [upper_rank (zeroLike_of N hN)]
  · intro k _ l hl
    rw [hlow k l hl]
  · intro k _
    rcases hN with rfl | rfl <;> exact separate_big _ (hdiag k)

/-- the conditions of `C81_triangular` can be met with entries other than 0 and 1 -/
example : (∀ i j : Nat, j < i → (fun i j => if j < i then (0 : U16) else 15) i j = 0) ∧ ∀ i : Nat, (fun i j => if j < i then (0 : U16) else 15) i i ≠ 0 :=
  ⟨fun i j h => by simp [h], fun i => by simp⟩

/-- `Compute` of 32 zero bytes does not return with doubles either -/
theorem C81_zero_hash (N : Num F64) (hN : N = separate ∨ N = fused) (P : Prims) (ts nonce : U64) (fuel : Nat) :
    compute N P fuel (List.replicate 32 0) ts nonce = .error .fuel :=
  C49_zero_hash N ((zeroLike_of N hN).not_big _ (zeroLike_of N hN).zero) P ts nonce fuel

/-! ### what does not hold with doubles -/

/-- the matrix with `f` as its first `n` rows and columns and units on the rest of the diagonal -/
def withUnits (n : Nat) (f : Nat → Nat → Nat) : List (List U16) :=
  (List.range 64).map fun i => (List.range 64).map fun j => BitVec.ofNat 16 (if i < n ∧ j < n then f i j else if i = j then 1 else 0)

/-- the rank of a 64 by 64 matrix over the rationals -/
noncomputable def trueRank (mat : List (List U16)) : Nat :=
  (Matrix.of fun i j : Fin 64 => ((((mat.getD i []).getD j 0).toNat : Nat) : ℚ)).rank

theorem trueRank_withUnits (n : Nat) (hn : n ≤ 64) (f : Nat → Nat → Nat) :
    trueRank (withUnits n f) = listRank (exact ℚ) 0 n (blockOf n (paddedEntries (exact ℚ) n f)) + (64 - n) := by
  have h := C52_rank ℚ (withUnits n f) (padded_square n f).1 (padded_square n f).2
  rw [show withUnits n f = padded n f from rfl, padded_rank (exact ℚ) exact_zero 0 n hn f] at h
  exact (Except.ok.inj h).symm

/-- regular, entries below 16: 15 on the diagonal and 1 beside it in eight rows, and a 1 in the corner -/
def lowMat : List (List U16) := withUnits 9 fun i j =>
  if i < 8 then (if j = i then 15 else if j = i + 1 then 1 else 0) else if j = 0 then 1 else 0

/-- singular -/
def highMat : List (List U16) := withUnits 18 fun i j =>
  if i < 8 then (if j = i then 15 else if j = i + 1 then 1 else 0)
  else if i = 8 then (if j = 8 then 1 else if j = 17 then 1 else 0)
  else if i < 16 then (if j = i then 15 else if j = i + 1 then 1 else 0)
  else if i = 16 then (if j = 0 then 1 else if j = 9 then 1 else 0)
  else if j = 16 then 15 else if j = 17 then 1 else 0

/-- singular -/
def fusionMat : List (List U16) := withUnits 10 fun i j =>
  if i = 0 then (if j = 0 then 3 else if j = 9 then 1 else 0)
  else if i < 8 then (if j = i then 15 else if j = i + 1 then 1 else 0)
  else if i = 8 then (if j = 0 then 3 else if j = 1 then 1 else if j = 9 then 1 else 0)
  else if j = 8 then 15 else 0

/-- a regular matrix is refused: rank 64, computed 63 -/
theorem C81_too_low : trueRank lowMat = 64 ∧ calculateRank separate lowMat = .ok 63 ∧ calculateRank fused lowMat = .ok 63 := by
  refine ⟨?_, ?_, ?_⟩
  · refine (trueRank_withUnits 9 (by decide) _).trans ?_
    decide +kernel
  · refine (padded_rank separate separate_zero .nan 9 (by decide) _).trans (congrArg Except.ok ?_)
    decide +kernel
  · refine (padded_rank fused fused_zero .nan 9 (by decide) _).trans (congrArg Except.ok ?_)
    decide +kernel

/-- a singular matrix is taken: rank 63, computed 64 -/
theorem C81_too_high : trueRank highMat = 63 ∧ calculateRank separate highMat = .ok 64 ∧ calculateRank fused highMat = .ok 64 := by
  refine ⟨?_, ?_, ?_⟩
  · refine (trueRank_withUnits 18 (by decide) _).trans ?_
    decide +kernel
  · refine (padded_rank separate separate_zero .nan 18 (by decide) _).trans (congrArg Except.ok ?_)
    decide +kernel
  · refine (padded_rank fused fused_zero .nan 18 (by decide) _).trans (congrArg Except.ok ?_)
    decide +kernel

/-- the same matrix is refused when line 66 rounds twice and taken when it rounds once -/
theorem C81_fusion : trueRank fusionMat = 63 ∧ calculateRank separate fusionMat = .ok 63 ∧ calculateRank fused fusionMat = .ok 64 := by
  refine ⟨?_, ?_, ?_⟩
  · refine (trueRank_withUnits 10 (by decide) _).trans ?_
    decide +kernel
  · refine (padded_rank separate separate_zero .nan 10 (by decide) _).trans (congrArg Except.ok ?_)
    decide +kernel
  · refine (padded_rank fused fused_zero .nan 10 (by decide) _).trans (congrArg Except.ok ?_)
    decide +kernel

/-- the entries are nibbles, as in the matrices that are drawn (matrix.go:26) -/
theorem C81_nibbles : ∀ mat ∈ [lowMat, highMat, fusionMat], ∀ r ∈ mat, ∀ x ∈ r, x.toNat < 16 := by
  have h : [lowMat, highMat, fusionMat].all (fun mat => mat.all fun r => r.all fun x => decide (x.toNat < 16)) = true := by decide +kernel
  intro mat hm r hr x hx
  have h1 := List.all_eq_true.1 h mat hm
  have h2 := List.all_eq_true.1 h1 r hr
  simpa using List.all_eq_true.1 h2 x hx

end Verif.Props
