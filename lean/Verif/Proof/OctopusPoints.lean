import Mathlib.Algebra.Polynomial.Roots
import Verif.Proof.Octopus

/-! # The points at which Octopus evaluates, and what the values say about the coefficients -/

set_option autoImplicit false

namespace Verif.Octopus

open Go Spec.Octopus
open Polynomial (X C)

theorem point_cast (a b c w t : Nat) : ((point a b c w t : Nat) : ZMod p) = a * ((w : ZMod p) ^ t) ^ 2 + b * (w : ZMod p) ^ t + c := by
  rw [point, ZMod.natCast_mod]
  push_cast
  rw [Nat.mul_comm 2 t, pow_mul]

theorem generator_pow_inj (num : Nat) {i j : Nat} (hi : i < p - 1) (hj : j < p - 1)
    (h : ((generator num : Nat) : ZMod p) ^ i = ((generator num : Nat) : ZMod p) ^ j) : i = j :=
  pow_injOn_Iio_orderOf (by rw [Set.mem_Iio, order_generator]; exact hi) (by rw [Set.mem_Iio, order_generator]; exact hj) h

theorem cast_ne_zero (x : Nat) (h0 : 0 < x) (h : x < p) : ((x : Nat) : ZMod p) ≠ 0 := by
  rw [Ne, ZMod.natCast_eq_zero_iff]
  intro hd
  exact absurd (Nat.le_of_dvd h0 hd) (by omega)

theorem cast_inj {x y : Nat} (hx : x < p) (hy : y < p) (h : ((x : Nat) : ZMod p) = y) : x = y := by
  rw [ZMod.natCast_eq_natCast_iff', Nat.mod_eq_of_lt hx, Nat.mod_eq_of_lt hy] at h
  exact h

/-- the quadratic polynomial of the points -/
noncomputable def quadratic (a b c : Nat) : Polynomial (ZMod p) := C (a : ZMod p) * X ^ 2 + C (b : ZMod p) * X + C (c : ZMod p)

theorem quadratic_degree (a b c : Nat) (ha : (a : ZMod p) ≠ 0) : (quadratic a b c).natDegree = 2 := Polynomial.natDegree_quadratic ha

theorem quadratic_eval (a b c w t : Nat) : (quadratic a b c).eval ((w : ZMod p) ^ t) = ((point a b c w t : Nat) : ZMod p) := by
  rw [point_cast, quadratic]
  simp

/-- a polynomial that does not vanish has at most twice its degree many zeros among the points -/
theorem zeros (Q : Polynomial (ZMod p)) (hQ : Q ≠ 0) (a b c num : Nat) (ha : (a : ZMod p) ≠ 0) :
    ((Finset.range (p - 1)).filter fun t => Q.eval ((point a b c (generator num) t : Nat) : ZMod p) = 0).card ≤ 2 * Q.natDegree := by
  have hd := quadratic_degree a b c ha
  have hne : Q.comp (quadratic a b c) ≠ 0 := by
    intro h
    rcases Polynomial.comp_eq_zero_iff.mp h with h | h
    · exact hQ h
    · rw [h.2, Polynomial.natDegree_C] at hd
      omega
  have hdeg : (Q.comp (quadratic a b c)).natDegree = 2 * Q.natDegree := by
    rw [Polynomial.natDegree_comp, hd, Nat.mul_comm]
  have hinj : Set.InjOn (fun t : Nat => ((generator num : Nat) : ZMod p) ^ t)
      ((Finset.range (p - 1)).filter fun t => Q.eval ((point a b c (generator num) t : Nat) : ZMod p) = 0 : Finset Nat) := by
    intro i hi j hj h
    have hi' := Finset.mem_range.mp (Finset.mem_filter.mp (Finset.mem_coe.mp hi)).1
    have hj' := Finset.mem_range.mp (Finset.mem_filter.mp (Finset.mem_coe.mp hj)).1
    exact generator_pow_inj num hi' hj' h
  rw [← hdeg, ← Finset.card_image_of_injOn hinj]
  refine le_trans (Finset.card_le_card ?_) (le_trans (Multiset.toFinset_card_le _) (Polynomial.card_roots' _))
  intro x hx
  obtain ⟨t, ht, e⟩ := Finset.mem_image.mp hx
  rw [Multiset.mem_toFinset, Polynomial.mem_roots hne, Polynomial.IsRoot, Polynomial.eval_comp, ← e, quadratic_eval]
  exact (Finset.mem_filter.mp ht).2

/-- each residue is the point of at most two exponents -/
theorem point_twice (a b c num : Nat) (ha : (a : ZMod p) ≠ 0) (x : Nat) :
    ((Finset.range (p - 1)).filter fun t => point a b c (generator num) t = x).card ≤ 2 := by
  have h := zeros (X - C ((x : Nat) : ZMod p)) (Polynomial.X_sub_C_ne_zero _) a b c num ha
  rw [Polynomial.natDegree_X_sub_C] at h
  refine le_trans (Finset.card_le_card ?_) h
  intro t ht
  rw [Finset.mem_filter] at ht ⊢
  refine ⟨ht.1, ?_⟩
  rw [ht.2, Polynomial.eval_sub, Polynomial.eval_X, Polynomial.eval_C, sub_self]

/-- zero is the point of no exponent or of two -/
theorem point_zero (a b c num : Nat) (ha : (a : ZMod p) ≠ 0) (hc : (c : ZMod p) ≠ 0) (hdisc : (b : ZMod p) * b ≠ 4 * a * c) (t : Nat)
    (h : point a b c (generator num) t = 0) :
    ∃ u, u < p - 1 ∧ generator num ^ u % p ≠ generator num ^ t % p ∧ point a b c (generator num) u = 0 := by
  obtain ⟨s, hs⟩ : ∃ s, s = ((generator num : Nat) : ZMod p) ^ t := ⟨_, rfl⟩
  have h1 : (a : ZMod p) * s ^ 2 + b * s + c = 0 := by rw [hs, ← point_cast, h, Nat.cast_zero]
  obtain ⟨s', hs'⟩ : ∃ s' : ZMod p, a * s' = -b - a * s := ⟨(-b - a * s) / a, by field_simp⟩
  have h2 : (a : ZMod p) * s' ^ 2 + b * s' + c = 0 := by
    have : (a : ZMod p) * (a * s' ^ 2 + b * s' + c) = 0 := by linear_combination (a * s' - a * s) * hs' + a * h1
    exact (mul_eq_zero.mp this).resolve_left ha
  have hne0 : s' ≠ 0 := by
    intro h0
    rw [h0] at h2
    apply hc
    linear_combination h2
  have hne : s' ≠ s := by
    intro h0
    rw [h0] at hs'
    apply hdisc
    linear_combination (2 * a * s + b) * hs' - 4 * a * h1
  have hval : 0 < s'.val := Nat.pos_of_ne_zero fun h0 => hne0 ((ZMod.val_eq_zero s').mp h0)
  obtain ⟨u, hu, e⟩ := generator_reaches num s'.val hval (ZMod.val_lt s')
  have hu' : ((generator num : Nat) : ZMod p) ^ u = s' := by
    rw [zmod_cast_pow, e, ZMod.natCast_zmod_val]
  refine ⟨u, hu, ?_, ?_⟩
  · intro h0
    apply hne
    rw [← hu', hs, zmod_cast_pow, zmod_cast_pow, h0]
  · refine cast_inj (Nat.mod_lt _ (by decide)) (by decide) ?_
    rw [point_cast, hu', h2, Nat.cast_zero]

/-- the difference of two polynomials whose coefficients agree outside `lo ≤ k < lo + m`, without its factor `X ^ lo` -/
noncomputable def gap (A B : Nat → Nat) (lo m : Nat) : Polynomial (ZMod p) :=
  ∑ k ∈ Finset.range m, C ((A (lo + k) : ZMod p) - (B (lo + k) : ZMod p)) * X ^ k

theorem gap_degree (A B : Nat → Nat) (lo m : Nat) : (gap A B lo m).natDegree ≤ m - 1 := by
  unfold gap
  refine Polynomial.natDegree_sum_le_of_forall_le _ _ fun k hk => ?_
  have := Finset.mem_range.mp hk
  exact le_trans (Polynomial.natDegree_C_mul_X_pow_le _ _) (by omega)

theorem gap_coeff (A B : Nat → Nat) (lo m k : Nat) (hk : k < m) : (gap A B lo m).coeff k = (A (lo + k) : ZMod p) - (B (lo + k) : ZMod p) := by
  unfold gap
  rw [Polynomial.finsetSum_coeff, Finset.sum_eq_single k]
  · rw [Polynomial.coeff_C_mul_X_pow, if_pos rfl]
  · intro j _ hj
    rw [Polynomial.coeff_C_mul_X_pow, if_neg fun h => hj h.symm]
  · intro h
    exact absurd (Finset.mem_range.mpr hk) h

theorem polynomial_cast (A : Nat → Nat) (x : Nat) : ((polynomial A x : Nat) : ZMod p) = ∑ k ∈ Finset.range 1024, (A k : ZMod p) * (x : ZMod p) ^ k := by
  rw [polynomial, ZMod.natCast_mod]
  generalize 1024 = n
  induction n with
  | zero => simp
  | succ n ih =>
    rw [List.range_succ, List.map_append, List.sum_append, Nat.cast_add, ih, Finset.sum_range_succ]
    simp

theorem polynomial_gap (A B : Nat → Nat) (lo m : Nat) (hm : lo + m ≤ 1024) (hout : ∀ k, k < lo ∨ lo + m ≤ k → A k = B k) (x : Nat) :
    ((polynomial A x : Nat) : ZMod p) - ((polynomial B x : Nat) : ZMod p) = (x : ZMod p) ^ lo * (gap A B lo m).eval (x : ZMod p) := by
  rw [polynomial_cast, polynomial_cast, ← Finset.sum_sub_distrib, gap, Polynomial.eval_finsetSum, Finset.mul_sum]
  symm
  have hsub : (Finset.range m).image (lo + ·) ⊆ Finset.range 1024 := by
    intro k hk
    obtain ⟨j, hj, rfl⟩ := Finset.mem_image.mp hk
    have := Finset.mem_range.mp hj
    exact Finset.mem_range.mpr (by omega)
  rw [← Finset.sum_subset hsub, Finset.sum_image]
  · refine Finset.sum_congr rfl fun k _ => ?_
    rw [Polynomial.eval_mul, Polynomial.eval_C, Polynomial.eval_pow, Polynomial.eval_X, pow_add]
    ring
  · intro i _ j _ h
    exact Nat.add_left_cancel h
  · intro k hk hk'
    rw [hout k, sub_self]
    by_contra hc
    apply hk'
    exact Finset.mem_image.mpr ⟨k - lo, Finset.mem_range.mpr (by omega), by omega⟩

/-- polynomials whose coefficients differ, but only at `m` consecutive places, agree at `2 m` of the points at most -/
theorem agreements (A B : Nat → Nat) (hA : ∀ k, A k < p) (hB : ∀ k, B k < p) (lo m : Nat) (hm : lo + m ≤ 1024)
    (hout : ∀ k, k < lo ∨ lo + m ≤ k → A k = B k) (hin : ∃ k, A k ≠ B k) (a b c num : Nat) (ha : (a : ZMod p) ≠ 0) :
    ((Finset.range (p - 1)).filter fun t => polynomial A (point a b c (generator num) t) = polynomial B (point a b c (generator num) t)).card ≤ 2 * m := by
  obtain ⟨k, hk⟩ := hin
  have hk' : lo ≤ k ∧ k < lo + m := by
    by_contra hc
    exact hk (hout k (by omega))
  have hne : gap A B lo m ≠ 0 := by
    intro h
    have h1 := gap_coeff A B lo m (k - lo) (by omega)
    rw [h, Polynomial.coeff_zero, show lo + (k - lo) = k by omega] at h1
    exact hk (cast_inj (hA k) (hB k) (sub_eq_zero.mp h1.symm))
  have hX : X * gap A B lo m ≠ 0 := mul_ne_zero Polynomial.X_ne_zero hne
  have hdeg : (X * gap A B lo m).natDegree ≤ m := by
    rw [Polynomial.natDegree_X_mul hne]
    have := gap_degree A B lo m
    omega
  refine le_trans (Finset.card_le_card ?_) (le_trans (zeros _ hX a b c num ha) (Nat.mul_le_mul_left 2 hdeg))
  intro t ht
  rw [Finset.mem_filter] at ht ⊢
  refine ⟨ht.1, ?_⟩
  have h := polynomial_gap A B lo m hm hout (point a b c (generator num) t)
  rw [ht.2, sub_self] at h
  rw [Polynomial.eval_mul, Polynomial.eval_X]
  rcases mul_eq_zero.mp h.symm with h | h
  · rw [eq_zero_of_pow_eq_zero h, zero_mul]
  · rw [h, mul_zero]

end Verif.Octopus
