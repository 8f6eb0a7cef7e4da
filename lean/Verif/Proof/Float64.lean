import Verif.Go.Float64
import Verif.Spec.Double
import Mathlib.Tactic.FieldSimp
import Mathlib.Tactic.Positivity
import Mathlib.Algebra.Order.Floor.Ring
import Mathlib.Tactic.NormNum

/-! # The operations of `Go/Float64.lean` are correctly rounded -/

set_option autoImplicit false

namespace Verif.Go.F64

open Spec.Double

/-- the smallest positive double -/
def unit : ℚ := (2 ^ 1074)⁻¹

theorem unit_pos : 0 < unit := by unfold unit; positivity

theorem one_unit : (one : ℚ) * unit = 1 := by
  unfold one unit
  push_cast
  exact mul_inv_cancel₀ (by positivity)

/-- the rational of a finite double; infinities and NaN are given 0 -/
def val : F64 → ℚ
  | .fin s k => (if s then -1 else 1) * (k * unit)
  | _ => 0

theorem isDouble_iff (y : ℚ) : IsDouble y ↔ ∃ (m : ℤ) (e : Nat), |m| < 2 ^ 53 ∧ y = (m * 2 ^ e : ℤ) * unit := by
  have key : ∀ e : Nat, (2 : ℚ) ^ e * unit = 2 ^ ((e : ℤ) - 1074) := by
    intro e
    unfold unit
    rw [zpow_sub₀ (by norm_num), zpow_natCast, div_eq_mul_inv]
    rfl
  constructor
  · rintro ⟨m, e, hm, he, rfl⟩
    refine ⟨m, (e + 1074).toNat, hm, ?_⟩
    push_cast
    rw [mul_assoc, key, Int.toNat_of_nonneg (by omega)]
    congr 2
    omega
  · rintro ⟨m, e, hm, rfl⟩
    refine ⟨m, (e : ℤ) - 1074, hm, by omega, ?_⟩
    push_cast
    rw [mul_assoc, key]

/-- nearest multiple of the unit of the last place -/
theorem nearest_multiple (q : ℕ) (f w : ℚ) (hw : 0 < w) (h0 : 0 ≤ f) (h1 : f < 1) (j c : ℤ)
    (hc : c = if 1 / 2 < f ∨ (f = 1 / 2 ∧ q % 2 = 1) then (q : ℤ) + 1 else q) :
    |(q + f) * w - c * w| ≤ |(q + f) * w - j * w| ∧
    (j ≠ c → |(q + f) * w - j * w| = |(q + f) * w - c * w| → c % 2 = 0 ∧ (j - c = 1 ∨ j - c = -1)) := by
  have e : ∀ z : ℤ, |(q + f) * w - z * w| = |(q + f) - z| * w := by
    intro z
    rw [← sub_mul, abs_mul, abs_of_pos hw]
  rw [e, e]
  have hj : (j : ℚ) ≤ q ∨ (q : ℚ) + 1 ≤ j := by
    rcases lt_or_ge (q : ℤ) j with h | h
    · right
      have : (q : ℤ) + 1 ≤ j := by omega
      exact_mod_cast this
    · left
      exact_mod_cast h
  have hup : ∀ z : ℚ, (q : ℚ) + 1 ≤ z → |(q + f) - z| = z - (q + f) := by
    intro z hz
    rw [abs_sub_comm, abs_of_nonneg (by linarith)]
  have hdn : ∀ z : ℚ, z ≤ q → |(q + f) - z| = (q + f) - z := by
    intro z hz
    rw [abs_of_nonneg (by linarith)]
  by_cases h : 1 / 2 < f ∨ (f = 1 / 2 ∧ q % 2 = 1)
  · rw [if_pos h] at hc
    have hcq : (c : ℚ) = q + 1 := by rw [hc]; push_cast; rfl
    have hf : 1 / 2 ≤ f := by
      rcases h with h | h
      · exact h.le
      · exact h.1.ge
    have hcv : |(q + f) - (c : ℚ)| = 1 - f := by rw [hcq, hup _ (le_refl _)]; ring
    rw [hcv]
    constructor
    · apply mul_le_mul_of_nonneg_right _ hw.le
      rcases hj with hj | hj
      · rw [hdn _ hj]; linarith
      · rw [hup _ hj]; linarith
    · intro hne heq
      have heq' := mul_right_cancel₀ hw.ne' heq
      rcases hj with hj | hj
      · rw [hdn _ hj] at heq'
        have hfe : f = 1 / 2 := by linarith
        have hjq : (j : ℚ) = q := by linarith
        have hjq' : j = q := by exact_mod_cast hjq
        rcases h with h | h
        · linarith
        · exact ⟨by omega, by omega⟩
      · rw [hup _ hj] at heq'
        have hjq : (j : ℚ) = c := by linarith
        exact absurd (by exact_mod_cast hjq) hne
  · rw [if_neg h] at hc
    have hcq : (c : ℚ) = q := by rw [hc]; push_cast; rfl
    have hf : f ≤ 1 / 2 := by
      by_contra hh
      exact h (Or.inl (not_le.1 hh))
    have hcv : |(q + f) - (c : ℚ)| = f := by rw [hcq, hdn _ (le_refl _)]; ring
    rw [hcv]
    constructor
    · apply mul_le_mul_of_nonneg_right _ hw.le
      rcases hj with hj | hj
      · rw [hdn _ hj]; linarith
      · rw [hup _ hj]; linarith
    · intro hne heq
      have heq' := mul_right_cancel₀ hw.ne' heq
      rcases hj with hj | hj
      · rw [hdn _ hj] at heq'
        have hjq : (j : ℚ) = c := by linarith
        exact absurd (by exact_mod_cast hjq) hne
      · rw [hup _ hj] at heq'
        have hfe : f = 1 / 2 := by linarith
        have hjq : (j : ℚ) = q + 1 := by linarith
        have hjq' : j = q + 1 := by exact_mod_cast hjq
        have : ¬ q % 2 = 1 := fun hh => h (Or.inr ⟨hfe, hh⟩)
        exact ⟨by omega, by omega⟩

/-- the magnitude is correctly rounded -/
theorem roundNat_rounded (n d : Nat) (hd : 0 < d) : Rounded ((n : ℚ) / d * unit) ((roundNat n d : ℚ) * unit) := by
  obtain ⟨e, he⟩ : ∃ e, e = ulpExp (n / d) := ⟨_, rfl⟩
  obtain ⟨w, hw⟩ : ∃ w, w = d * 2 ^ e := ⟨_, rfl⟩
  have hwpos : 0 < w := by rw [hw]; positivity
  obtain ⟨q, hq⟩ : ∃ q, q = n / w := ⟨_, rfl⟩
  obtain ⟨r, hr⟩ : ∃ r, r = n % w := ⟨_, rfl⟩
  have hn : n = q * w + r := by rw [hq, hr, Nat.mul_comm]; exact (Nat.div_add_mod n w).symm
  have hrw : r < w := by rw [hr]; exact Nat.mod_lt _ hwpos
  have hqd : q = n / d / 2 ^ e := by rw [hq, hw, Nat.div_div_eq_div_mul]
  have hround : roundNat n d = if w < 2 * r ∨ (2 * r = w ∧ q % 2 = 1) then (q + 1) * 2 ^ e else q * 2 ^ e := by
    unfold roundNat
    dsimp only
    rw [← he, ← hw, ← hq, ← hr]
  have hdq : (0 : ℚ) < d := by exact_mod_cast hd
  have hwq : (0 : ℚ) < w := by exact_mod_cast hwpos
  have h2e : (0 : ℚ) < 2 ^ e := by positivity
  have hww : (w : ℚ) = d * 2 ^ e := by rw [hw]; push_cast; rfl
  obtain ⟨f, hf⟩ : ∃ f : ℚ, f = r / w := ⟨_, rfl⟩
  have hf0 : 0 ≤ f := by rw [hf]; positivity
  have hf1 : f < 1 := by
    rw [hf, div_lt_one hwq]
    exact_mod_cast hrw
  have hx : (n : ℚ) / d = (q + f) * 2 ^ e := by
    rw [hn, hf]
    push_cast
    rw [hww]
    field_simp
  obtain ⟨c, hc⟩ : ∃ c : ℤ, c = if 1 / 2 < f ∨ (f = 1 / 2 ∧ q % 2 = 1) then (q : ℤ) + 1 else q := ⟨_, rfl⟩
  have hiff : (1 / 2 < f ∨ (f = 1 / 2 ∧ q % 2 = 1)) ↔ (w < 2 * r ∨ (2 * r = w ∧ q % 2 = 1)) := by
    have a1 : (1 / 2 < f) ↔ w < 2 * r := by
      rw [hf, div_lt_div_iff₀ (by norm_num) hwq, one_mul, mul_comm (r : ℚ)]
      exact_mod_cast Iff.rfl
    have a2 : (f = 1 / 2) ↔ 2 * r = w := by
      rw [hf, div_eq_div_iff hwq.ne' (by norm_num), one_mul, mul_comm (r : ℚ)]
      exact_mod_cast Iff.rfl
    rw [a1, a2]
  have hk : ((roundNat n d : Nat) : ℚ) = c * 2 ^ e := by
    rw [hround, hc]
    by_cases h : w < 2 * r ∨ (2 * r = w ∧ q % 2 = 1)
    · rw [if_pos h, if_pos (hiff.2 h)]
      push_cast
      rfl
    · rw [if_neg h, if_neg (fun hh => h (hiff.1 hh))]
      push_cast
      rfl
  have near := nearest_multiple q f (2 ^ e) h2e hf0 hf1
  -- bounds on q
  have hlog : n / d < 2 ^ (e + 53) := by
    by_cases h0 : n / d = 0
    · rw [h0]; positivity
    · have := Nat.lt_log2_self (n := n / d)
      refine lt_of_lt_of_le this (Nat.pow_le_pow_right (by norm_num) ?_)
      rw [he, ulpExp]
      omega
  have hqlt : q < 2 ^ 53 := by
    rw [hqd, Nat.div_lt_iff_lt_mul (by positivity), ← pow_add, Nat.add_comm]
    exact hlog
  have hcle : 0 ≤ c ∧ c ≤ q + 1 := by
    rw [hc]
    split_ifs <;> omega
  have hqbig : e ≠ 0 → 2 ^ 52 ≤ q := by
    intro h
    have hlog52 : 52 + e = (n / d).log2 := by
      rw [he, ulpExp] at h ⊢
      omega
    have h0 : n / d ≠ 0 := by
      intro h0
      rw [h0] at hlog52
      simp at hlog52
    have := Nat.log2_self_le h0
    rw [← hlog52, pow_add] at this
    rw [hqd]
    exact (Nat.le_div_iff_mul_le (by positivity)).2 this
  -- every double is either a multiple of the unit or below the power of two under x
  have hz : ∀ z, IsDouble z → (∃ j : ℤ, z = (j * 2 ^ e) * unit) ∨ (e ≠ 0 ∧ z < (2 ^ 52 * 2 ^ e) * unit) := by
    intro z hz
    obtain ⟨m, a, hm, rfl⟩ := (isDouble_iff z).1 hz
    by_cases hae : e ≤ a
    · left
      refine ⟨m * 2 ^ (a - e), ?_⟩
      obtain ⟨b, rfl⟩ := Nat.exists_eq_add_of_le hae
      push_cast
      rw [Nat.add_sub_cancel_left, pow_add]
      ring
    · right
      refine ⟨by omega, ?_⟩
      apply mul_lt_mul_of_pos_right _ unit_pos
      have hm' : m < 2 ^ 53 := lt_of_le_of_lt (le_abs_self m) hm
      have h1 : m * 2 ^ a < 2 ^ 53 * 2 ^ a := mul_lt_mul_of_pos_right hm' (by positivity)
      have h2 : (2 : ℤ) ^ 53 * 2 ^ a ≤ 2 ^ 52 * 2 ^ e := by
        obtain ⟨b, rfl⟩ : ∃ b, e = a + 1 + b := ⟨e - a - 1, by omega⟩
        have : (1 : ℤ) ≤ 2 ^ b := one_le_pow₀ (by norm_num)
        have h3 : (2 : ℤ) ^ 52 * 2 ^ (a + 1 + b) = 2 ^ 53 * 2 ^ a * 2 ^ b := by
          rw [pow_add, pow_add]; ring
        rw [h3]
        exact le_mul_of_one_le_right (by positivity) this
      have h4 : m * 2 ^ a < 2 ^ 52 * 2 ^ e := lt_of_lt_of_le h1 h2
      exact_mod_cast h4
  have hu := unit_pos
  have habs : ∀ a b : ℚ, |a * unit - b * unit| = |a - b| * unit := by
    intro a b
    rw [← sub_mul, abs_mul, abs_of_pos hu]
  -- a number below the power of two is farther than the power of two
  have hfar : ∀ z, e ≠ 0 → z < (2 ^ 52 * 2 ^ e) * unit →
      |(q + f) * 2 ^ e * unit - c * 2 ^ e * unit| < |(q + f) * 2 ^ e * unit - z| := by
    intro z h0 hlt
    have h1 := (near (2 ^ 52) c hc).1
    have hge : (2 : ℚ) ^ 52 ≤ q + f := by
      have : ((2 ^ 52 : Nat) : ℚ) ≤ (q : ℚ) := by exact_mod_cast hqbig h0
      push_cast at this
      linarith
    rw [habs]
    have h2 : |(q + f) * 2 ^ e - (2 ^ 52 : ℤ) * 2 ^ e| = (q + f) * 2 ^ e - 2 ^ 52 * 2 ^ e := by
      push_cast
      rw [← sub_mul, abs_of_nonneg (mul_nonneg (by linarith) h2e.le)]
      ring
    rw [h2] at h1
    have h3 := mul_le_mul_of_nonneg_right h1 hu.le
    have h4 : z < (q + f) * 2 ^ e * unit := by
      refine lt_of_lt_of_le hlt ?_
      apply mul_le_mul_of_nonneg_right _ hu.le
      exact mul_le_mul_of_nonneg_right hge h2e.le
    rw [abs_of_pos (show 0 < (q + f) * 2 ^ e * unit - z by linarith)]
    refine lt_of_le_of_lt h3 ?_
    rw [sub_mul]
    linarith
  rw [hx, hk]
  refine ⟨?_, ?_, ?_⟩
  · rw [isDouble_iff]
    by_cases hc53 : c < 2 ^ 53
    · exact ⟨c, e, by rw [abs_of_nonneg hcle.1]; exact hc53, by push_cast; rfl⟩
    · have hce : c = 2 ^ 53 := by
        have : (q : ℤ) < 2 ^ 53 := by exact_mod_cast hqlt
        omega
      refine ⟨2 ^ 52, e + 1, by norm_num, ?_⟩
      rw [hce]
      push_cast
      rw [pow_succ]
      ring
  · intro z hdz
    rcases hz z hdz with ⟨j, rfl⟩ | ⟨h0, hlt⟩
    · rw [habs, habs]
      exact mul_le_mul_of_nonneg_right (near j c hc).1 hu.le
    · exact (hfar z h0 hlt).le
  · intro z hdz hne heq
    rcases hz z hdz with ⟨j, rfl⟩ | ⟨h0, hlt⟩
    · rw [habs, habs] at heq
      have hjc : j ≠ c := by
        rintro rfl
        exact hne rfl
      obtain ⟨h1, h2⟩ := (near j c hc).2 hjc (mul_right_cancel₀ hu.ne' heq)
      obtain ⟨i, hi⟩ : ∃ i, c = 2 * i := ⟨c / 2, by omega⟩
      rcases h2 with h2 | h2
      · refine ⟨i, ?_⟩
        have : j = c + 1 := by omega
        rw [this, hi]
        push_cast
        ring
      · refine ⟨-i, ?_⟩
        have : j = c - 1 := by omega
        rw [this, hi]
        push_cast
        ring
    · exact absurd heq (hfar z h0 hlt).ne'

/-- `r` is the result of an operation whose exact value is `x`: rounded, and infinite if that is `2^1024` or more -/
def Gives (x : ℚ) (r : F64) : Prop :=
  ∃ y, Rounded x y ∧ ((|y| < 2 ^ 1024 ∧ ∃ s k, r = .fin s k ∧ val r = y) ∨ (2 ^ 1024 ≤ |y| ∧ r = .inf (decide (y < 0))))

/-- the sign as a factor -/
def sgn (s : Bool) : ℚ := if s then -1 else 1

theorem sgn_sq (s : Bool) : sgn s * sgn s = 1 := by cases s <;> simp [sgn]

theorem sgn_xor (s t : Bool) : sgn (s != t) = sgn s * sgn t := by cases s <;> cases t <;> simp [sgn]

theorem sgn_not (s : Bool) : sgn (!s) = -sgn s := by cases s <;> simp [sgn]

theorem abs_sgn (s : Bool) (x : ℚ) : |sgn s * x| = |x| := by cases s <;> simp [sgn]

theorem val_fin (s : Bool) (k : Nat) : val (.fin s k) = sgn s * (k * unit) := rfl

theorem rounded_neg {x y : ℚ} (h : Rounded x y) : Rounded (-x) (-y) := by
  have hd : ∀ z, IsDouble z → IsDouble (-z) := by
    rintro z ⟨m, e, hm, he, rfl⟩
    exact ⟨-m, e, by rw [abs_neg]; exact hm, he, by push_cast; ring⟩
  have hab : ∀ a b : ℚ, |-a - b| = |a - -b| := by
    intro a b
    rw [← abs_neg]
    congr 1
    ring
  refine ⟨hd _ h.double, ?_, ?_⟩
  · intro z hz
    rw [hab, hab, neg_neg]
    exact h.nearest _ (hd z hz)
  · intro z hz hne heq
    rw [hab, hab, neg_neg] at heq
    obtain ⟨j, hj⟩ := h.even (-z) (hd z hz) (fun hh => hne (by rw [← hh, neg_neg])) heq
    refine ⟨j, ?_⟩
    linear_combination -hj

theorem rounded_sgn {x y : ℚ} (s : Bool) (h : Rounded x y) : Rounded (sgn s * x) (sgn s * y) := by
  cases s
  · simpa [sgn] using h
  · simpa [sgn] using rounded_neg h

theorem round_gives (s : Bool) (n d : Nat) (hd : 0 < d) : Gives (sgn s * ((n : ℚ) / d * unit)) (round s n d) := by
  have hr := roundNat_rounded n d hd
  obtain ⟨k, hk⟩ : ∃ k, k = roundNat n d := ⟨_, rfl⟩
  rw [← hk] at hr
  refine ⟨sgn s * (k * unit), rounded_sgn s hr, ?_⟩
  have hku : (0 : ℚ) ≤ k * unit := mul_nonneg (Nat.cast_nonneg _) unit_pos.le
  rw [abs_sgn, abs_of_nonneg hku]
  obtain ⟨B, hB⟩ : ∃ B : Nat, B = 2 ^ 1024 := ⟨_, rfl⟩
  have hBq : (2 : ℚ) ^ 1024 = B := by rw [hB, Nat.cast_pow, Nat.cast_ofNat]
  have hround : round s n d = if B * one ≤ k then .inf s else .fin s k := by
    unfold round
    dsimp only
    rw [← hk, ← hB]
  have hBpos : (0 : ℚ) < B := by
    rw [hB]
    exact_mod_cast Nat.pow_pos (by norm_num)
  rw [hround, hBq]
  by_cases h : B * one ≤ k
  · right
    have h1 : (B : ℚ) ≤ k * unit := by
      have h2 : ((B * one : Nat) : ℚ) ≤ k := by exact_mod_cast h
      have h3 := mul_le_mul_of_nonneg_right h2 unit_pos.le
      rw [Nat.cast_mul, mul_assoc, one_unit, mul_one] at h3
      exact h3
    have hpos : 0 < (k : ℚ) * unit := by
      exact lt_of_lt_of_le hBpos h1
    refine ⟨h1, ?_⟩
    rw [if_pos h]
    refine congrArg F64.inf ?_
    cases s
    · simp [sgn, hpos.le]
    · simp only [sgn, if_true]
      symm
      rw [decide_eq_true_iff]
      rw [neg_one_mul]; exact neg_lt_zero.2 hpos
  · left
    have h1 : (k : ℚ) * unit < B := by
      have h2 : (k : ℚ) < ((B * one : Nat) : ℚ) := by exact_mod_cast (not_le.1 h)
      have h3 := mul_lt_mul_of_pos_right h2 unit_pos
      rw [Nat.cast_mul, mul_assoc, one_unit, mul_one] at h3
      exact h3
    refine ⟨h1, s, k, by rw [if_neg h], by rw [if_neg h, val_fin]⟩

theorem zero_double : IsDouble 0 := ⟨0, 0, by norm_num, by norm_num, by norm_num⟩

theorem zero_gives (s : Bool) : Gives 0 (.fin s 0) :=
  ⟨0, Rounded.self zero_double, Or.inl ⟨by rw [abs_zero]; positivity, s, 0, rfl, by rw [val_fin]; simp⟩⟩

theorem one_pos : 0 < one := by unfold one; positivity

theorem mul_gives (s t : Bool) (a b : Nat) : Gives (val (.fin s a) * val (.fin t b)) (mul (.fin s a) (.fin t b)) := by
  have h := round_gives (s != t) (a * b) one one_pos
  show Gives _ (round (s != t) (a * b) one)
  rw [val_fin, val_fin]
  convert h using 1
  have ho := one_unit
  have h1 : (one : ℚ) ≠ 0 := by exact_mod_cast one_pos.ne'
  have hu : unit = 1 / one := by field_simp; linarith
  rw [sgn_xor, hu]
  push_cast
  field_simp

theorem div_gives (s t : Bool) (a b : Nat) (hb : b ≠ 0) : Gives (val (.fin s a) / val (.fin t b)) (div (.fin s a) (.fin t b)) := by
  have h := round_gives (s != t) (a * one) b (Nat.pos_of_ne_zero hb)
  show Gives _ (if b = 0 then if a = 0 then .nan else .inf (s != t) else round (s != t) (a * one) b)
  rw [val_fin, val_fin, if_neg hb]
  convert h using 1
  have ho := one_unit
  have hbq : (b : ℚ) ≠ 0 := by exact_mod_cast hb
  have hu := unit_pos.ne'
  have h1 : (one : ℚ) = 1 / unit := by field_simp; linarith
  rw [sgn_xor, Nat.cast_mul, h1]
  have ht : (sgn t) ≠ 0 := by cases t <;> simp [sgn]
  have ht2 := sgn_sq t
  field_simp
  linear_combination (-sgn s * a) * ht2

theorem roundDiff_gives (s t : Bool) (a b d : Nat) (hd : 0 < d) :
    Gives (sgn s * ((a : ℚ) / d * unit) - sgn t * ((b : ℚ) / d * unit)) (roundDiff s a t b d) := by
  unfold roundDiff
  by_cases hst : s = t
  · subst hst
    rw [if_pos rfl]
    by_cases h1 : b < a
    · rw [if_pos h1]
      have h := round_gives s (a - b) d hd
      rw [Nat.cast_sub h1.le] at h
      convert h using 1
      ring
    · rw [if_neg h1]
      by_cases h2 : a < b
      · rw [if_pos h2]
        have h := round_gives (!s) (b - a) d hd
        rw [Nat.cast_sub h2.le, sgn_not] at h
        convert h using 1
        ring
      · rw [if_neg h2]
        have : a = b := by omega
        subst this
        rw [sub_self]
        exact zero_gives _
  · rw [if_neg hst]
    have ht : t = !s := by cases s <;> cases t <;> simp_all
    subst ht
    by_cases h : a + b = 0
    · rw [if_pos h]
      have ha : a = 0 := by omega
      have hb : b = 0 := by omega
      subst ha hb
      simpa using zero_gives s
    · rw [if_neg h]
      have h := round_gives s (a + b) d hd
      rw [Nat.cast_add] at h
      rw [sgn_not]
      convert h using 1
      ring

theorem sub_gives (s t : Bool) (a b : Nat) : Gives (val (.fin s a) - val (.fin t b)) (sub (.fin s a) (.fin t b)) := by
  have h := roundDiff_gives s t a b 1 Nat.one_pos
  rw [Nat.cast_one, div_one, div_one] at h
  exact h

theorem fusedMulSub_gives (s t v : Bool) (x a b : Nat) :
    Gives (val (.fin s x) - val (.fin t a) * val (.fin v b)) (fusedMulSub (.fin s x) (.fin t a) (.fin v b)) := by
  have h := roundDiff_gives s (t != v) (x * one) (a * b) one one_pos
  show Gives _ (roundDiff s (x * one) (t != v) (a * b) one)
  rw [val_fin, val_fin, val_fin]
  convert h using 1
  have ho := one_unit
  have h1 : (one : ℚ) ≠ 0 := by exact_mod_cast one_pos.ne'
  have hu : unit = 1 / one := by field_simp; linarith
  rw [sgn_xor, hu]
  push_cast
  field_simp

/-- an integer below `2^53` is exact -/
theorem ofNat_exact (n : Nat) (hn : n < 2 ^ 53) : ofNat n = .fin false (n * one) := by
  have hr := roundNat_rounded (n * one) 1 Nat.one_pos
  have hx : ((n * one : Nat) : ℚ) / (1 : Nat) * unit = n := by
    rw [Nat.cast_mul, Nat.cast_one, div_one, mul_assoc, one_unit, mul_one]
  rw [hx] at hr
  have hself : Rounded (n : ℚ) n := by
    apply Rounded.self
    refine ⟨n, 0, ?_, by norm_num, by simp⟩
    rw [abs_of_nonneg (Int.natCast_nonneg n)]
    exact_mod_cast hn
  have hu := hr.unique hself
  have hk : roundNat (n * one) 1 = n * one := by
    have h1 : ((roundNat (n * one) 1 : Nat) : ℚ) * unit = ((n * one : Nat) : ℚ) * unit := by
      rw [hu, Nat.cast_mul, mul_assoc, one_unit, mul_one]
    exact_mod_cast mul_right_cancel₀ unit_pos.ne' h1
  unfold ofNat round
  dsimp only
  rw [hk, if_neg]
  intro h
  have h2 := Nat.le_of_mul_le_mul_right h one_pos
  have h3 : (2 : Nat) ^ 53 ≤ 2 ^ 1024 := Nat.pow_le_pow_right (by norm_num) (by norm_num)
  omega

end Verif.Go.F64
