import Mathlib.Data.ZMod.Basic
import Mathlib.FieldTheory.Finite.Basic
import Mathlib.GroupTheory.OrderOfElement
import Mathlib.Tactic.NormNum.Prime
import Mathlib.Tactic.LinearCombination
import Verif.Go.Prelude
import Verif.Model.Octopus
import Verif.Spec.Octopus

/-! # The number theory behind the parameters of Octopus -/

set_option autoImplicit false

namespace Verif.Octopus

open Go Spec.Octopus

/-! ## `powerMod` -/

theorem powMod_toNat : powMod.toNat = p := rfl

theorem mulMod (x y : U64) (hx : x.toNat < p) (hy : y.toNat < p) : (x * y % powMod).toNat = x.toNat * y.toNat % p := by
  have : x.toNat * y.toNat < 2 ^ 64 := lt_of_le_of_lt (Nat.mul_le_mul hx.le hy.le) (by decide)
  rw [BitVec.toNat_umod, BitVec.toNat_mul, powMod_toNat, Nat.mod_eq_of_lt this]

theorem mulMod_lt (x y : U64) : (x * y % powMod).toNat < p := by
  rw [BitVec.toNat_umod, powMod_toNat]
  exact Nat.mod_lt _ (by decide)

theorem powerMod_loop (k : Nat) : ∀ (fuel : Nat) (result a n : U64), result.toNat < p → a.toNat < p → n.toNat < 2 ^ k → k < fuel →
    forever fuel (result, a, n) powerModStep = .ok (BitVec.ofNat 64 (result.toNat * a.toNat ^ n.toNat % p)) := by
  induction k with
  | zero =>
    intro fuel result a n hr _ hn hf
    obtain ⟨f, rfl⟩ : ∃ f, fuel = f + 1 := ⟨fuel - 1, by omega⟩
    have hn0 : n.toNat = 0 := by simpa using hn
    refine (forever_ret f (b := result) ?_).trans ?_
    · have : n = 0 := BitVec.eq_of_toNat_eq hn0
      simp [powerModStep, this]
    · rw [hn0, pow_zero, mul_one, Nat.mod_eq_of_lt hr, BitVec.ofNat_toNat, BitVec.setWidth_eq]
  | succ k ih =>
    intro fuel result a n hr ha hn hf
    obtain ⟨f, rfl⟩ : ∃ f, fuel = f + 1 := ⟨fuel - 1, by omega⟩
    by_cases hn0 : n.toNat = 0
    · refine (forever_ret f (b := result) ?_).trans ?_
      · have : n = 0 := BitVec.eq_of_toNat_eq hn0
        simp [powerModStep, this]
      · rw [hn0, pow_zero, mul_one, Nat.mod_eq_of_lt hr, BitVec.ofNat_toNat, BitVec.setWidth_eq]
    · have hpos : n > 0 := by
        rw [gt_iff_lt, BitVec.lt_def]
        exact Nat.pos_of_ne_zero hn0
      have hsh : (n >>> 1).toNat = n.toNat / 2 := by
        rw [BitVec.toNat_ushiftRight, Nat.shiftRight_eq_div_pow, pow_one]
      have hodd : (n % 2 = 1) ↔ n.toNat % 2 = 1 := by
        rw [← BitVec.toNat_inj, BitVec.toNat_umod]
        rfl
      obtain ⟨r', hr'⟩ : ∃ r', r' = if n % 2 = 1 then result * a % powMod else result := ⟨_, rfl⟩
      have hr'lt : r'.toNat < p := by
        rw [hr']
        by_cases h : n % 2 = 1
        · rw [if_pos h]; exact mulMod_lt _ _
        · rw [if_neg h]; exact hr
      refine (forever_cont f (s' := (r', a * a % powMod, n >>> 1)) ?_).trans ?_
      · simp only [powerModStep]
        rw [if_pos hpos, ← hr']
      · rw [ih f _ _ _ hr'lt (mulMod_lt _ _) (by rw [hsh]; omega) (by omega), mulMod _ _ ha ha, hsh]
        refine congrArg (fun x => Except.ok (BitVec.ofNat 64 x)) ?_
        have e2 : (a.toNat * a.toNat % p) ^ (n.toNat / 2) % p = a.toNat ^ (2 * (n.toNat / 2)) % p := by
          rw [← Nat.pow_mod, pow_mul, pow_two]
        rw [Nat.mul_mod, e2, hr']
        by_cases h : n % 2 = 1
        · rw [if_pos h, mulMod _ _ hr ha, Nat.mod_mod, ← Nat.mul_mod, mul_assoc, ← pow_succ']
          have := hodd.mp h
          rw [show 2 * (n.toNat / 2) + 1 = n.toNat by omega]
        · rw [if_neg h, ← Nat.mul_mod]
          have : n.toNat % 2 ≠ 1 := fun h' => h (hodd.mpr h')
          rw [show 2 * (n.toNat / 2) = n.toNat by omega]

theorem powerMod_eq (fuel : Nat) (hf : 64 < fuel) (a n : U64) (ha : a.toNat < p) :
    powerMod fuel a n = .ok (BitVec.ofNat 64 (a.toNat ^ n.toNat % p)) := by
  rw [powerMod, powerMod_loop 64 fuel 1 a n (by decide) ha n.isLt hf]
  simp

/-! ## `gcd` -/

theorem gcd_eq (a b : U64) : (gcd a b).toNat = Nat.gcd a.toNat b.toNat := by
  fun_induction gcd a b with
  | case1 a => simp
  | case2 a b h ih =>
    rw [ih, BitVec.toNat_umod, Nat.gcd_comm a.toNat, Nat.gcd_rec b.toNat a.toNat, Nat.gcd_comm]

/-! ## `unitPart` -/

theorem unitPart_spec (e : Nat) (he : 1 ≤ e) : unitPart e ∣ e ∧ Nat.Coprime (unitPart e) (p - 1) :=
  Nat.findGreatest_spec (P := fun d => d ∣ e ∧ Nat.Coprime d (p - 1)) he ⟨one_dvd _, Nat.coprime_one_left _⟩

theorem dvd_unitPart (e : Nat) (he : 1 ≤ e) (d : Nat) (h1 : d ∣ e) (h2 : Nat.Coprime d (p - 1)) : d ∣ unitPart e := by
  obtain ⟨h3, h4⟩ := unitPart_spec e he
  have hl : Nat.lcm d (unitPart e) ∣ e := Nat.lcm_dvd h1 h3
  have hc : Nat.Coprime (Nat.lcm d (unitPart e)) (p - 1) :=
    Nat.Coprime.coprime_dvd_left (Nat.lcm_dvd_mul _ _) (Nat.Coprime.mul_left h2 h4)
  have hle : Nat.lcm d (unitPart e) ≤ unitPart e := Nat.le_findGreatest (Nat.le_of_dvd he hl) ⟨hl, hc⟩
  have hpos : 0 < unitPart e := Nat.pos_of_dvd_of_pos h3 he
  have := Nat.le_antisymm hle (Nat.le_of_dvd (Nat.lcm_pos (Nat.pos_of_dvd_of_pos h1 he) hpos) (Nat.dvd_lcm_right _ _))
  rw [← this]
  exact Nat.dvd_lcm_left _ _

theorem unitPart_le (e : Nat) : unitPart e ≤ e := Nat.findGreatest_le _

theorem unitPart_pos (e : Nat) (he : 1 ≤ e) : 1 ≤ unitPart e := Nat.pos_of_dvd_of_pos (unitPart_spec e he).1 he

theorem unitPart_of_coprime (e : Nat) (he : 1 ≤ e) (h : Nat.Coprime e (p - 1)) : unitPart e = e :=
  Nat.dvd_antisymm (unitPart_spec e he).1 (dvd_unitPart e he e dvd_rfl h)

theorem unitPart_div (e : Nat) (he : 1 ≤ e) (g : Nat) (hg : g ∣ e) (hg2 : g ∣ p - 1) : unitPart (e / g) = unitPart e := by
  have he' : 1 ≤ e / g := Nat.div_pos (Nat.le_of_dvd he hg) (Nat.pos_of_dvd_of_pos hg he)
  have hdiv : e / g ∣ e := Nat.div_dvd_of_dvd hg
  obtain ⟨a1, a2⟩ := unitPart_spec e he
  obtain ⟨b1, b2⟩ := unitPart_spec (e / g) he'
  apply Nat.dvd_antisymm
  · exact dvd_unitPart e he _ (b1.trans hdiv) b2
  · refine dvd_unitPart _ he' _ ?_ a2
    have : Nat.Coprime (unitPart e) g := Nat.Coprime.coprime_dvd_right hg2 a2
    refine this.dvd_of_dvd_mul_right ?_
    rw [Nat.div_mul_cancel hg]
    exact a1

theorem remap_loop (k : Nat) : ∀ (fuel : Nat) (e : U64), 1 ≤ e.toNat → e.toNat < 2 ^ k → k < fuel →
    forever fuel e remapStep = .ok (BitVec.ofNat 64 (unitPart e.toNat)) := by
  induction k with
  | zero => intro _ e h1 h2; simp at h2; omega
  | succ k ih =>
    intro fuel e he1 hek hf
    obtain ⟨f, rfl⟩ : ∃ f, fuel = f + 1 := ⟨fuel - 1, by omega⟩
    have hg : (gcd e (powMod - 1)).toNat = Nat.gcd e.toNat (p - 1) := gcd_eq _ _
    by_cases h1 : gcd e (powMod - 1) = 1
    · refine (forever_ret f (b := e) ?_).trans ?_
      · simp only [remapStep]
        rw [if_pos h1]
      · have : Nat.Coprime e.toNat (p - 1) := by
          rw [Nat.Coprime, ← hg, h1]; rfl
        rw [unitPart_of_coprime _ he1 this, BitVec.ofNat_toNat, BitVec.setWidth_eq]
    · have hg1 : Nat.gcd e.toNat (p - 1) ≠ 1 := fun h => h1 (BitVec.eq_of_toNat_eq (by rw [hg, h]; rfl))
      have hgp : 0 < Nat.gcd e.toNat (p - 1) := Nat.gcd_pos_of_pos_left _ he1
      have hg0 : gcd e (powMod - 1) ≠ 0 := fun h => by rw [h] at hg; simp at hg; omega
      refine (forever_cont f (s' := e / gcd e (powMod - 1)) ?_).trans ?_
      · simp only [remapStep]
        rw [if_neg h1, udiv, if_neg hg0, ok_bind]
      · have hd : (e / gcd e (powMod - 1)).toNat = e.toNat / Nat.gcd e.toNat (p - 1) := by
          rw [BitVec.toNat_udiv, hg]
        have hde : Nat.gcd e.toNat (p - 1) ∣ e.toNat := Nat.gcd_dvd_left _ _
        have h2 : e.toNat / Nat.gcd e.toNat (p - 1) ≤ e.toNat / 2 := Nat.div_le_div_left (by omega) (by omega)
        have h3 : 1 ≤ e.toNat / Nat.gcd e.toNat (p - 1) := Nat.div_pos (Nat.le_of_dvd he1 hde) hgp
        rw [ih f _ (by rw [hd]; exact h3) (by rw [hd]; omega) (by omega), hd, unitPart_div _ he1 _ hde (Nat.gcd_dvd_right _ _)]

theorem exponent_toNat (num : U64) : (num % (powMod - 2) + 1).toNat = num.toNat % (p - 2) + 1 := by
  rw [BitVec.toNat_add, BitVec.toNat_umod, show (powMod - 2).toNat = p - 2 from rfl, show (1 : U64).toNat = 1 from rfl]
  have := Nat.mod_lt num.toNat (show 0 < p - 2 by decide)
  exact Nat.mod_eq_of_lt (lt_of_lt_of_le (Nat.succ_lt_succ this) (by decide))

theorem exponent_lt (num : Nat) : num % (p - 2) + 1 < p - 1 := by
  have := Nat.mod_lt num (show 0 < p - 2 by decide)
  have : p - 2 + 1 = p - 1 := by decide
  omega

theorem remap_eq (fuel : Nat) (hf : 64 < fuel) (num : U64) : remap fuel num = .ok (BitVec.ofNat 64 (generator num.toNat)) := by
  have hl := exponent_lt num.toNat
  have hu := unitPart_le (num.toNat % (p - 2) + 1)
  have hp : p - 1 < 2 ^ 64 := by decide
  rw [remap, remap_loop 64 fuel _ (by rw [exponent_toNat]; omega) (by rw [exponent_toNat]; omega) hf, ok_bind,
    powerMod_eq fuel hf _ _ (by decide), exponent_toNat, BitVec.toNat_ofNat,
    Nat.mod_eq_of_lt (show unitPart (num.toNat % (p - 2) + 1) < 2 ^ 64 by omega)]
  rfl

/-! ## 11 generates the units modulo `p` -/

theorem p_prime : Nat.Prime p := by
  unfold p
  norm_num

instance : Fact p.Prime := ⟨p_prime⟩

theorem zmod_cast_pow (a e : Nat) : ((a : ZMod p) ^ e) = ((a ^ e % p : Nat) : ZMod p) := by
  rw [ZMod.natCast_mod, Nat.cast_pow]

theorem order_11 : orderOf (11 : ZMod p) = p - 1 := by
  have h11 : (11 : ZMod p) = ((11 : Nat) : ZMod p) := by norm_num
  apply orderOf_eq_of_pow_and_pow_div_prime (by decide)
  · apply ZMod.pow_card_sub_one_eq_one
    rw [h11, Ne, ZMod.natCast_eq_zero_iff]
    decide
  · intro q hq hqd
    have hfac : p - 1 = 2 ^ 14 * 3 ^ 2 * 7 := by decide
    have : q = 2 ∨ q = 3 ∨ q = 7 := by
      rw [hfac] at hqd
      rcases (Nat.Prime.dvd_mul hq).mp hqd with h | h
      · rcases (Nat.Prime.dvd_mul hq).mp h with h | h
        · exact Or.inl ((Nat.prime_dvd_prime_iff_eq hq Nat.prime_two).mp (hq.dvd_of_dvd_pow h))
        · exact Or.inr (Or.inl ((Nat.prime_dvd_prime_iff_eq hq Nat.prime_three).mp (hq.dvd_of_dvd_pow h)))
      · exact Or.inr (Or.inr ((Nat.prime_dvd_prime_iff_eq hq (by norm_num)).mp h))
    have key : ∀ r, r < p → r ≠ 1 → ((r : Nat) : ZMod p) ≠ 1 := by
      intro r hr h1 h
      have h' : ((r : Nat) : ZMod p) = ((1 : Nat) : ZMod p) := by rw [h, Nat.cast_one]
      rw [ZMod.natCast_eq_natCast_iff', Nat.mod_eq_of_lt hr, Nat.mod_eq_of_lt (by decide)] at h'
      exact h1 h'
    rw [h11, zmod_cast_pow]
    apply key _ (Nat.mod_lt _ (by decide))
    rcases this with rfl | rfl | rfl <;> decide +kernel

theorem pow_11_inj {i j : Nat} (hi : i < p - 1) (hj : j < p - 1) (h : 11 ^ i % p = 11 ^ j % p) : i = j := by
  have h' : (11 : ZMod p) ^ i = (11 : ZMod p) ^ j := by
    have h11 : (11 : ZMod p) = ((11 : Nat) : ZMod p) := by norm_num
    rw [h11, zmod_cast_pow, zmod_cast_pow, h]
  exact pow_injOn_Iio_orderOf (by rw [Set.mem_Iio, order_11]; exact hi) (by rw [Set.mem_Iio, order_11]; exact hj) h'

theorem order_generator (num : Nat) : orderOf ((generator num : Nat) : ZMod p) = p - 1 := by
  have h11 : (11 : ZMod p) = ((11 : Nat) : ZMod p) := by norm_num
  rw [generator, ← zmod_cast_pow, ← h11]
  have hc := (unitPart_spec (num % (p - 2) + 1) (by omega)).2
  rw [Nat.Coprime.orderOf_pow (by rw [order_11]; exact hc.symm), order_11]

theorem generator_lt (num : Nat) : generator num < p := Nat.mod_lt _ (by decide)

theorem generator_pos (num : Nat) : 0 < generator num := by
  rcases Nat.eq_zero_or_pos (generator num) with h | h
  · have := order_generator num
    rw [h, Nat.cast_zero, orderOf_zero] at this
    exact absurd this (by decide)
  · exact h

/-- every nonzero residue is a power of the generator -/
theorem generator_reaches (num x : Nat) (h0 : 0 < x) (hx : x < p) : ∃ k, k < p - 1 ∧ generator num ^ k % p = x := by
  have hinj : Set.InjOn (fun k => generator num ^ k % p) (Finset.range (p - 1) : Set Nat) := by
    intro i hi j hj h
    have hi' : i < p - 1 := by simpa using hi
    have hj' : j < p - 1 := by simpa using hj
    have h' : ((generator num : Nat) : ZMod p) ^ i = ((generator num : Nat) : ZMod p) ^ j := by
      rw [zmod_cast_pow, zmod_cast_pow]
      exact congrArg _ h
    exact pow_injOn_Iio_orderOf (by rw [Set.mem_Iio, order_generator]; exact hi') (by rw [Set.mem_Iio, order_generator]; exact hj') h'
  have hsub : (Finset.range (p - 1)).image (fun k => generator num ^ k % p) ⊆ Finset.Ioo 0 p := by
    intro y hy
    obtain ⟨k, _, e⟩ := Finset.mem_image.mp hy
    rw [Finset.mem_Ioo, ← e]
    refine ⟨Nat.pos_of_ne_zero fun hz => ?_, Nat.mod_lt _ (by decide)⟩
    have hd := p_prime.dvd_of_dvd_pow (Nat.dvd_of_mod_eq_zero hz)
    exact absurd (Nat.le_of_dvd (generator_pos num) hd) (by have := generator_lt num; omega)
  have heq := Finset.eq_of_subset_of_card_le hsub (by rw [Finset.card_image_of_injOn hinj, Finset.card_range, Nat.card_Ioo]; omega)
  have hm : x ∈ (Finset.range (p - 1)).image (fun k => generator num ^ k % p) := by
    rw [heq, Finset.mem_Ioo]
    exact ⟨h0, hx⟩
  obtain ⟨k, hk, e⟩ := Finset.mem_image.mp hm
  exact ⟨k, Finset.mem_range.mp hk, e⟩

/-! ## `computeC` -/

/-- consecutive exponents give different generators, unless both are the first one -/
theorem generator_succ {x y : Nat} (h : y % (p - 2) = x % (p - 2) + 1) (he : generator x = generator y) :
    unitPart (x % (p - 2) + 1) = 1 ∧ unitPart (y % (p - 2) + 1) = 1 := by
  have h1 := exponent_lt x
  have h2 := exponent_lt y
  have e := pow_11_inj (lt_of_le_of_lt (unitPart_le _) h1) (lt_of_le_of_lt (unitPart_le _) h2) he
  have d1 := (unitPart_spec (x % (p - 2) + 1) (by omega)).1
  have d2 := (unitPart_spec (y % (p - 2) + 1) (by omega)).1
  rw [← e, h] at d2
  have : unitPart (x % (p - 2) + 1) ∣ 1 := (Nat.dvd_add_right d1).mp d2
  have h1 := Nat.dvd_one.mp this
  exact ⟨h1, by rw [← e]; exact h1⟩

/-- five consecutive exponents do not all give the same generator -/
theorem generator_five (f : Nat → Nat) (h : ∀ i, i < 4 → f (i + 1) % (p - 2) = f i % (p - 2) + 1) (v : Nat)
    (hv : ∀ i, i < 5 → generator (f i) = v) : False := by
  have hall : ∀ i, i < 5 → unitPart (f i % (p - 2) + 1) = 1 := by
    intro i hi
    by_cases h4 : i < 4
    · exact (generator_succ (h i h4) ((hv i hi).trans (hv (i + 1) (by omega)).symm)).1
    · have : i = 3 + 1 := by omega
      subst this
      exact (generator_succ (h 3 (by omega)) ((hv 3 (by omega)).trans (hv _ hi).symm)).2
  have h0 : f 1 % (p - 2) = f 0 % (p - 2) + 1 := h 0 (by omega)
  have h1 : f 2 % (p - 2) = f 1 % (p - 2) + 1 := h 1 (by omega)
  have h2 : f 3 % (p - 2) = f 2 % (p - 2) + 1 := h 2 (by omega)
  have h3 : f 4 % (p - 2) = f 3 % (p - 2) + 1 := h 3 (by omega)
  have : ∃ i, i < 5 ∧ 5 ∣ f i % (p - 2) + 1 := by
    have := Nat.mod_lt (f 0 % (p - 2) + 1) (show 0 < 5 by omega)
    rcases (show (f 0 % (p - 2) + 1) % 5 = 0 ∨ (f 0 % (p - 2) + 1) % 5 = 1 ∨ (f 0 % (p - 2) + 1) % 5 = 2 ∨
      (f 0 % (p - 2) + 1) % 5 = 3 ∨ (f 0 % (p - 2) + 1) % 5 = 4 by omega) with h | h | h | h | h
    · exact ⟨0, by omega, by omega⟩
    · exact ⟨4, by omega, by omega⟩
    · exact ⟨3, by omega, by omega⟩
    · exact ⟨2, by omega, by omega⟩
    · exact ⟨1, by omega, by omega⟩
  obtain ⟨i, hi, h5⟩ := this
  have := dvd_unitPart _ (by omega) 5 h5 (by decide)
  rw [hall i hi] at this
  omega

/-- among any 19 consecutive 64-bit numbers there are five that give consecutive exponents -/
theorem consecutive (h : Nat) (hh : h < 2 ^ 64) :
    ∃ j, j ≤ 14 ∧ ∀ i, i < 4 → (h + (j + (i + 1))) % 2 ^ 64 % (p - 2) = (h + (j + i)) % 2 ^ 64 % (p - 2) + 1 := by
  simp only [show p - 2 = 1032191 from rfl]
  by_cases h1 : h + 14 < 2 ^ 64
  · by_cases h2 : h % 1032191 + 4 < 1032191
    · exact ⟨0, by omega, by intro i hi; omega⟩
    · refine ⟨1032191 - h % 1032191, by omega, fun i hi => ?_⟩
      rw [Nat.mod_eq_of_lt (show h + (1032191 - h % 1032191 + (i + 1)) < 2 ^ 64 by omega),
        Nat.mod_eq_of_lt (show h + (1032191 - h % 1032191 + i) < 2 ^ 64 by omega)]
      omega
  · exact ⟨2 ^ 64 - h, by omega, by intro i hi; omega⟩

/-- the generator for which the discriminant vanishes is unique -/
theorem disc_unique (a b x y : Nat) (ha : a < p) (ha0 : 0 < a) (hx : x < p) (hy : y < p)
    (h1 : b * b % p = 4 * a * x % p) (h2 : b * b % p = 4 * a * y % p) : x = y := by
  have h : (4 * a * x) % p = (4 * a * y) % p := h1.symm.trans h2
  have hc : Nat.Coprime p (4 * a) := by
    refine Nat.Coprime.mul_right (by decide) ?_
    rw [Nat.Prime.coprime_iff_not_dvd p_prime]
    exact fun hd => absurd (Nat.le_of_dvd ha0 hd) (by omega)
  have : x ≡ y [MOD p] := Nat.ModEq.cancel_left_of_coprime hc h
  rw [Nat.ModEq, Nat.mod_eq_of_lt hx, Nat.mod_eq_of_lt hy] at this
  exact this

/-- the search stops within 19 steps -/
theorem search_stops (a b h : Nat) (ha : a < p) (ha0 : 0 < a) (hh : h < 2 ^ 64) :
    ∃ k, k < 19 ∧ b * b % p ≠ 4 * a * generator ((h + k) % 2 ^ 64) % p := by
  by_contra hcon
  have hall : ∀ k, k < 19 → b * b % p = 4 * a * generator ((h + k) % 2 ^ 64) % p := by
    intro k hk
    by_contra hne
    exact hcon ⟨k, hk, hne⟩
  obtain ⟨j, hj, hc⟩ := consecutive h hh
  exact generator_five (fun i => (h + (j + i)) % 2 ^ 64) hc (generator ((h + j) % 2 ^ 64)) fun i hi =>
    disc_unique a b _ _ ha ha0 (generator_lt _) (generator_lt _) (hall (j + i) (by omega)) (hall j (by omega))

theorem disc_toNat (a b c : U64) (ha : a.toNat < p) (hb : b.toNat < p) (hc : c.toNat < p) :
    (b * b % powMod ≠ 4 * a * c % powMod) ↔ b.toNat * b.toNat % p ≠ 4 * a.toNat * c.toNat % p := by
  have h1 := mulMod b b hb hb
  have h4 : (4 * a).toNat = 4 * a.toNat := by
    rw [BitVec.toNat_mul, show (4 : U64).toNat = 4 from rfl]
    have : p = 1032193 := rfl
    omega
  have h2 : (4 * a * c % powMod).toNat = 4 * a.toNat * c.toNat % p := by
    have : 4 * a.toNat * c.toNat < 2 ^ 64 := lt_of_le_of_lt (Nat.mul_le_mul (Nat.mul_le_mul_left 4 ha.le) hc.le) (by decide)
    rw [BitVec.toNat_umod, BitVec.toNat_mul, powMod_toNat, h4, Nat.mod_eq_of_lt this]
  rw [Ne, ← BitVec.toNat_inj, h1, h2]

theorem generator_toNat (n : Nat) : (BitVec.ofNat 64 (generator n)).toNat = generator n := by
  rw [BitVec.toNat_ofNat]
  exact Nat.mod_eq_of_lt (lt_trans (generator_lt n) (by decide))

theorem computeC_loop (F : Nat) (hF : 64 < F) (a b : U64) (ha : a.toNat < p) (hb : b.toNat < p) (k : Nat) :
    ∀ (fuel : Nat) (h : U64), k < fuel → b.toNat * b.toNat % p ≠ 4 * a.toNat * generator ((h.toNat + k) % 2 ^ 64) % p →
      (∀ j, j < k → b.toNat * b.toNat % p = 4 * a.toNat * generator ((h.toNat + j) % 2 ^ 64) % p) →
      forever fuel h (computeCStep F a b) = .ok (BitVec.ofNat 64 (generator ((h.toNat + k) % 2 ^ 64))) := by
  induction k with
  | zero =>
    intro fuel h hf hne _
    obtain ⟨f, rfl⟩ : ∃ f, fuel = f + 1 := ⟨fuel - 1, by omega⟩
    have hm : (h.toNat + 0) % 2 ^ 64 = h.toNat := Nat.mod_eq_of_lt h.isLt
    rw [hm] at hne ⊢
    refine forever_ret f ?_
    unfold computeCStep
    rw [remap_eq F hF, ok_bind, if_pos]
    rw [disc_toNat _ _ _ ha hb (by rw [generator_toNat]; exact generator_lt _), generator_toNat]
    exact hne
  | succ k ih =>
    intro fuel h hf hne hall
    obtain ⟨f, rfl⟩ : ∃ f, fuel = f + 1 := ⟨fuel - 1, by omega⟩
    have hm : (h.toNat + 0) % 2 ^ 64 = h.toNat := Nat.mod_eq_of_lt h.isLt
    have h0 := hall 0 (by omega)
    rw [hm] at h0
    refine (forever_cont f (s' := h + 1) ?_).trans ?_
    · unfold computeCStep
      rw [remap_eq F hF, ok_bind, if_neg]
      rw [disc_toNat _ _ _ ha hb (by rw [generator_toNat]; exact generator_lt _), generator_toNat]
      exact fun hne => hne h0
    · have hs : ∀ j, ((h + 1).toNat + j) % 2 ^ 64 = (h.toNat + (j + 1)) % 2 ^ 64 := by
        intro j
        rw [BitVec.toNat_add, show (1 : U64).toNat = 1 from rfl, Nat.mod_add_mod]
        congr 1
        omega
      rw [ih f (h + 1) (by omega) (by rw [hs]; exact hne) (fun j hj => by rw [hs]; exact hall (j + 1) (by omega)), hs]

theorem computeC_eq (fuel : Nat) (hf : 64 < fuel) (a b h : U64) (ha : a.toNat < p) (ha0 : 0 < a.toNat) (hb : b.toNat < p) :
    ∃ c, computeC fuel a b h = .ok (BitVec.ofNat 64 c) ∧ IsC a.toNat b.toNat h.toNat c ∧ c < p := by
  obtain ⟨k, hk, hne⟩ := search_stops a.toNat b.toNat h.toNat ha ha0 h.isLt
  obtain ⟨m, hm, hmin⟩ : ∃ m, (b.toNat * b.toNat % p ≠ 4 * a.toNat * generator ((h.toNat + m) % 2 ^ 64) % p ∧ m ≤ k) ∧
      ∀ j, j < m → b.toNat * b.toNat % p = 4 * a.toNat * generator ((h.toNat + j) % 2 ^ 64) % p := by
    classical
    have hex : ∃ k, b.toNat * b.toNat % p ≠ 4 * a.toNat * generator ((h.toNat + k) % 2 ^ 64) % p := ⟨k, hne⟩
    refine ⟨Nat.find hex, ⟨Nat.find_spec hex, Nat.find_min' hex hne⟩, fun j hj => ?_⟩
    by_contra hc
    exact Nat.find_min hex hj hc
  exact ⟨_, computeC_loop fuel hf a b ha hb m fuel h (by omega) hm.1 hmin, ⟨m, rfl, hm.1, hmin⟩, generator_lt _⟩

end Verif.Octopus
