import Verif.Proof.Pratt
import Verif.Spec.Progpow
import Mathlib.Algebra.Module.Hom
import Mathlib.FieldTheory.Finite.Basic
import Mathlib.NumberTheory.Multiplicity

/-! # The cycles of KISS99

Four generators run side by side. The two that multiply with carry are multiplications modulo a prime, the congruential one has all numbers of 32 bits
in one cycle, and the shift register is linear over the field of two elements. -/

set_option autoImplicit false

namespace Verif.KissCycle

open Spec.Progpow Spec.Progpow.Kiss Gf2

/-! ### multiplication with carry -/

theorem mwc_nat (m : Nat) (hm : m < 2 ^ 16) (x : W) : (mwc m x).toNat = m * (x.toNat % 2 ^ 16) + x.toNat / 2 ^ 16 := by
  have hx := x.isLt
  have h1 : m * (x.toNat % 2 ^ 16) ≤ 65535 * 65535 := Nat.mul_le_mul (by omega) (by omega)
  unfold mwc
  rw [BitVec.toNat_ofNat, Nat.mod_eq_of_lt (by omega)]

section
variable (m p : Nat) (hm : m < 2 ^ 16) (hp : p + 1 = m * 2 ^ 16)
include hm hp

/-- a step divides by `2^16` modulo `p` -/
theorem mwc_mul (x : W) : (mwc m x).toNat * 2 ^ 16 = p * (x.toNat % 2 ^ 16) + x.toNat := by
  rw [mwc_nat m hm, Nat.add_mul, Nat.mul_right_comm, ← hp, Nat.add_mul]
  have := Nat.div_add_mod x.toNat (2 ^ 16)
  omega

theorem mwc_iter (n : Nat) (x : W) : (((mwc m)^[n] x).toNat : ZMod p) * (2 ^ 16) ^ n = x.toNat := by
  induction n generalizing x with
  | zero => simp
  | succ n ih =>
    rw [Function.iterate_succ_apply, pow_succ, ← mul_assoc, ih]
    have := congrArg (Nat.cast (R := ZMod p)) (mwc_mul m p hm hp x)
    push_cast at this
    rw [CharP.cast_eq_zero (ZMod p) p, zero_mul, zero_add] at this
    rw [show (2 : ZMod p) ^ 16 = 65536 by norm_num]
    exact this

theorem mwc_le (x : W) (hx : x.toNat ≤ p) : (mwc m x).toNat ≤ p := by
  have h := mwc_mul m p hm hp x
  have : p * (x.toNat % 2 ^ 16) ≤ p * 65535 := Nat.mul_le_mul_left _ (by omega)
  omega

theorem mwc_iter_le (n : Nat) (x : W) (hx : x.toNat ≤ p) : ((mwc m)^[n] x).toNat ≤ p := by
  induction n generalizing x with
  | zero => exact hx
  | succ n ih => exact ih _ (mwc_le m p hm hp x hx)

/-- after two steps the number is at most `p` -/
theorem mwc_two (h0 : 0 < m) (x : W) : (mwc m (mwc m x)).toNat ≤ p := by
  obtain ⟨y, hy⟩ : ∃ y, y = mwc m x := ⟨_, rfl⟩
  rw [← hy]
  by_cases h : y.toNat ≤ p
  · exact mwc_le m p hm hp y h
  · have hx := x.isLt
    have e := mwc_nat m hm x
    have e2 := mwc_nat m hm y
    have h1 : m * (x.toNat % 2 ^ 16) ≤ m * 65535 := Nat.mul_le_mul_left _ (by omega)
    rw [← hy] at e
    have hd : y.toNat / 2 ^ 16 = m := by omega
    have h2 : m * (y.toNat % 2 ^ 16) ≤ m * (65535 - m) := Nat.mul_le_mul_left _ (by omega)
    have h3 : m * (65535 - m) ≤ m * 65534 := Nat.mul_le_mul_left _ (by omega)
    omega

theorem mwc_rest (x : W) (hx : x.toNat = 0 ∨ x.toNat = p) : mwc m x = x := by
  apply BitVec.eq_of_toNat_eq
  have h := mwc_mul m p hm hp x
  have hm0 : p < 2 ^ 32 := by omega
  rcases hx with hx | hx
  · rw [hx] at h ⊢; simpa using h
  · rw [hx] at h ⊢
    have : p % 2 ^ 16 = 65535 := by omega
    rw [this] at h
    omega

variable (q : Nat) (hpp : p.Prime) (hq : q.Prime) (hpq : p = 2 * q + 1) (h16 : 2 ^ 16 < p)
include hpp hq hpq h16

omit hm in
theorem order : orderOf ((2 : ZMod p) ^ 16) = q := by
  have := Fact.mk hpp
  have := Fact.mk hq
  refine orderOf_eq_prime ?_ ?_
  · have h2 : (2 : ZMod p) ≠ 0 := by
      intro h
      have : ((2 : Nat) : ZMod p) = 0 := by exact_mod_cast h
      rw [ZMod.natCast_eq_zero_iff] at this
      have := Nat.le_of_dvd (by omega) this
      omega
    rw [← pow_mul, show 16 * q = (p - 1) * 8 by omega, pow_mul, ZMod.pow_card_sub_one_eq_one h2, one_pow]
  · intro h
    have : ((2 ^ 16 : Nat) : ZMod p) = ((1 : Nat) : ZMod p) := by exact_mod_cast h
    rw [ZMod.natCast_eq_natCast_iff', Nat.mod_eq_of_lt h16, Nat.mod_eq_of_lt (by omega)] at this
    omega

/-- from a number that `p` does not divide, numbers repeat only after a multiple of `q` steps -/
theorem mwc_repeat (x : W) (hx : ¬ p ∣ x.toNat) (i j : Nat) (h : (mwc m)^[i] x = (mwc m)^[j] x) : i ≡ j [MOD q] := by
  have := Fact.mk hpp
  have hi := mwc_iter m p hm hp i x
  have hj := mwc_iter m p hm hp j x
  rw [h] at hi
  have hx0 : (x.toNat : ZMod p) ≠ 0 := by rwa [Ne, ZMod.natCast_eq_zero_iff]
  have hy0 : (((mwc m)^[j] x).toNat : ZMod p) ≠ 0 := by
    intro h0
    rw [h0, zero_mul] at hj
    exact hx0 hj.symm
  have he := mul_left_cancel₀ hy0 (hi.trans hj.symm)
  have hu : ((2 : ZMod p) ^ 16) ≠ 0 := by
    intro h0
    have := order m p hp q hpp hq hpq h16
    rw [h0, orderOf_zero] at this
    exact hq.ne_zero this.symm
  have he' : (Units.mk0 _ hu) ^ i = (Units.mk0 _ hu) ^ j := by
    apply Units.ext
    simpa using he
  rw [pow_eq_pow_iff_modEq, ← orderOf_units, Units.val_mk0, order m p hp q hpp hq hpq h16] at he'
  exact he'

/-- from a number of at most `p`, they do repeat after `q` steps -/
theorem mwc_return (x : W) (hx : x.toNat ≤ p) : (mwc m)^[q] x = x := by
  by_cases hr : x.toNat = 0 ∨ x.toNat = p
  · exact Function.iterate_fixed (mwc_rest m p hm hp x hr) q
  · have hi := mwc_iter m p hm hp q x
    rw [← order m p hp q hpp hq hpq h16, pow_orderOf_eq_one, mul_one, order m p hp q hpp hq hpq h16, ZMod.natCast_eq_natCast_iff'] at hi
    have hle := mwc_iter_le m p hm hp q x hx
    apply BitVec.eq_of_toNat_eq
    rw [Nat.mod_eq_of_lt (a := x.toNat) (by omega)] at hi
    by_cases hp' : ((mwc m)^[q] x).toNat = p
    · rw [hp', Nat.mod_self] at hi; omega
    · rw [Nat.mod_eq_of_lt (by omega)] at hi; exact hi

/-- the only numbers at rest are 0 and `p` -/
theorem mwc_rest_iff (h0 : 0 < m) (x : W) : mwc m x = x ↔ x.toNat = 0 ∨ x.toNat = p := by
  refine ⟨fun h => ?_, mwc_rest m p hm hp x⟩
  have hle := mwc_two m p hm hp h0 x
  rw [h, h] at hle
  by_cases hd : p ∣ x.toNat
  · obtain ⟨t, ht⟩ := hd
    rcases t with _ | _ | t
    · left; omega
    · right; omega
    · exfalso
      have h2 : p * (t + 1 + 1) = p * t + 2 * p := by ring
      rw [ht, h2] at hle
      omega
  · have := mwc_repeat m p hm hp q hpp hq hpq h16 x hd 1 0 h
    have h1 := Nat.ModEq.dvd this.symm
    have h2 := Int.le_of_dvd (by decide) h1
    have := hq.two_le
    omega

theorem mwc_return_mul (x : W) (hx : x.toNat ≤ p) (n : Nat) (hn : q ∣ n) : (mwc m)^[n] x = x := by
  obtain ⟨t, rfl⟩ := hn
  rw [Function.iterate_mul]
  exact Function.iterate_fixed (mwc_return m p hm hp q hpp hq hpq h16 x hx) t

end


/-! ### the congruential generator -/

/-- a step of the congruential generator -/
def lcg (x : W) : W := BitVec.ofNat 32 (69069 * x.toNat + 1234567)

/-- `68068 x + 1234567` is multiplied by 69069 modulo `2^34` -/
theorem lcg_iter (n : Nat) (x : W) :
    (2 ^ 34 : Int) ∣ (69068 * ((lcg^[n] x).toNat : Int) + 1234567) - 69069 ^ n * (69068 * (x.toNat : Int) + 1234567) := by
  induction n generalizing x with
  | zero => simp
  | succ n ih =>
    rw [Function.iterate_succ_apply]
    have h1 : (2 ^ 34 : Int) ∣ (69068 * ((lcg x).toNat : Int) + 1234567) - 69069 * (69068 * (x.toNat : Int) + 1234567) := by
      unfold lcg
      rw [BitVec.toNat_ofNat]
      omega
    have h2 := Dvd.dvd.mul_left h1 (69069 ^ n)
    have := dvd_add (ih (lcg x)) h2
    rwa [show ∀ A B C D : Int, A - D * B + D * (B - 69069 * C) = A - D * 69069 * C from fun A B C D => by ring, ← pow_succ] at this

theorem lcg_arith (a b : Nat) (A B : Int) (hi : (2 ^ 34 : Int) ∣ (69068 * (a : Int) + 1234567) - B)
    (hj : (2 ^ 34 : Int) ∣ (69068 * (b : Int) + 1234567) - A) (l1 : a < 2 ^ 32) (l2 : b < 2 ^ 32) : a = b ↔ (2 ^ 34 : Int) ∣ A - B := by
  constructor
  · rintro rfl
    have := dvd_sub hi hj
    rwa [show ∀ C : Int, C - B - (C - A) = A - B from fun C => by ring] at this
  · intro h
    have h1 := dvd_sub (dvd_sub hi hj) h
    obtain ⟨t, ht⟩ := h1
    have h2 : (2 ^ 32 : Int) ∣ 17267 * ((a : Int) - b) := ⟨t, by linarith⟩
    have h3 : IsCoprime ((2 : Int) ^ 32) 17267 := IsCoprime.pow_left ⟨-8633, 1, by norm_num⟩
    obtain ⟨u, hu⟩ := h3.dvd_of_dvd_mul_left h2
    have h5 : (a : Int) - b = 4294967296 * u := by rw [hu]; norm_num
    clear h2 h3 hu ht hi hj h
    omega

theorem lcg_equal (i j : Nat) (x : W) : lcg^[i] x = lcg^[j] x ↔ i ≡ j [MOD 2 ^ 32] := by
  wlog hij : i ≤ j generalizing i j
  · rw [eq_comm, this j i (by omega)]
    exact ⟨Nat.ModEq.symm, Nat.ModEq.symm⟩
  obtain ⟨d, rfl⟩ := Nat.exists_eq_add_of_le hij
  have e1 : lcg^[i] x = lcg^[i + d] x ↔ (2 ^ 34 : Int) ∣ 69069 ^ (i + d) * (69068 * (x.toNat : Int) + 1234567) - 69069 ^ i * (69068 * (x.toNat : Int) + 1234567) := by
    rw [← BitVec.toNat_inj]
    exact lcg_arith _ _ _ _ (lcg_iter i x) (lcg_iter (i + d) x) (lcg^[i] x).isLt (lcg^[i + d] x).isLt
  have e2 : ((69069 : Int) ^ (i + d) * (69068 * (x.toNat : Int) + 1234567) - 69069 ^ i * (69068 * (x.toNat : Int) + 1234567)) =
      (69069 ^ i * (69068 * (x.toNat : Int) + 1234567)) * (69069 ^ d - 1 ^ d) := by
    rw [one_pow]; ring
  have hc : IsCoprime ((2 : Int) ^ 34) (69069 ^ i * (69068 * (x.toNat : Int) + 1234567)) := by
    refine IsCoprime.pow_left (IsCoprime.mul_right (IsCoprime.pow_right ?_) ?_)
    · exact ⟨-34534, 1, by norm_num⟩
    · exact ⟨-(34534 * (x.toNat : Int) + 617283), 1, by ring⟩
  rw [e1, e2, show ∀ A : Int, _ ∣ _ * A ↔ _ ∣ A from fun A => ⟨hc.dvd_of_dvd_mul_left, fun h => Dvd.dvd.mul_left h _⟩, Nat.modEq_iff_dvd, pow_dvd_iff_le_emultiplicity, Int.two_pow_sub_pow' d (by norm_num) (by norm_num)]
  have h4 : emultiplicity (2 : Int) (69069 - 1) = 2 := by
    refine emultiplicity_eq_of_dvd_of_not_dvd ?_ ?_ <;> norm_num
  rw [h4, show ((34 : Nat) : ENat) = 2 + 32 by norm_num, ENat.add_le_add_iff_left (by decide), show ((32 : ENat)) = ((32 : Nat) : ENat) from rfl,
    ← pow_dvd_iff_le_emultiplicity]
  push_cast
  rw [show ((i : Int) + d - i) = d by ring]

/-! ### the shift register -/

/-- words with exclusive or -/
structure Word where
  val : W

theorem word_ext {s t : Word} (h : s.val = t.val) : s = t := by
  cases s; cases t; simp_all

instance : Add Word := ⟨fun s t => ⟨s.val ^^^ t.val⟩⟩

instance : Zero Word := ⟨⟨0⟩⟩

instance : Neg Word := ⟨fun s => s⟩

instance : AddCommGroup Word where
  add_assoc _ _ _ := word_ext (BitVec.xor_assoc _ _ _)
  zero_add _ := word_ext BitVec.zero_xor
  add_zero _ := word_ext BitVec.xor_zero
  neg_add_cancel _ := word_ext BitVec.xor_self
  add_comm _ _ := word_ext (BitVec.xor_comm _ _)
  nsmul := nsmulRec
  zsmul := zsmulRec

theorem add_def (s t : Word) : s + t = ⟨s.val ^^^ t.val⟩ := rfl

theorem xor4 (a b c d : W) : (a ^^^ b) ^^^ (c ^^^ d) = (a ^^^ c) ^^^ (b ^^^ d) := by
  rw [BitVec.xor_assoc, BitVec.xor_assoc, ← BitVec.xor_assoc b, BitVec.xor_comm b c, BitVec.xor_assoc]

theorem shr3_xor (a b : W) : shr3 (a ^^^ b) = shr3 a ^^^ shr3 b := by
  simp only [shr3]
  rw [BitVec.shiftLeft_xor_distrib a b, xor4, BitVec.ushiftRight_xor_distrib, xor4, BitVec.shiftLeft_xor_distrib _ _ 5, xor4]

/-- the transition -/
def T : AddMonoid.End Word where
  toFun s := ⟨shr3 s.val⟩
  map_zero' := word_ext (by decide)
  map_add' s t := word_ext (shr3_xor s.val t.val)

theorem pow_apply (n : Nat) (x : W) : (T ^ n) ⟨x⟩ = ⟨shr3^[n] x⟩ := by
  induction n with
  | zero => rfl
  | succ n ih => rw [pow_succ', AddMonoid.End.coe_mul, Function.comp_apply, ih, Function.iterate_succ_apply']; rfl

theorem end_add_self (x : AddMonoid.End Word) : x + x = 0 := by
  ext1 s
  exact neg_add_cancel (x s)

theorem ofNat_self (x : W) : BitVec.ofNat 32 x.toNat = x := BitVec.eq_of_toNat_eq (by rw [BitVec.toNat_ofNat, Nat.mod_eq_of_lt x.isLt])

/-- the word with a number -/
def unpack (w : Nat) : Word := ⟨BitVec.ofNat 32 w⟩

theorem unpack_zero : unpack 0 = 0 := rfl

theorem unpack_xor (a b : Nat) : unpack (a ^^^ b) = unpack a + unpack b := by
  unfold unpack
  rw [add_def, BitVec.ofNat_xor]

/-- the transition on numbers -/
def stepN (w : Nat) : Nat :=
  force (Nat.xor w (Nat.mod (Nat.shiftLeft w 17) 4294967296)) fun a => force (Nat.xor a (Nat.shiftRight a 13)) fun b =>
    Nat.xor b (Nat.mod (Nat.shiftLeft b 5) 4294967296)

theorem stepN_eq (x : W) : stepN x.toNat = (shr3 x).toNat := by
  unfold stepN shr3
  rw [force_eq, force_eq]
  simp only [BitVec.toNat_xor, BitVec.toNat_shiftLeft, BitVec.toNat_ushiftRight]
  rfl

theorem stepN_lt (w : Nat) (h : w < 2 ^ 32) : stepN w < 2 ^ 32 := by
  have := stepN_eq (BitVec.ofNat 32 w)
  rw [BitVec.toNat_ofNat, Nat.mod_eq_of_lt h] at this
  rw [this]
  exact BitVec.isLt _

theorem unpack_step (w : Nat) (h : w < 2 ^ 32) : unpack (stepN w) = T (unpack w) := by
  have := stepN_eq (BitVec.ofNat 32 w)
  rw [BitVec.toNat_ofNat, Nat.mod_eq_of_lt h] at this
  rw [this]
  exact word_ext (ofNat_self _)

/-- the value of the polynomial `p` at the transition, on the word `w`: Horner's rule -/
def evalLoop (p w i : Nat) : Nat → Nat :=
  Nat.rec (fun acc => acc) (fun i next acc => force (Nat.xor (stepN acc) (Nat.mul w (bit p i))) next) i

theorem evalLoop_eq (p w i acc : Nat) (hw : w < 2 ^ 32) (ha : acc < 2 ^ 32) :
    unpack (evalLoop p w i acc) = (T ^ i) (unpack acc) + (ev T (p % 2 ^ i)) (unpack w) := by
  induction i generalizing acc with
  | zero =>
    show unpack acc = _
    rw [pow_zero, Nat.pow_zero, Nat.mod_one, ev_zero]
    exact (add_zero _).symm
  | succ i ih =>
    have hb : w * (p / 2 ^ i % 2) < 2 ^ 32 := by
      rcases Nat.mod_two_eq_zero_or_one (p / 2 ^ i) with h | h <;> rw [h] <;> omega
    show unpack (force (stepN acc ^^^ w * bit p i) (evalLoop p w i)) = _
    rw [force_eq, bit_eq, ih _ (Nat.xor_lt_two_pow (stepN_lt acc ha) hb), unpack_xor, unpack_step acc ha, ev_low end_add_self, pow_succ,
      AddMonoid.End.coe_mul, Function.comp_apply, map_add, add_assoc]
    congr 1
    show _ = (if p / 2 ^ i % 2 = 1 then T ^ i else 0) (unpack w) + _
    congr 1
    rcases Nat.mod_two_eq_zero_or_one (p / 2 ^ i) with h | h <;> rw [h]
    · rw [Nat.mul_zero, unpack_zero, map_zero, if_neg (by omega)]; rfl
    · rw [Nat.mul_one, if_pos rfl]

/-- the polynomial -/
def poly : Nat := 0b100101001000000000100010000000101

theorem vanishes (j : Nat) (hj : j < 32) : evalLoop poly (2 ^ j) 33 0 = 0 := by
  have : ∀ j : Fin 32, evalLoop poly (2 ^ j.val) 33 0 = 0 := by decide +kernel
  exact this ⟨j, hj⟩

theorem additive_zero (f : Nat → Word) (h0 : f 0 = 0) (hx : ∀ a b, f (a ^^^ b) = f a + f b) (n : Nat) (hb : ∀ j < n, f (2 ^ j) = 0) (w : Nat) :
    f (w % 2 ^ n) = 0 := by
  induction n with
  | zero => rw [Nat.pow_zero, Nat.mod_one, h0]
  | succ n ih =>
    rw [low_split, hx, ih fun j hj => hb j (by omega), add_zero]
    rcases Nat.mod_two_eq_zero_or_one (w / 2 ^ n) with h | h <;> rw [h]
    · rw [Nat.mul_zero, h0]
    · rw [Nat.mul_one, hb n (by omega)]

theorem poly_zero : ev T poly = 0 := by
  ext1 s
  obtain ⟨x⟩ := s
  have := additive_zero (fun w => ev T poly (unpack w)) (by
      show ev T poly (unpack 0) = 0
      rw [unpack_zero, map_zero]) (by
      intro a b
      show ev T poly (unpack (a ^^^ b)) = _
      rw [unpack_xor, map_add]) 32 (by
      intro j hj
      have h := evalLoop_eq poly (2 ^ j) 33 0 (Nat.pow_lt_pow_right (by omega) hj) (by decide)
      rw [vanishes j hj, unpack_zero, map_zero, zero_add, Nat.mod_eq_of_lt (by decide)] at h
      exact h.symm) x.toNat
  rw [Nat.mod_eq_of_lt x.isLt] at this
  have e : unpack x.toNat = ⟨x⟩ := word_ext (ofNat_self _)
  rw [← e]
  exact this

/-- the order of the transition -/
def order3 : Nat := 306706140

theorem power (e : Nat) (he : e < 2 ^ 32) : ev T (powLoop 32 poly e 32 1) = T ^ e :=
  ev_power end_add_self T 32 poly e 32 poly_zero (by decide) (by decide) (by decide) he

theorem shr3_return_of (e : Nat) (he : e < 2 ^ 32) (h1 : powLoop 32 poly e 32 1 = 1) (x : W) : shr3^[e] x = x := by
  have h := power e he
  rw [h1, ev_one] at h
  have h2 := pow_apply e x
  rw [← h] at h2
  exact (congrArg Word.val h2).symm

/-- every word returns after as many steps -/
theorem shr3_return (x : W) : shr3^[order3] x = x := shr3_return_of order3 (by decide) (by decide +kernel) x

/-- a power of the transition on the word 1 -/
theorem power_one (e g : Nat) (he : e < 2 ^ 32) (hg : g < 2 ^ 32) (h : powLoop 32 poly e 32 1 = g) :
    shr3^[e] 1 = BitVec.ofNat 32 (evalLoop g 1 32 0) := by
  have h1 := power e he
  rw [h] at h1
  have h2 := evalLoop_eq g 1 32 0 (by decide) (by decide)
  rw [unpack_zero, map_zero, zero_add, Nat.mod_eq_of_lt hg, h1] at h2
  have h3 := pow_apply e 1
  rw [show (⟨1⟩ : Word) = unpack 1 from rfl, ← h2] at h3
  exact (congrArg Word.val h3).symm

/-! ### the four together -/

/-- `36969 * 2^16 - 1` -/
def P1 : Nat := 2422800383
/-- half of it -/
def Q1 : Nat := 1211400191
/-- `18000 * 2^16 - 1` -/
def P2 : Nat := 1179647999
/-- half of it -/
def Q2 : Nat := 589823999
/-- the odd part of the order of the shift register -/
def R3 : Nat := 76676535

theorem primeQ1 : Q1.Prime :=
  Pratt.prime_of _ 7 32 [2, 5, 7, 11, 13, 121019]
    (by repeat' first | exact Pratt.all_nil | refine Pratt.all_cons (by norm_num) ?_) (by decide) (by decide) (by decide +kernel)
    (by decide +kernel) (by decide +kernel)

theorem primeP1 : P1.Prime :=
  Pratt.prime_of _ 5 32 [2, Q1] (Pratt.all_cons (by norm_num) (Pratt.all_cons primeQ1 Pratt.all_nil)) (by decide) (by decide) (by decide +kernel)
    (by decide +kernel) (by decide +kernel)

theorem primeQ2a : Nat.Prime 294911999 :=
  Pratt.prime_of _ 7 32 [2, 1399, 105401]
    (by repeat' first | exact Pratt.all_nil | refine Pratt.all_cons (by norm_num) ?_) (by decide) (by decide) (by decide +kernel)
    (by decide +kernel) (by decide +kernel)

theorem primeQ2 : Q2.Prime :=
  Pratt.prime_of _ 7 32 [2, 294911999] (Pratt.all_cons (by norm_num) (Pratt.all_cons primeQ2a Pratt.all_nil)) (by decide) (by decide)
    (by decide +kernel) (by decide +kernel) (by decide +kernel)

theorem primeP2 : P2.Prime :=
  Pratt.prime_of _ 31 32 [2, Q2] (Pratt.all_cons (by norm_num) (Pratt.all_cons primeQ2 Pratt.all_nil)) (by decide) (by decide) (by decide +kernel)
    (by decide +kernel) (by decide +kernel)

theorem step_eq (k : Kiss) : step k = ⟨mwc 36969 k.z, mwc 18000 k.w, shr3 k.jsr, lcg k.jcong⟩ := rfl

theorem step_iter (n : Nat) (k : Kiss) :
    step^[n] k = ⟨(mwc 36969)^[n] k.z, (mwc 18000)^[n] k.w, shr3^[n] k.jsr, lcg^[n] k.jcong⟩ := by
  induction n generalizing k with
  | zero => rfl
  | succ n ih =>
    rw [Function.iterate_succ_apply, ih, step_eq, Function.iterate_succ_apply, Function.iterate_succ_apply, Function.iterate_succ_apply,
      Function.iterate_succ_apply]

theorem z_repeat (x : W) (hx : ¬ P1 ∣ x.toNat) (i j : Nat) (h : (mwc 36969)^[i] x = (mwc 36969)^[j] x) : i ≡ j [MOD Q1] :=
  mwc_repeat 36969 P1 (by decide) (by decide) Q1 primeP1 primeQ1 (by decide) (by decide) x hx i j h

theorem w_repeat (x : W) (hx : ¬ P2 ∣ x.toNat) (i j : Nat) (h : (mwc 18000)^[i] x = (mwc 18000)^[j] x) : i ≡ j [MOD Q2] :=
  mwc_repeat 18000 P2 (by decide) (by decide) Q2 primeP2 primeQ2 (by decide) (by decide) x hx i j h

theorem z_return (x : W) (hx : x.toNat ≤ P1) (n : Nat) (hn : Q1 ∣ n) : (mwc 36969)^[n] x = x :=
  mwc_return_mul 36969 P1 (by decide) (by decide) Q1 primeP1 primeQ1 (by decide) (by decide) x hx n hn

theorem w_return (x : W) (hx : x.toNat ≤ P2) (n : Nat) (hn : Q2 ∣ n) : (mwc 18000)^[n] x = x :=
  mwc_return_mul 18000 P2 (by decide) (by decide) Q2 primeP2 primeQ2 (by decide) (by decide) x hx n hn

theorem z_rest (x : W) : mwc 36969 x = x ↔ x.toNat = 0 ∨ x.toNat = P1 :=
  mwc_rest_iff 36969 P1 (by decide) (by decide) Q1 primeP1 primeQ1 (by decide) (by decide) (by decide) x

theorem w_rest (x : W) : mwc 18000 x = x ↔ x.toNat = 0 ∨ x.toNat = P2 :=
  mwc_rest_iff 18000 P2 (by decide) (by decide) Q2 primeP2 primeQ2 (by decide) (by decide) (by decide) x

theorem coprime3 : Nat.Coprime (2 ^ 32) Q1 ∧ Nat.Coprime (2 ^ 32 * Q1) Q2 := by decide +kernel

theorem iter_repeat (k : Kiss) (i j : Nat) (h : step^[i] k = step^[j] k) : i ≡ j [MOD 2 ^ 32] := by
  rw [step_iter, step_iter, Kiss.mk.injEq] at h
  exact (lcg_equal i j k.jcong).1 h.2.2.2

theorem iter_long (k : Kiss) (hz : ¬ P1 ∣ k.z.toNat) (hw : ¬ P2 ∣ k.w.toNat) (i j : Nat) (h : step^[i] k = step^[j] k) :
    i ≡ j [MOD 2 ^ 32 * Q1 * Q2] := by
  have h1 := iter_repeat k i j h
  rw [step_iter, step_iter, Kiss.mk.injEq] at h
  exact (Nat.modEq_and_modEq_iff_modEq_mul coprime3.2).1
    ⟨(Nat.modEq_and_modEq_iff_modEq_mul coprime3.1).1 ⟨h1, z_repeat _ hz i j h.1⟩, w_repeat _ hw i j h.2.1⟩

theorem shr3_return_mul (x : W) (n : Nat) (hn : order3 ∣ n) : shr3^[n] x = x := by
  obtain ⟨t, rfl⟩ := hn
  rw [Function.iterate_mul]
  exact Function.iterate_fixed (shr3_return x) t

theorem iter_return (k : Kiss) (hz : k.z.toNat ≤ P1) (hw : k.w.toNat ≤ P2) (n : Nat) (hn : 2 ^ 32 * Q1 * Q2 * R3 ∣ n) : step^[n] k = k := by
  have h1 : Q1 ∣ n := Dvd.dvd.trans (by decide +kernel) hn
  have h2 : Q2 ∣ n := Dvd.dvd.trans (by decide +kernel) hn
  have h3 : order3 ∣ n := Dvd.dvd.trans (by decide +kernel) hn
  have h4 : 2 ^ 32 ∣ n := Dvd.dvd.trans (by decide +kernel) hn
  rw [step_iter, z_return _ hz n h1, w_return _ hw n h2, shr3_return_mul _ n h3,
    (lcg_equal n 0 k.jcong).2 ((Nat.modEq_zero_iff_dvd).2 h4)]
  rfl

/-- after two steps the numbers that multiply with carry are in their ranges -/
theorem iter_two (k : Kiss) (n : Nat) (hn : 2 ≤ n) : (step^[n] k).z.toNat ≤ P1 ∧ (step^[n] k).w.toNat ≤ P2 := by
  obtain ⟨t, rfl⟩ := Nat.exists_eq_add_of_le' hn
  rw [step_iter]
  dsimp only
  rw [Function.iterate_add_apply, Function.iterate_add_apply]
  exact ⟨mwc_iter_le 36969 P1 (by decide) (by decide) t _ (mwc_two 36969 P1 (by decide) (by decide) (by decide) k.z),
    mwc_iter_le 18000 P2 (by decide) (by decide) t _ (mwc_two 18000 P2 (by decide) (by decide) (by decide) k.w)⟩

/-! ### a state with the longest period -/

/-- the minimal period is the one that no prime factor can be taken from -/
theorem period_of {A : Type} (f : A → A) (x : A) (e : Nat) (fs : List Nat) (hfs : ∀ q ∈ fs, q.Prime) (hprod : fs.prod = e)
    (h0 : Function.IsPeriodicPt f e x) (hn : ∀ r ∈ fs, ¬ Function.IsPeriodicPt f (e / r) x) : Function.minimalPeriod f x = e := by
  obtain ⟨t, ht⟩ := h0.minimalPeriod_dvd
  by_cases h1 : t = 1
  · rw [ht, h1, Nat.mul_one]
  · exfalso
    have hr := Nat.minFac_prime h1
    obtain ⟨u, hu⟩ := Nat.minFac_dvd t
    obtain ⟨r, hr'⟩ : ∃ r, r = t.minFac := ⟨_, rfl⟩
    rw [← hr'] at hr hu
    have he : e = r * (Function.minimalPeriod f x * u) := by rw [ht, hu]; ring
    have hm := Pratt.mem_of_prod fs hfs r hr (by rw [hprod, he]; exact Nat.dvd_mul_right _ _)
    refine hn r hm ?_
    rw [Function.isPeriodicPt_iff_minimalPeriod_dvd, he, Nat.mul_div_cancel_left _ hr.pos]
    exact Nat.dvd_mul_right _ _

/-- a power of the transition on the word 1, as a number -/
def oneAfter (e : Nat) : Nat := evalLoop (powLoop 32 poly e 32 1) 1 32 0

theorem oneAfter_eq (e : Nat) (he : e < 2 ^ 32) (hg : powLoop 32 poly e 32 1 < 2 ^ 32) : shr3^[e] 1 = BitVec.ofNat 32 (oneAfter e) :=
  power_one e _ he hg rfl

theorem one_fixed (e : Nat) (he : e < 2 ^ 32) (hg : powLoop 32 poly e 32 1 < 2 ^ 32) (h : oneAfter e = 1) : Function.IsPeriodicPt shr3 e 1 := by
  show shr3^[e] 1 = 1
  rw [oneAfter_eq e he hg, h]
  rfl

theorem one_moved (e : Nat) (he : e < 2 ^ 32) (hg : powLoop 32 poly e 32 1 < 2 ^ 32) (h : oneAfter e % 2 ^ 32 ≠ 1) :
    ¬ Function.IsPeriodicPt shr3 e 1 := by
  intro h1
  have h2 : shr3^[e] 1 = 1 := h1
  rw [oneAfter_eq e he hg] at h2
  have := congrArg BitVec.toNat h2
  rw [BitVec.toNat_ofNat] at this
  exact h this

/-- the period of the word 1 -/
theorem one_period : Function.minimalPeriod shr3 1 = R3 := by
  refine period_of shr3 1 (R3) [3, 3, 5, 13, 131071] ?_ (by decide) (one_fixed _ (by decide) (by decide +kernel) (by decide +kernel)) ?_
  · repeat' first | exact Pratt.all_nil | refine Pratt.all_cons (by norm_num) ?_
  · intro r hr
    simp only [List.mem_cons, List.not_mem_nil, or_false] at hr
    rcases hr with rfl | rfl | rfl | rfl | rfl
    all_goals exact one_moved _ (by decide) (by decide +kernel) (by decide +kernel)

theorem shr3_injective : Function.Injective shr3 := by
  obtain ⟨e, he⟩ : ∃ e, e + 1 = order3 := ⟨306706139, rfl⟩
  intro a b h
  have h1 := shr3_return a
  have h2 := shr3_return b
  rw [← he, Function.iterate_succ_apply] at h1 h2
  rw [← h1, ← h2, h]

theorem one_repeat (i j : Nat) (h : shr3^[i] 1 = shr3^[j] 1) : i ≡ j [MOD R3] := by
  wlog hij : i ≤ j generalizing i j
  · exact (this j i h.symm (by omega)).symm
  obtain ⟨d, rfl⟩ := Nat.exists_eq_add_of_le hij
  rw [Function.iterate_add_apply] at h
  have h1 : Function.IsPeriodicPt shr3 d 1 := (shr3_injective.iterate i h).symm
  have h2 := h1.minimalPeriod_dvd
  rw [one_period] at h2
  rw [Nat.modEq_iff_dvd]
  push_cast
  rw [show ((i : Int) + d - i) = d by ring]
  exact_mod_cast h2

theorem coprime4 : Nat.Coprime (2 ^ 32 * Q1 * Q2) R3 := by decide +kernel

/-- from a state with `jsr` 1 and the others in their cycles, states are equal exactly at a distance of the longest period -/
theorem longest (k : Kiss) (hz : 0 < k.z.toNat ∧ k.z.toNat < P1) (hw : 0 < k.w.toNat ∧ k.w.toNat < P2) (h3 : k.jsr = 1) (i j : Nat) :
    step^[i] k = step^[j] k ↔ i ≡ j [MOD 2 ^ 32 * Q1 * Q2 * R3] := by
  constructor
  · intro h
    have h1 := iter_long k (fun hd => by have := Nat.le_of_dvd hz.1 hd; omega) (fun hd => by have := Nat.le_of_dvd hw.1 hd; omega) i j h
    rw [step_iter, step_iter, Kiss.mk.injEq, h3] at h
    exact (Nat.modEq_and_modEq_iff_modEq_mul coprime4).1 ⟨h1, one_repeat i j h.2.2.1⟩
  · intro h
    wlog hij : i ≤ j generalizing i j
    · exact (this j i h.symm (by omega)).symm
    obtain ⟨d, rfl⟩ := Nat.exists_eq_add_of_le hij
    rw [Function.iterate_add_apply, iter_return k hz.2.le hw.2.le d]
    have := (Nat.modEq_iff_dvd' hij).1 h
    rwa [Nat.add_sub_cancel_left] at this

end Verif.KissCycle
