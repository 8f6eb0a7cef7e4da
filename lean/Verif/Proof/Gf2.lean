import Mathlib.Algebra.Ring.Basic
import Mathlib.Algebra.Group.Nat.Even
import Mathlib.Tactic.Ring
import Mathlib.Tactic.Abel
import Mathlib.Data.Nat.Bitwise

/-! # Polynomials over the field of two elements as natural numbers

Bit `i` of a number is the coefficient of `x^i`. They are evaluated at an element `T` of a ring in which `1 + 1 = 0`. -/

set_option autoImplicit false

namespace Verif.Gf2

/-- evaluates `k` with the value of `n`; in the kernel `n` is computed first -/
def force {α : Sort*} (n : Nat) (k : Nat → α) : α := Nat.rec (k 0) (fun m _ => k (m + 1)) n

theorem force_eq {α : Sort*} (n : Nat) (k : Nat → α) : force n k = k n := by cases n <;> rfl

/-- bit `i` -/
def bit (b i : Nat) : Nat := Nat.mod (Nat.shiftRight b i) 2

/-- `a * x` reduced by `p`, of degree `d` -/
def shift (d p a : Nat) : Nat := Nat.xor (Nat.mul 2 a) (Nat.mul p (bit (Nat.mul 2 a) d))

/-- Horner's rule for `a * b`, from bit `i - 1` of `b` down. Recursors and the functions on numbers by name are for the kernel. -/
def mulLoop (d p a b : Nat) (i : Nat) : Nat → Nat :=
  Nat.rec (fun acc => acc) (fun i next acc => force (Nat.xor (shift d p acc) (Nat.mul a (bit b i))) next) i

/-- the product of two polynomials of degree below `d` reduced by `p` -/
def mul (d p a b : Nat) : Nat := mulLoop d p a b d 0

/-- `x^e` reduced by `p`, from bit `i - 1` of `e` down -/
def powLoop (d p e : Nat) (i : Nat) : Nat → Nat :=
  Nat.rec (fun acc => acc)
    (fun i next acc => force (mul d p acc acc) fun r => force (Nat.rec r (fun _ _ => shift d p r) (bit e i)) next) i

theorem bit_eq (b i : Nat) : bit b i = b / 2 ^ i % 2 := by
  show (b >>> i) % 2 = _
  rw [Nat.shiftRight_eq_div_pow]

theorem shift_eq (d p a : Nat) : shift d p a = 2 * a ^^^ p * (2 * a / 2 ^ d % 2) := by
  rw [← bit_eq]; rfl

theorem mulLoop_succ (d p a b i acc : Nat) :
    mulLoop d p a b (i + 1) acc = mulLoop d p a b i (shift d p acc ^^^ a * (b / 2 ^ i % 2)) := by
  rw [← bit_eq]
  exact force_eq _ _

theorem powLoop_succ (d p e i acc : Nat) : powLoop d p e (i + 1) acc =
    powLoop d p e i (if e / 2 ^ i % 2 = 1 then shift d p (mul d p acc acc) else mul d p acc acc) := by
  show force (mul d p acc acc) (fun r => force (Nat.rec r (fun _ _ => shift d p r) (bit e i)) (powLoop d p e i)) = _
  rw [force_eq, force_eq, bit_eq]
  rcases Nat.mod_two_eq_zero_or_one (e / 2 ^ i) with h | h <;> rw [h] <;> rfl

theorem low_split (b i : Nat) : b % 2 ^ (i + 1) = 2 ^ i * (b / 2 ^ i % 2) ^^^ b % 2 ^ i := by
  rw [Nat.pow_succ, Nat.mod_mul]
  have hlt : b % 2 ^ i < 2 ^ i := Nat.mod_lt _ (Nat.two_pow_pos i)
  rw [Nat.add_comm]
  apply Nat.eq_of_testBit_eq
  intro j
  rw [Nat.testBit_xor, Nat.testBit_two_pow_mul_add _ hlt, Nat.testBit_two_pow_mul]
  by_cases hj : j < i
  · rw [if_pos hj, decide_eq_false (by omega), Bool.false_and, Bool.false_xor]
  · rw [if_neg hj, Nat.testBit_lt_two_pow (Nat.lt_of_lt_of_le hlt (Nat.pow_le_pow_right (by omega) (by omega)))]
    rw [decide_eq_true (by omega), Bool.true_and, Bool.xor_false]

theorem shift_lt (d p a : Nat) (hp : p < 2 ^ (d + 1)) (hp' : 2 ^ d ≤ p) (ha : a < 2 ^ d) : shift d p a < 2 ^ d := by
  rw [shift_eq]
  have h1 : 2 * a < 2 ^ (d + 1) := by rw [Nat.pow_succ]; omega
  by_cases h : 2 * a < 2 ^ d
  · rw [Nat.div_eq_of_lt h, Nat.zero_mod, Nat.mul_zero, Nat.xor_zero]
    exact h
  · have hd : 2 * a / 2 ^ d = 1 := Nat.div_eq_of_lt_le (by omega) (by rw [Nat.pow_succ] at h1; omega)
    have hd' : p / 2 ^ d = 1 := Nat.div_eq_of_lt_le (by omega) (by rw [Nat.pow_succ] at hp; omega)
    rw [hd, Nat.mul_one]
    apply Nat.lt_pow_two_of_testBit
    intro j hj
    rw [Nat.testBit_xor]
    by_cases hj' : j = d
    · subst hj'
      rw [Nat.testBit_eq_decide_div_mod_eq, Nat.testBit_eq_decide_div_mod_eq, hd, hd']
      rfl
    · have hm : 2 ^ (d + 1) ≤ 2 ^ j := Nat.pow_le_pow_right (by omega) (by omega)
      rw [Nat.testBit_lt_two_pow (by omega), Nat.testBit_lt_two_pow (by omega)]
      rfl

theorem mulLoop_lt (d p a b : Nat) (hp : p < 2 ^ (d + 1)) (hp' : 2 ^ d ≤ p) (ha : a < 2 ^ d) (i acc : Nat) (hacc : acc < 2 ^ d) :
    mulLoop d p a b i acc < 2 ^ d := by
  induction i generalizing acc with
  | zero => exact hacc
  | succ i ih =>
    rw [mulLoop_succ]
    apply ih
    apply Nat.xor_lt_two_pow (shift_lt d p acc hp hp' hacc)
    rcases Nat.mod_two_eq_zero_or_one (b / 2 ^ i) with h | h <;> rw [h]
    · rw [Nat.mul_zero]; exact Nat.two_pow_pos d
    · rw [Nat.mul_one]; exact ha

theorem mul_lt (d p a b : Nat) (hp : p < 2 ^ (d + 1)) (hp' : 2 ^ d ≤ p) (ha : a < 2 ^ d) : mul d p a b < 2 ^ d :=
  mulLoop_lt d p a b hp hp' ha d 0 (Nat.two_pow_pos d)

section
variable {R : Type*} [Ring R]

/-- the value of the polynomial `a` at `T` -/
def ev (T : R) (a : Nat) : R :=
  if a = 0 then 0 else (if a % 2 = 1 then 1 else 0) + T * ev T (a / 2)
termination_by a
decreasing_by omega

variable (h2 : ∀ x : R, x + x = 0) (T : R)

@[simp] theorem ev_zero : ev T 0 = 0 := by rw [ev, if_pos rfl]

theorem ev_step (a : Nat) : ev T a = (if a % 2 = 1 then 1 else 0) + T * ev T (a / 2) := by
  by_cases h : a = 0
  · subst h; simp
  · rw [ev, if_neg h]

theorem ev_one : ev T 1 = 1 := by rw [ev_step]; simp

theorem ev_double (a : Nat) : ev T (2 * a) = T * ev T a := by
  rw [ev_step, if_neg (by omega), Nat.mul_div_cancel_left a (by omega), zero_add]

theorem ev_pow (i : Nat) : ev T (2 ^ i) = T ^ i := by
  induction i with
  | zero => simp [ev_one]
  | succ i ih => rw [Nat.pow_succ, Nat.mul_comm, ev_double, ih, pow_succ']

include h2

theorem ev_xor (a b : Nat) : ev T (a ^^^ b) = ev T a + ev T b := by
  induction a using Nat.strong_induction_on generalizing b with
  | _ a ih =>
    by_cases h : a = 0
    · subst h; simp
    · rw [ev_step, ev_step T a, ev_step T b, Nat.xor_div_two, ih (a / 2) (by omega), mul_add, Nat.xor_mod_two_eq]
      have := h2 (1 : R)
      rcases Nat.mod_two_eq_zero_or_one a with ha | ha <;> rcases Nat.mod_two_eq_zero_or_one b with hb | hb
      · rw [if_neg (by omega), if_neg (by omega), if_neg (by omega)]; abel
      · rw [if_pos (by omega), if_neg (by omega), if_pos (by omega)]; abel
      · rw [if_pos (by omega), if_pos (by omega), if_neg (by omega)]; abel
      · rw [if_neg (by omega), if_pos (by omega), if_pos (by omega), zero_add]
        calc _ = (1 + 1 : R) + (T * ev T (a / 2) + T * ev T (b / 2)) := by rw [this, zero_add]
          _ = _ := by abel

omit h2 in
theorem ev_times_bit (a b : Nat) (hb : b < 2) : ev T (a * b) = if b = 1 then ev T a else 0 := by
  rcases (by omega : b = 0 ∨ b = 1) with rfl | rfl <;> simp

theorem ev_shift (d p a : Nat) (hp : ev T p = 0) : ev T (shift d p a) = T * ev T a := by
  rw [shift_eq]
  rw [ev_xor h2, ev_double, ev_times_bit T _ _ (Nat.mod_lt _ (by omega)), hp, ite_self, add_zero]

/-- the low bits of a number -/
theorem ev_low (b i : Nat) : ev T (b % 2 ^ (i + 1)) = (if b / 2 ^ i % 2 = 1 then T ^ i else 0) + ev T (b % 2 ^ i) := by
  rw [low_split, ev_xor h2, ev_times_bit T _ _ (Nat.mod_lt _ (by omega)), ev_pow]

theorem ev_mulLoop (d p a b : Nat) (hp : ev T p = 0) (i acc : Nat) :
    ev T (mulLoop d p a b i acc) = T ^ i * ev T acc + ev T (b % 2 ^ i) * ev T a := by
  induction i generalizing acc with
  | zero => simp [mulLoop, Nat.mod_one]
  | succ i ih =>
    rw [mulLoop_succ, ih, ev_xor h2, ev_shift h2 T d p acc hp, ev_times_bit T _ _ (Nat.mod_lt _ (by omega)), ev_low h2, mul_add, add_mul,
      ← mul_assoc, ← pow_succ, add_assoc]
    congr 2
    by_cases hb : b / 2 ^ i % 2 = 1
    · rw [if_pos hb, if_pos hb]
    · rw [if_neg hb, if_neg hb, mul_zero, zero_mul]

theorem ev_mul (d p a b : Nat) (hp : ev T p = 0) (hb : b < 2 ^ d) : ev T (mul d p a b) = ev T b * ev T a := by
  rw [mul, ev_mulLoop h2 T d p a b hp, ev_zero, mul_zero, zero_add, Nat.mod_eq_of_lt hb]

theorem ev_powLoop (d p e : Nat) (hp : ev T p = 0) (hp1 : p < 2 ^ (d + 1)) (hp2 : 2 ^ d ≤ p) (i acc k : Nat) (ha : acc < 2 ^ d)
    (hk : ev T acc = T ^ k) : ev T (powLoop d p e i acc) = T ^ (2 ^ i * k + e % 2 ^ i) := by
  induction i generalizing acc k with
  | zero => simp [powLoop, Nat.mod_one, hk]
  | succ i ih =>
    rw [powLoop_succ]
    have hm := mul_lt d p acc acc hp1 hp2 ha
    have hs := ev_mul h2 T d p acc acc hp ha
    rw [hk, ← pow_add] at hs
    have hl : e % 2 ^ (i + 1) = 2 ^ i * (e / 2 ^ i % 2) + e % 2 ^ i := by rw [Nat.pow_succ, Nat.mod_mul, Nat.add_comm]
    have hk2 : 2 ^ (i + 1) * k = 2 ^ i * (k + k) := by rw [Nat.pow_succ, Nat.mul_assoc, Nat.two_mul]
    by_cases hb : e / 2 ^ i % 2 = 1
    · rw [if_pos hb, ih _ (k + k + 1) (shift_lt d p _ hp1 hp2 hm) (by rw [ev_shift h2 T d p _ hp, hs, ← pow_succ']), hl, hb, hk2]
      congr 1
      rw [Nat.mul_add (2 ^ i) (k + k) 1]; omega
    · rw [if_neg hb, ih _ (k + k) hm hs, hl, hk2, show e / 2 ^ i % 2 = 0 by omega, Nat.mul_zero, Nat.zero_add]

/-- `x^e` for exponents of up to `i` bits -/
theorem ev_power (d p e i : Nat) (hp : ev T p = 0) (hp1 : p < 2 ^ (d + 1)) (hp2 : 2 ^ d ≤ p) (hd : 0 < d) (he : e < 2 ^ i) :
    ev T (powLoop d p e i 1) = T ^ e := by
  rw [ev_powLoop h2 T d p e hp hp1 hp2 i 1 0 (Nat.one_lt_two_pow (by omega)) (by rw [ev_one, pow_zero]), Nat.mul_zero, Nat.zero_add,
    Nat.mod_eq_of_lt he]

end

end Verif.Gf2
