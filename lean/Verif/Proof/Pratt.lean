import Verif.Proof.Gf2
import Mathlib.NumberTheory.LucasPrimality
import Mathlib.Tactic.NormNum.Prime

/-! # The prime factors of `2^256 - 1`

Primes beyond the reach of trial division are certified by an element of the full order (Pratt). -/

set_option autoImplicit false

namespace Verif.Pratt

open Gf2

/-- `acc^(2^i) * a^e` modulo `p` for the low `i` bits of `e` -/
def powLoop (p a e i : Nat) : Nat → Nat :=
  Nat.rec (fun acc => acc)
    (fun i next acc => force (Nat.mod (Nat.mul acc acc) p) fun r => force (Nat.rec r (fun _ _ => Nat.mod (Nat.mul r a) p) (bit e i)) next) i

theorem powLoop_eq (p a e i acc : Nat) (h : acc % p = acc) : powLoop p a e i acc = acc ^ 2 ^ i * a ^ (e % 2 ^ i) % p := by
  induction i generalizing acc with
  | zero => show acc = _; simp [Nat.mod_one, h]
  | succ i ih =>
    show force (acc * acc % p) (fun r => force (Nat.rec r (fun _ _ => r * a % p) (bit e i)) (powLoop p a e i)) = _
    rw [force_eq, force_eq, bit_eq, Nat.pow_succ, Nat.mod_mul, ← Nat.pow_succ]
    rcases Nat.mod_two_eq_zero_or_one (e / 2 ^ i) with hb | hb <;> rw [hb]
    · show powLoop p a e i (acc * acc % p) = _
      rw [ih _ (Nat.mod_mod _ _), Nat.mul_zero, Nat.add_zero, Nat.mul_mod, ← Nat.pow_mod, ← Nat.mul_mod, ← Nat.pow_two, ← Nat.pow_mul, Nat.pow_succ,
        Nat.mul_comm 2]
    · show powLoop p a e i (acc * acc % p * a % p) = _
      have hm : acc * acc % p * a % p ≡ acc * acc * a [MOD p] := (Nat.mod_modEq _ _).trans ((Nat.mod_modEq _ _).mul_right a)
      have e1 : acc ^ 2 ^ (i + 1) * a ^ (e % 2 ^ i + 2 ^ i * 1) = (acc * acc * a) ^ 2 ^ i * a ^ (e % 2 ^ i) := by
        rw [Nat.mul_one, Nat.pow_succ, Nat.pow_mul', Nat.pow_two, Nat.pow_add, Nat.mul_pow (acc * acc) a]
        ring
      rw [ih _ (Nat.mod_mod _ _), e1]
      exact (hm.pow _).mul_right _

/-- `a^e` modulo `p` -/
theorem power_eq (p a e i : Nat) (hp : 1 < p) (he : e < 2 ^ i) : powLoop p a e i 1 = a ^ e % p := by
  rw [powLoop_eq p a e i 1 (Nat.mod_eq_of_lt hp), Nat.one_pow, Nat.one_mul, Nat.mod_eq_of_lt he]

theorem mem_of_prod (l : List Nat) (hl : ∀ r ∈ l, r.Prime) (q : Nat) (hq : q.Prime) (h : q ∣ l.prod) : q ∈ l := by
  obtain ⟨r, hr, hqr⟩ := (Nat.Prime.prime hq).dvd_prod_iff.1 h
  rwa [(Nat.prime_dvd_prime_iff_eq hq (hl r hr)).1 hqr]

/-- a number is prime if an element has order `p - 1` -/
theorem prime_of (p a i : Nat) (fs : List Nat) (hfs : ∀ q ∈ fs, q.Prime) (hp : 1 < p) (hi : p - 1 < 2 ^ i) (hprod : fs.prod = p - 1)
    (h1 : powLoop p a (p - 1) i 1 = 1) (hq : (fs.all fun q => !Nat.beq (powLoop p a ((p - 1) / q) i 1) 1) = true) : p.Prime := by
  have cast : ∀ e : Nat, ((a : ZMod p) ^ e = 1 ↔ a ^ e % p = 1) := by
    intro e
    have := ZMod.natCast_eq_natCast_iff' (a ^ e) 1 p
    rw [Nat.mod_eq_of_lt hp] at this
    rw [← this]
    push_cast
    rfl
  refine lucas_primality p (a : ZMod p) ((cast _).2 ?_) ?_
  · rw [← power_eq p a (p - 1) i hp hi, h1]
  · intro q hq' hd h
    have hm := mem_of_prod fs hfs q hq' (by rw [hprod]; exact hd)
    have := List.all_eq_true.1 hq q hm
    rw [power_eq p a _ i hp (Nat.lt_of_le_of_lt (Nat.div_le_self _ _) hi), (cast _).1 h] at this
    exact absurd this (by decide)

theorem all_cons {l : List Nat} {a : Nat} (ha : a.Prime) (hl : ∀ q ∈ l, q.Prime) : ∀ q ∈ a :: l, q.Prime := by
  intro q hq
  rcases List.mem_cons.1 hq with rfl | h
  · exact ha
  · exact hl q h

theorem all_nil : ∀ q ∈ ([] : List Nat), q.Prime := by simp

theorem p1 : Nat.Prime 67280421310721 :=
  prime_of _ 3 64 [2, 2, 2, 2, 2, 2, 2, 2, 5, 47, 373, 2998279]
    (by repeat' first | exact all_nil | refine all_cons (by norm_num) ?_) (by norm_num) (by norm_num) (by decide +kernel) (by decide +kernel)
    (by decide +kernel)

theorem p2a : Nat.Prime 18533742247 :=
  prime_of _ 6 64 [2, 3, 3, 3, 181, 1896229]
    (by repeat' first | exact all_nil | refine all_cons (by norm_num) ?_) (by norm_num) (by norm_num) (by decide +kernel) (by decide +kernel)
    (by decide +kernel)

theorem p2b : Nat.Prime 116503103764643 :=
  prime_of _ 2 64 [18533742247, 2, 7, 449] (all_cons p2a
    (by repeat' first | exact all_nil | refine all_cons (by norm_num) ?_)) (by norm_num) (by norm_num) (by decide +kernel) (by decide +kernel)
    (by decide +kernel)

theorem p2 : Nat.Prime 59649589127497217 :=
  prime_of _ 3 64 [116503103764643, 2, 2, 2, 2, 2, 2, 2, 2, 2] (all_cons p2b
    (by repeat' first | exact all_nil | refine all_cons (by norm_num) ?_)) (by norm_num) (by norm_num) (by decide +kernel) (by decide +kernel)
    (by decide +kernel)

theorem p3a : Nat.Prime 733803839347 :=
  prime_of _ 2 64 [2, 3, 2203, 55515497]
    (by repeat' first | exact all_nil | refine all_cons (by norm_num) ?_) (by norm_num) (by norm_num) (by decide +kernel) (by decide +kernel)
    (by decide +kernel)

theorem p3 : Nat.Prime 5704689200685129054721 :=
  prime_of _ 21 80 [733803839347, 2, 2, 2, 2, 2, 2, 2, 2, 2, 3, 3, 3, 3, 3, 5, 12497] (all_cons p3a
    (by repeat' first | exact all_nil | refine all_cons (by norm_num) ?_)) (by norm_num) (by norm_num) (by decide +kernel) (by decide +kernel)
    (by decide +kernel)

/-- the prime factors of `2^256 - 1` -/
def factors : List Nat :=
  [3, 5, 17, 257, 65537, 641, 6700417, 274177, 67280421310721, 59649589127497217, 5704689200685129054721]

theorem factors_prod : factors.prod = 2 ^ 256 - 1 := by decide +kernel

theorem factors_prime : ∀ q ∈ factors, q.Prime := by
  unfold factors
  repeat' first | exact all_nil | refine all_cons (by first | exact p1 | exact p2 | exact p3 | norm_num) ?_

theorem mem_factors (q : Nat) (hq : q.Prime) (h : q ∣ 2 ^ 256 - 1) : q ∈ factors :=
  mem_of_prod factors factors_prime q hq (by rw [factors_prod]; exact h)

end Verif.Pratt
