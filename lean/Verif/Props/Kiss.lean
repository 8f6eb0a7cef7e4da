import Verif.Proof.Kiss
import Verif.Proof.ProgpowMath

/-! # C99: the generator of ProgPoW and its cycles

`kiss99` runs four generators side by side: two that multiply with carry, a shift register and a congruential one. The theorems give the distances at
which its state can repeat, and the numbers of a period from which one of the four stands still. -/

set_option autoImplicit false

namespace Verif.Props

open Go Crypto Progpow KissCycle

namespace Kiss

/-- the state after `n` calls of `next` -/
def run (n : Nat) (k : Kiss99) : Kiss99 := (fun k => k.next.2)^[n] k

theorem abs_injective (k l : Kiss99) (h : k.abs = l.abs) : k = l := by
  cases k; cases l
  simp only [Kiss99.abs, Spec.Progpow.Kiss.mk.injEq] at h
  simp only [Kiss99.mk.injEq]
  exact h

theorem run_abs (n : Nat) (k : Kiss99) : (run n k).abs = Spec.Progpow.Kiss.step^[n] k.abs := by
  unfold run
  induction n generalizing k with
  | zero => rfl
  | succ n ih => rw [Function.iterate_succ_apply, Function.iterate_succ_apply, ih, Kiss99.next_snd]

theorem run_jsr (n : Nat) (k : Kiss99) : (run n k).jsr = Spec.Progpow.Kiss.shr3^[n] k.jsr := by
  have h := congrArg Spec.Progpow.Kiss.jsr (run_abs n k)
  rw [step_iter] at h
  exact h

theorem run_equal (i j : Nat) (k : Kiss99) : run i k = run j k ↔ Spec.Progpow.Kiss.step^[i] k.abs = Spec.Progpow.Kiss.step^[j] k.abs := by
  rw [← run_abs, ← run_abs]
  exact ⟨fun h => by rw [h], abs_injective _ _⟩

theorem mul_prime (a v : U32) : a * BitVec.ofNat 32 fnvPrime = v ↔ a = v * 899433627 := by
  have h : BitVec.ofNat 32 fnvPrime * 899433627 = (1 : U32) := by decide
  constructor
  · rintro rfl; rw [BitVec.mul_assoc, h]; exact (BitVec.mul_one _).symm
  · rintro rfl; rw [BitVec.mul_assoc, BitVec.mul_comm 899433627, h]; exact BitVec.mul_one _

theorem fnv1a_iff (a d v : U32) : fnv1a a d = v ↔ d = a ^^^ (v * 899433627) := by
  unfold fnv1a
  rw [mul_prime]
  constructor
  · intro h; rw [← h, ← BitVec.xor_assoc, BitVec.xor_self, BitVec.zero_xor]
  · rintro rfl; rw [← BitVec.xor_assoc, BitVec.xor_self, BitVec.zero_xor]

theorem dvd1 (x : U32) : P1 ∣ x.toNat ↔ x = 0 ∨ x = 2422800383 := by
  have hx := x.isLt
  rw [← BitVec.toNat_inj, ← BitVec.toNat_inj, show (0 : U32).toNat = 0 from rfl, show (2422800383 : U32).toNat = 2422800383 from rfl]
  unfold P1
  omega

theorem dvd2 (x : U32) : P2 ∣ x.toNat ↔ x = 0 ∨ x = 1179647999 ∨ x = 2359295998 ∨ x = 3538943997 := by
  have hx := x.isLt
  rw [← BitVec.toNat_inj, ← BitVec.toNat_inj, ← BitVec.toNat_inj, ← BitVec.toNat_inj, show (0 : U32).toNat = 0 from rfl,
    show (1179647999 : U32).toNat = 1179647999 from rfl, show (2359295998 : U32).toNat = 2359295998 from rfl,
    show (3538943997 : U32).toNat = 3538943997 from rfl]
  unfold P2
  omega

end Kiss

open Kiss

/-- from any state, states are equal only at a distance that is a multiple of `2^32` -/
theorem C99_repeat (k : Kiss99) (i j : Nat) (h : run i k = run j k) : i ≡ j [MOD 2 ^ 32] :=
  iter_repeat k.abs i j ((run_equal i j k).1 h)

/-- unless `z` or `w` is a multiple of its modulus, only at one that is a multiple of `2^32` times two primes, above `2^91` -/
theorem C99_long (k : Kiss99) (hz : ¬ 2422800383 ∣ k.z.toNat) (hw : ¬ 1179647999 ∣ k.w.toNat) (i j : Nat) (h : run i k = run j k) :
    i ≡ j [MOD 2 ^ 32 * 1211400191 * 589823999] :=
  iter_long k.abs hz hw i j ((run_equal i j k).1 h)

example : ¬ 2422800383 ∣ (⟨362436069, 521288629, 123456789, 380116160⟩ : Kiss99).z.toNat ∧
    ¬ 1179647999 ∣ (⟨362436069, 521288629, 123456789, 380116160⟩ : Kiss99).w.toNat := by decide

/-- all states from the third on return after the product with 76676535, whatever the state at the beginning -/
theorem C99_returns (k : Kiss99) (n : Nat) (hn : 2 ≤ n) : run (n + 2 ^ 32 * 1211400191 * 589823999 * 76676535) k = run n k := by
  rw [run_equal, Nat.add_comm, Function.iterate_add_apply]
  exact iter_return _ (iter_two k.abs n hn).1 (iter_two k.abs n hn).2 _ (Nat.dvd_refl _)

/-- and for some states after nothing less -/
theorem C99_longest (z w c : U32) (hz : 0 < z.toNat ∧ z.toNat < 2422800383) (hw : 0 < w.toNat ∧ w.toNat < 1179647999) (i j : Nat) :
    run i ⟨z, w, 1, c⟩ = run j ⟨z, w, 1, c⟩ ↔ i ≡ j [MOD 2 ^ 32 * 1211400191 * 589823999 * 76676535] :=
  (run_equal i j _).trans (longest _ hz hw rfl i j)

example : 0 < (5 : U32).toNat ∧ (5 : U32).toNat < 1179647999 := by decide

/-- the two that multiply with carry stand still exactly at zero and at their modulus -/
theorem C99_rest (k : Kiss99) :
    (k.next.2.z = k.z ↔ k.z.toNat = 0 ∨ k.z.toNat = 2422800383) ∧ (k.next.2.w = k.w ↔ k.w.toNat = 0 ∨ k.w.toNat = 1179647999) := by
  have h := Kiss99.next_snd k
  rw [step_eq] at h
  have hz : k.next.2.z = Spec.Progpow.Kiss.mwc 36969 k.z := congrArg Spec.Progpow.Kiss.z h
  have hw : k.next.2.w = Spec.Progpow.Kiss.mwc 18000 k.w := congrArg Spec.Progpow.Kiss.w h
  rw [hz, hw]
  exact ⟨z_rest k.z, w_rest k.w⟩

/-- the shift register returns from every state after 306706140 calls, so that it does not run through all numbers; it stands still at zero and at
2929859471 -/
theorem C99_register (k : Kiss99) : (run 306706140 k).jsr = k.jsr ∧ (k.jsr = 0 ∨ k.jsr = 2929859471 → k.next.2.jsr = k.jsr) := by
  constructor
  · exact (run_jsr order3 k).trans (shr3_return k.jsr)
  · have h := congrArg Spec.Progpow.Kiss.jsr (Kiss99.next_snd k)
    rw [step_eq] at h
    have h1 : k.next.2.jsr = Spec.Progpow.Kiss.shr3 k.jsr := h
    rintro (h2 | h2) <;> rw [h1, h2] <;> decide

/-- the seeds at which `z` or `w` is a multiple of its modulus: two low halves, and four high halves for each low half -/
theorem C99_seed (seed : U64) :
    (2422800383 ∣ (seedRng seed).z.toNat ↔ seed.setWidth 32 = (2166136261 : U32) ∨ seed.setWidth 32 = (2632591008 : U32)) ∧
      (1179647999 ∣ (seedRng seed).w.toNat ↔ ∃ c ∈ [(0 : U32), 2631121765, 967276234, 3598397999],
        (seed >>> 32).setWidth 32 = ((2166136261 ^^^ seed.setWidth 32) * 16777619) ^^^ c) := by
  constructor
  · refine (dvd1 _).trans ?_
    have e : (seedRng seed).z = fnv1a fnvOffsetBasis (seed.setWidth 32) := rfl
    rw [e, fnv1a_iff, fnv1a_iff, show fnvOffsetBasis ^^^ (0 : U32) * 899433627 = 2166136261 by decide,
      show fnvOffsetBasis ^^^ (2422800383 : U32) * 899433627 = 2632591008 by decide]
  · refine (dvd2 _).trans ?_
    have e : (seedRng seed).w = fnv1a (fnv1a fnvOffsetBasis (seed.setWidth 32)) ((seed >>> 32).setWidth 32) := rfl
    have e2 : fnv1a fnvOffsetBasis (seed.setWidth 32) = (2166136261 ^^^ seed.setWidth 32) * 16777619 := rfl
    rw [e, fnv1a_iff, fnv1a_iff, fnv1a_iff, fnv1a_iff, e2, show (0 : U32) * 899433627 = 0 by decide,
      show (1179647999 : U32) * 899433627 = 2631121765 by decide, show (2359295998 : U32) * 899433627 = 967276234 by decide,
      show (3538943997 : U32) * 899433627 = 3598397999 by decide]
    simp only [List.mem_cons, List.not_mem_nil, or_false, exists_eq_or_imp, exists_eq_left]

/-- the generator of every period below 404097419 takes more than `2^91` different states -/
theorem C99_periods (period : U64) (hp : period.toNat < 404097419) (i j : Nat) (h : run i (seedRng period) = run j (seedRng period)) :
    i ≡ j [MOD 2 ^ 32 * 1211400191 * 589823999] := by
  have hlo : (period.setWidth 32).toNat = period.toNat := by
    rw [BitVec.toNat_setWidth]; exact Nat.mod_eq_of_lt (by omega)
  have hhi : (period >>> 32).setWidth 32 = (0 : U32) := by
    apply BitVec.eq_of_toNat_eq
    rw [BitVec.toNat_setWidth, BitVec.toNat_ushiftRight, Nat.shiftRight_eq_div_pow, Nat.div_eq_of_lt (by omega)]
    rfl
  have hs := C99_seed period
  refine C99_long _ (fun hd => ?_) (fun hd => ?_) i j h
  · rcases hs.1.1 hd with h1 | h1 <;> rw [h1] at hlo
    · rw [← hlo] at hp; exact absurd hp (by decide)
    · rw [← hlo] at hp; exact absurd hp (by decide)
  · have hd' := (dvd2 _).1 hd
    have e : (seedRng period).w = fnv1a (fnv1a fnvOffsetBasis (period.setWidth 32)) ((period >>> 32).setWidth 32) := rfl
    rw [e, hhi] at hd'
    have key : ∀ v : U32, fnv1a (fnv1a fnvOffsetBasis (period.setWidth 32)) 0 = v →
        period.toNat = (fnvOffsetBasis ^^^ (v * 899433627 * 899433627)).toNat := by
      intro v hv
      have h1 : fnv1a (fnv1a fnvOffsetBasis (period.setWidth 32)) 0 = fnv1a fnvOffsetBasis (period.setWidth 32) * BitVec.ofNat 32 fnvPrime := by
        show (_ ^^^ 0#32) * _ = _
        rw [BitVec.xor_zero]
      rw [h1, mul_prime, fnv1a_iff] at hv
      rw [← hlo, hv]
    rcases hd' with h1 | h1 | h1 | h1 <;> have h2 := key _ h1 <;> rw [h2] at hp <;> exact absurd hp (by decide)

/-- not so the one of period 404097419: from the first call on its `w` is the same -/
theorem C99_periods_end (n : Nat) (hn : 1 ≤ n) : (run n (seedRng 404097419)).w = 1179647999 := by
  obtain ⟨t, rfl⟩ := Nat.exists_eq_add_of_le' hn
  have h := congrArg Spec.Progpow.Kiss.w (run_abs (t + 1) (seedRng 404097419))
  rw [step_iter] at h
  refine h.trans ?_
  show (Spec.Progpow.Kiss.mwc 18000)^[t + 1] (seedRng 404097419).w = _
  rw [Function.iterate_succ_apply, show Spec.Progpow.Kiss.mwc 18000 (seedRng 404097419).w = 1179647999 by decide +kernel]
  exact Function.iterate_fixed (by decide +kernel) t

end Verif.Props
