import Verif.Proof.Keccak
import Mathlib.Data.Fintype.EquivFin
import Mathlib.Data.Fintype.Pi
import Mathlib.Data.Finite.Prod

/-! # The rounds of Keccak-p[800] are invertible -/

set_option autoImplicit false

namespace Verif.Crypto

open Go Spec.Keccak

theorem rotl_xor (a b : U32) (n : Nat) : (a ^^^ b).rotateLeft n = a.rotateLeft n ^^^ b.rotateLeft n := by
  ext i hi
  simp only [BitVec.getElem_rotateLeft, BitVec.getElem_xor]
  by_cases h : i < n % 32
  · rw [dif_pos h, dif_pos h, dif_pos h]
  · rw [dif_neg h, dif_neg h, dif_neg h]

theorem rotl_rotl (a : U32) (m n : Nat) : (a.rotateLeft m).rotateLeft n = a.rotateLeft (m + n) := by
  ext i hi
  simp only [BitVec.getElem_rotateLeft]
  by_cases h1 : i < n % 32
  · rw [dif_pos h1]
    by_cases h2 : 32 - n % 32 + i < m % 32
    · rw [dif_pos h2]
      by_cases h3 : i < (m + n) % 32
      · rw [dif_pos h3]; congr 1; omega
      · rw [dif_neg h3]; congr 1; omega
    · rw [dif_neg h2]
      by_cases h3 : i < (m + n) % 32
      · rw [dif_pos h3]; congr 1; omega
      · rw [dif_neg h3]; congr 1; omega
  · rw [dif_neg h1]
    by_cases h2 : i - n % 32 < m % 32
    · rw [dif_pos h2]
      by_cases h3 : i < (m + n) % 32
      · rw [dif_pos h3]; congr 1; omega
      · rw [dif_neg h3]; congr 1; omega
    · rw [dif_neg h2]
      by_cases h3 : i < (m + n) % 32
      · rw [dif_pos h3]; congr 1; omega
      · rw [dif_neg h3]; congr 1; omega

theorem rotl_period (a : U32) (n : Nat) (h : n % 32 = 0) : a.rotateLeft n = a := by
  ext i hi
  rw [BitVec.getElem_rotateLeft, dif_neg (by omega)]
  congr 1
  omega

theorem rotl_inj (n : Nat) (a b : U32) (h : a.rotateLeft n = b.rotateLeft n) : a = b := by
  have := congrArg (fun x : U32 => x.rotateLeft (32 - n % 32)) h
  simp only [rotl_rotl] at this
  rwa [rotl_period _ _ (by omega), rotl_period _ _ (by omega)] at this

/-- squaring of the operator `S^a + S^b Z^r` -/
theorem square (P : Fin 5 → U32) (a b : Fin 5) (r : Nat) (h : ∀ x, P x = P (x + a) ^^^ (P (x + b)).rotateLeft r) (x : Fin 5) :
    P x = P (x + (a + a)) ^^^ (P (x + (b + b))).rotateLeft (r + r) := by
  rw [h x, h (x + a), h (x + b), rotl_xor, rotl_rotl, show x + b + a = x + a + b by omega, show x + a + a = x + (a + a) by omega,
    show x + b + b = x + (b + b) by omega, BitVec.xor_assoc, ← BitVec.xor_assoc ((P (x + a + b)).rotateLeft r), BitVec.xor_self,
    BitVec.zero_xor]

theorem bits_zero : ∀ p : Fin 5 → Bool, (∀ x, p x = (p (x + 3) ^^ p (x + 2))) → ∀ x, p x = false := by decide

/-- a fixed point of the parity map is zero -/
theorem parity_zero (P : Fin 5 → U32) (h : ∀ x, P x = P (x + 4) ^^^ (P (x + 1)).rotateLeft 1) (x : Fin 5) : P x = 0 := by
  have h5 := square P _ _ _ (square P _ _ _ (square P _ _ _ (square P _ _ _ (square P _ _ _ h))))
  have h6 : ∀ x, P x = P (x + 3) ^^^ P (x + 2) := fun x => by
    have := h5 x
    rw [rotl_period _ _ (by decide)] at this
    exact this
  ext i hi
  exact (bits_zero (fun x => (P x)[i]) (fun x => by rw [← BitVec.getElem_xor, ← h6 x]) x).trans (by simp)

theorem parity_xor (A B : State) (x : Fin 5) : parity (fun x y => A x y ^^^ B x y) x = parity A x ^^^ parity B x := by
  simp only [parity]
  ext i hi
  simp only [BitVec.getElem_xor]
  generalize (A x 0)[i] = a0; generalize (A x 1)[i] = a1; generalize (A x 2)[i] = a2; generalize (A x 3)[i] = a3
  generalize (A x 4)[i] = a4; generalize (B x 0)[i] = b0; generalize (B x 1)[i] = b1; generalize (B x 2)[i] = b2
  generalize (B x 3)[i] = b3; generalize (B x 4)[i] = b4
  revert a0 a1 a2 a3 a4 b0 b1 b2 b3 b4
  decide

theorem xor_cancel {a b : U32} (h : a ^^^ b = 0) : a = b := by
  have := congrArg (· ^^^ b) h
  simpa [BitVec.xor_assoc] using this

theorem theta_inj (A B : State) (h : theta A = theta B) : A = B := by
  obtain ⟨D, hD⟩ : ∃ D : State, D = fun x y => A x y ^^^ B x y := ⟨_, rfl⟩
  have hd : ∀ x y, D x y = parity D (x + 4) ^^^ (parity D (x + 1)).rotateLeft 1 := by
    intro x y
    have := congrFun (congrFun h x) y
    rw [theta, theta] at this
    rw [hD, parity_xor, parity_xor, rotl_xor]
    show A x y ^^^ B x y = _
    apply xor_cancel
    have h2 : ∀ a b p q r s : U32, a ^^^ (p ^^^ r) = b ^^^ (q ^^^ s) → (a ^^^ b) ^^^ ((p ^^^ q) ^^^ (r ^^^ s)) = 0 := by
      intro a b p q r s h
      have : (a ^^^ b) ^^^ ((p ^^^ q) ^^^ (r ^^^ s)) = (a ^^^ (p ^^^ r)) ^^^ (b ^^^ (q ^^^ s)) := by ac_rfl
      rw [this, h, BitVec.xor_self]
      rfl
    exact h2 _ _ _ _ _ _ this
  have hp : ∀ x, parity D x = parity D (x + 4) ^^^ (parity D (x + 1)).rotateLeft 1 := by
    intro x
    conv_lhs => rw [parity]
    rw [hd x 0, hd x 1, hd x 2, hd x 3, hd x 4]
    generalize parity D (x + 4) ^^^ (parity D (x + 1)).rotateLeft 1 = e
    rw [BitVec.xor_self, BitVec.zero_xor, BitVec.xor_self, BitVec.zero_xor]
  have hz := parity_zero (parity D) hp
  funext x y
  apply xor_cancel
  have := hd x y
  rw [hz, hz] at this
  rw [hD] at this
  simpa using this

theorem rho_inj (A B : State) (h : rho A = rho B) : A = B := by
  funext x y
  exact rotl_inj _ _ _ (congrFun (congrFun h x) y)

theorem pi_inj (A B : State) (h : Spec.Keccak.pi A = Spec.Keccak.pi B) : A = B := by
  funext x y
  have := congrFun (congrFun h y) (2 * (x + 4 * y))
  have e : y + 3 * (2 * (x + 4 * y)) = x := by clear this; revert x y; decide
  rw [Spec.Keccak.pi, Spec.Keccak.pi, e] at this
  exact this

theorem chi_bits : ∀ a b : Fin 5 → Bool, (∀ x, (a x ^^ (!a (x + 1) && a (x + 2))) = (b x ^^ (!b (x + 1) && b (x + 2)))) → ∀ x, a x = b x := by
  decide

theorem chi_inj (A B : State) (h : chi A = chi B) : A = B := by
  funext x y
  ext i hi
  refine chi_bits (fun x => (A x y)[i]) (fun x => (B x y)[i]) (fun x => ?_) x
  have := congrArg (fun w : U32 => w[i]) (congrFun (congrFun h x) y)
  simpa [chi] using this

theorem iota_inj (n : Nat) (A B : State) (h : iota n A = iota n B) : A = B := by
  funext x y
  have := congrFun (congrFun h x) y
  rw [iota, iota] at this
  by_cases hc : x = 0 ∧ y = 0
  · rw [if_pos hc, if_pos hc] at this
    have := congrArg (· ^^^ roundConstant n) this
    simpa [BitVec.xor_assoc] using this
  · rwa [if_neg hc, if_neg hc] at this

theorem round_inj (n : Nat) (A B : State) (h : round n A = round n B) : A = B :=
  theta_inj _ _ (rho_inj _ _ (pi_inj _ _ (chi_inj _ _ (iota_inj n _ _ h))))

theorem rounds_inj : ∀ n : Nat, Function.Injective (rounds n)
  | 0 => fun _ _ h => h
  | n + 1 => fun _ _ h => rounds_inj n (round_inj n _ _ h)

theorem rounds_bij (n : Nat) : Function.Bijective (rounds n) := by
  have : Finite U32 := Finite.of_injective (fun x : U32 => x.toFin) fun a b h => BitVec.eq_of_toFin_eq h
  have : Finite State := inferInstanceAs (Finite (Fin 5 → Fin 5 → U32))
  exact (Finite.injective_iff_bijective).mp (rounds_inj n)

end Verif.Crypto
