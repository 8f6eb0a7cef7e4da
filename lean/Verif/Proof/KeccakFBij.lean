import Verif.Spec.KeccakF
import Mathlib.Tactic.FinCases
import Mathlib.Data.Fintype.Pi

/-! # Keccak-f[1600] is one-to-one, as Proof/KeccakBij.lean for Keccak-p[800] -/

set_option autoImplicit false

namespace Verif.KeccakF64

open Spec.KeccakF

abbrev L := BitVec 64

abbrev State := Fin 5 → Fin 5 → L

def parity (A : State) (x : Fin 5) : L := A x 0 ^^^ A x 1 ^^^ A x 2 ^^^ A x 3 ^^^ A x 4

def thetaF (A : State) : State := fun x y => A x y ^^^ (parity A (x + 4) ^^^ (parity A (x + 1)).rotateLeft 1)

theorem rotl_xor (a b : L) (n : Nat) : (a ^^^ b).rotateLeft n = a.rotateLeft n ^^^ b.rotateLeft n := by
  ext i hi
  simp only [BitVec.getElem_rotateLeft, BitVec.getElem_xor]
  by_cases h : i < n % 64
  · rw [dif_pos h, dif_pos h, dif_pos h]
  · rw [dif_neg h, dif_neg h, dif_neg h]

theorem rotl_rotl (a : L) (m n : Nat) : (a.rotateLeft m).rotateLeft n = a.rotateLeft (m + n) := by
  ext i hi
  simp only [BitVec.getElem_rotateLeft]
  by_cases h1 : i < n % 64
  · rw [dif_pos h1]
    by_cases h2 : 64 - n % 64 + i < m % 64
    · rw [dif_pos h2]
      by_cases h3 : i < (m + n) % 64
      · rw [dif_pos h3]; congr 1; omega
      · rw [dif_neg h3]; congr 1; omega
    · rw [dif_neg h2]
      by_cases h3 : i < (m + n) % 64
      · rw [dif_pos h3]; congr 1; omega
      · rw [dif_neg h3]; congr 1; omega
  · rw [dif_neg h1]
    by_cases h2 : i - n % 64 < m % 64
    · rw [dif_pos h2]
      by_cases h3 : i < (m + n) % 64
      · rw [dif_pos h3]; congr 1; omega
      · rw [dif_neg h3]; congr 1; omega
    · rw [dif_neg h2]
      by_cases h3 : i < (m + n) % 64
      · rw [dif_pos h3]; congr 1; omega
      · rw [dif_neg h3]; congr 1; omega

theorem rotl_period (a : L) (n : Nat) (h : n % 64 = 0) : a.rotateLeft n = a := by
  ext i hi
  rw [BitVec.getElem_rotateLeft, dif_neg (by omega)]
  congr 1
  omega

theorem rotl_inj (n : Nat) (a b : L) (h : a.rotateLeft n = b.rotateLeft n) : a = b := by
  have := congrArg (fun x : L => x.rotateLeft (64 - n % 64)) h
  simp only [rotl_rotl] at this
  rwa [rotl_period _ _ (by omega), rotl_period _ _ (by omega)] at this

/-- squaring of the operator `S^a + S^b Z^r` -/
theorem square (P : Fin 5 → L) (a b : Fin 5) (r : Nat) (h : ∀ x, P x = P (x + a) ^^^ (P (x + b)).rotateLeft r) (x : Fin 5) :
    P x = P (x + (a + a)) ^^^ (P (x + (b + b))).rotateLeft (r + r) := by
  rw [h x, h (x + a), h (x + b), rotl_xor, rotl_rotl, show x + b + a = x + a + b by omega, show x + a + a = x + (a + a) by omega,
    show x + b + b = x + (b + b) by omega, BitVec.xor_assoc, ← BitVec.xor_assoc ((P (x + a + b)).rotateLeft r), BitVec.xor_self,
    BitVec.zero_xor]

theorem bits_zero : ∀ p : Fin 5 → Bool, (∀ x, p x = (p (x + 1) ^^ p (x + 4))) → ∀ x, p x = false := by decide

/-- a fixed point of the parity map is zero -/
theorem parity_zero (P : Fin 5 → L) (h : ∀ x, P x = P (x + 4) ^^^ (P (x + 1)).rotateLeft 1) (x : Fin 5) : P x = 0 := by
  have h5 := square P _ _ _ (square P _ _ _ (square P _ _ _ (square P _ _ _ (square P _ _ _ (square P _ _ _ h)))))
  have h6 : ∀ x, P x = P (x + 1) ^^^ P (x + 4) := fun x => by
    have := h5 x
    rw [rotl_period _ _ (by decide)] at this
    exact this
  ext i hi
  exact (bits_zero (fun x => (P x)[i]) (fun x => by rw [← BitVec.getElem_xor, ← h6 x]) x).trans (by simp)

theorem parity_xor (A B : State) (x : Fin 5) : parity (fun x y => A x y ^^^ B x y) x = parity A x ^^^ parity B x := by
  simp only [parity]
  ext i hi
  simp only [BitVec.getElem_xor]
  generalize (A x 0)[i] = a0; generalize (A x 1)[i] = a1; generalize (A x 2)[i] = a2; generalize (A x 3)[i] = a3
  generalize (A x 4)[i] = a4; generalize (B x 0)[i] = b0; generalize (B x 1)[i] = b1; generalize (B x 2)[i] = b2
  generalize (B x 3)[i] = b3; generalize (B x 4)[i] = b4
  revert a0 a1 a2 a3 a4 b0 b1 b2 b3 b4
  decide

theorem xor_cancel {a b : L} (h : a ^^^ b = 0) : a = b := by
  have := congrArg (· ^^^ b) h
  simpa [BitVec.xor_assoc] using this

theorem thetaF_inj (A B : State) (h : thetaF A = thetaF B) : A = B := by
  obtain ⟨D, hD⟩ : ∃ D : State, D = fun x y => A x y ^^^ B x y := ⟨_, rfl⟩
  have hd : ∀ x y, D x y = parity D (x + 4) ^^^ (parity D (x + 1)).rotateLeft 1 := by
    intro x y
    have := congrFun (congrFun h x) y
    rw [thetaF, thetaF] at this
    rw [hD, parity_xor, parity_xor, rotl_xor]
    show A x y ^^^ B x y = _
    apply xor_cancel
    have h2 : ∀ a b p q r s : L, a ^^^ (p ^^^ r) = b ^^^ (q ^^^ s) → (a ^^^ b) ^^^ ((p ^^^ q) ^^^ (r ^^^ s)) = 0 := by
      intro a b p q r s h
      have : (a ^^^ b) ^^^ ((p ^^^ q) ^^^ (r ^^^ s)) = (a ^^^ (p ^^^ r)) ^^^ (b ^^^ (q ^^^ s)) := by ac_rfl
      rw [this, h, BitVec.xor_self]
      rfl
    exact h2 _ _ _ _ _ _ this
  have hp : ∀ x, parity D x = parity D (x + 4) ^^^ (parity D (x + 1)).rotateLeft 1 := by
    intro x
    conv_lhs => rw [parity]
    rw [hd x 0, hd x 1, hd x 2, hd x 3, hd x 4]
    generalize parity D (x + 4) ^^^ (parity D (x + 1)).rotateLeft 1 = e
    rw [BitVec.xor_self, BitVec.zero_xor, BitVec.xor_self, BitVec.zero_xor]
  have hz := parity_zero (parity D) hp
  funext x y
  apply xor_cancel
  have := hd x y
  rw [hz, hz] at this
  rw [hD] at this
  simpa using this

/-- the lanes of a list -/
def view (a : List L) : State := fun x y => a.getD (x.val + 5 * y.val) 0

theorem view_inj {a b : List L} (ha : a.length = 25) (hb : b.length = 25) (h : view a = view b) : a = b := by
  apply List.ext_getElem?
  intro i
  by_cases hi : i < 25
  · have := congrFun (congrFun h ⟨i % 5, by omega⟩) ⟨i / 5, by omega⟩
    simp only [view] at this
    rw [show i % 5 + 5 * (i / 5) = i by omega, List.getD_eq_getElem?_getD, List.getD_eq_getElem?_getD, List.getElem?_eq_getElem (by omega),
      List.getElem?_eq_getElem (by omega)] at this
    rw [List.getElem?_eq_getElem (by omega), List.getElem?_eq_getElem (by omega)]
    exact congrArg some this
  · rw [List.getElem?_eq_none (by omega), List.getElem?_eq_none (by omega)]

theorem state_length (g : Nat → Nat → L) : (state g).length = 25 := by simp [state]

theorem view_state (g : Nat → Nat → L) (x y : Fin 5) : view (state g) x y = g x y := by
  unfold view state
  have := x.isLt
  have := y.isLt
  rw [List.getD_eq_getElem?_getD, List.getElem?_map, List.getElem?_range (by omega)]
  simp only [Option.map_some, Option.getD_some]
  rw [show (x.val + 5 * y.val) % 5 = x.val by omega, show (x.val + 5 * y.val) / 5 = y.val by omega]

theorem theta_inj {a b : List L} (ha : a.length = 25) (hb : b.length = 25) (h : theta a = theta b) : a = b := by
  have e : ∀ a, view (theta a) = thetaF (view a) := by
    intro a
    funext x y
    unfold theta
    dsimp only
    rw [view_state, BitVec.xor_assoc]
    fin_cases x <;> fin_cases y <;> rfl
  apply view_inj ha hb
  apply thetaF_inj
  rw [← e, ← e, h]

theorem rho_inj {a b : List L} (ha : a.length = 25) (hb : b.length = 25) (h : rho a = rho b) : a = b := by
  apply view_inj ha hb
  funext x y
  have := congrFun (congrFun (congrArg view h) x) y
  unfold rho at this
  rw [view_state, view_state] at this
  have := rotl_inj _ _ _ this
  unfold lane at this
  rw [Nat.mod_eq_of_lt x.isLt, Nat.mod_eq_of_lt y.isLt] at this
  exact this

theorem pi_inj {a b : List L} (ha : a.length = 25) (hb : b.length = 25) (h : Spec.KeccakF.pi a = Spec.KeccakF.pi b) : a = b := by
  apply view_inj ha hb
  funext x y
  have := congrFun (congrFun (congrArg view h) y) (2 * (x + 4 * y))
  unfold Spec.KeccakF.pi at this
  rw [view_state, view_state] at this
  unfold lane at this
  have e : (y.val + 3 * (2 * (x + 4 * y)).val) % 5 = x.val := by clear this; revert x y; decide
  rw [e, Nat.mod_eq_of_lt y.isLt] at this
  exact this

theorem chi_bits : ∀ a b : Fin 5 → Bool, (∀ x, (a x ^^ (!a (x + 1) && a (x + 2))) = (b x ^^ (!b (x + 1) && b (x + 2)))) → ∀ x, a x = b x := by
  decide

theorem chi_inj {a b : List L} (ha : a.length = 25) (hb : b.length = 25) (h : chi a = chi b) : a = b := by
  have e : ∀ a x y, view (chi a) x y = view a x y ^^^ (~~~ view a (x + 1) y &&& view a (x + 2) y) := by
    intro a x y
    unfold chi
    rw [view_state]
    fin_cases x <;> fin_cases y <;> rfl
  apply view_inj ha hb
  funext x y
  ext i hi
  refine chi_bits (fun x => (view a x y)[i]) (fun x => (view b x y)[i]) (fun x => ?_) x
  have := congrArg (fun w : L => w[i]) ((e a x y).symm.trans ((congrFun (congrFun (congrArg view h) x) y).trans (e b x y)))
  simpa using this

theorem iota_inj {a b : List L} (c : L) (ha : a.length = 25) (hb : b.length = 25) (h : iota c a = iota c b) : a = b := by
  have hl : lane a 0 0 = lane b 0 0 := by
    have := congrArg (fun l => l.getD 0 0) h
    unfold iota at this
    simp only [List.getD_eq_getElem?_getD] at this
    rw [List.getElem?_set_self (by omega), List.getElem?_set_self (by omega)] at this
    have := congrArg (· ^^^ c) this
    simpa [BitVec.xor_assoc] using this
  apply List.ext_getElem?
  intro i
  by_cases hi : i = 0
  · subst hi
    unfold lane at hl
    rw [List.getD_eq_getElem?_getD, List.getD_eq_getElem?_getD, List.getElem?_eq_getElem (by omega), List.getElem?_eq_getElem (by omega)] at hl
    rw [List.getElem?_eq_getElem (by omega), List.getElem?_eq_getElem (by omega)]
    exact congrArg some hl
  · have : (iota c a)[i]? = (iota c b)[i]? := by rw [h]
    unfold iota at this
    rw [List.getElem?_set_ne (by omega), List.getElem?_set_ne (by omega)] at this
    exact this

theorem round_length (a : List L) (c : L) : (round a c).length = 25 := by
  unfold round iota chi
  rw [List.length_set, state_length]

theorem round_inj {a b : List L} (c : L) (ha : a.length = 25) (hb : b.length = 25) (h : round a c = round b c) : a = b :=
  have l1 : ∀ a, (theta a).length = 25 := fun a => by simp [theta, state]
  have l2 : ∀ a, (rho a).length = 25 := fun _ => state_length _
  have l3 : ∀ a, (Spec.KeccakF.pi a).length = 25 := fun _ => state_length _
  have l4 : ∀ a, (chi a).length = 25 := fun _ => state_length _
  theta_inj ha hb (rho_inj (l1 _) (l1 _) (pi_inj (l2 _) (l2 _) (chi_inj (l3 _) (l3 _) (iota_inj c (l4 _) (l4 _) h))))

theorem rounds_inj (cs : List L) : ∀ a b : List L, a.length = 25 → b.length = 25 → cs.foldl round a = cs.foldl round b → a = b := by
  induction cs with
  | nil => exact fun _ _ _ _ h => h
  | cons c cs ih => exact fun a b ha hb h => round_inj c ha hb (ih _ _ (round_length _ _) (round_length _ _) h)

theorem rounds_length (cs : List L) : ∀ a : List L, a.length = 25 → (cs.foldl round a).length = 25 := by
  induction cs with
  | nil => exact fun _ h => h
  | cons c cs ih => exact fun a _ => ih _ (round_length _ _)

theorem number_lt (l : List (BitVec 8)) : number l < 256 ^ l.length := by
  induction l with
  | nil => exact Nat.one_pos
  | cons b l ih =>
    rw [number, List.length_cons, Nat.pow_succ]
    have := b.isLt
    omega

theorem number_inj : ∀ l m : List (BitVec 8), l.length = m.length → number l = number m → l = m
  | [], [], _, _ => rfl
  | [], _ :: _, h, _ => by cases h
  | _ :: _, [], h, _ => by cases h
  | b :: l, c :: m, h, e => by
    rw [number, number] at e
    have hb := b.isLt
    have hc := c.isLt
    rw [show b = c from BitVec.eq_of_toNat_eq (by omega), number_inj l m (Nat.succ.inj h) (by omega)]

theorem lanes_inj {s t : List (BitVec 8)} (hs : s.length = 200) (ht : t.length = 200) (h : lanes s = lanes t) : s = t := by
  have e : ∀ i < 25, (s.drop (8 * i)).take 8 = (t.drop (8 * i)).take 8 := by
    intro i hi
    have := congrArg (fun l => l[i]?) h
    unfold lanes at this
    simp only [List.getElem?_map, List.getElem?_range hi, Option.map_some, Option.some.injEq] at this
    have l1 : ((s.drop (8 * i)).take 8).length = 8 := by simp; omega
    have l2 : ((t.drop (8 * i)).take 8).length = 8 := by simp; omega
    apply number_inj _ _ (by omega)
    have n1 := number_lt ((s.drop (8 * i)).take 8)
    have n2 := number_lt ((t.drop (8 * i)).take 8)
    rw [l1] at n1
    rw [l2] at n2
    have := congrArg BitVec.toNat this
    rw [BitVec.toNat_ofNat, BitVec.toNat_ofNat] at this
    omega
  apply List.ext_getElem?
  intro i
  by_cases hi : i < 200
  · have := congrArg (fun l => l[i % 8]?) (e (i / 8) (by omega))
    simp only [List.getElem?_take, List.getElem?_drop] at this
    rw [if_pos (by omega), if_pos (by omega), show 8 * (i / 8) + i % 8 = i by omega] at this
    exact this
  · rw [List.getElem?_eq_none (by omega), List.getElem?_eq_none (by omega)]

theorem digits_inj (n : Nat) : ∀ x y : Nat, x < 256 ^ n → y < 256 ^ n → (∀ k < n, x / 256 ^ k % 256 = y / 256 ^ k % 256) → x = y := by
  induction n with
  | zero =>
    intro x y hx hy _
    rw [Nat.pow_zero] at hx hy
    omega
  | succ n ih =>
    intro x y hx hy h
    rw [Nat.pow_succ] at hx hy
    have h0 := h 0 (Nat.succ_pos n)
    rw [Nat.pow_zero, Nat.div_one, Nat.div_one] at h0
    have h1 : x / 256 = y / 256 := ih _ _ (by omega) (by omega) fun k hk => by
      have := h (k + 1) (by omega)
      rw [Nat.pow_succ', ← Nat.div_div_eq_div_mul, ← Nat.div_div_eq_div_mul] at this
      exact this
    omega

theorem bytes_inj {a b : List L} (ha : a.length = 25) (hb : b.length = 25) (h : bytes a = bytes b) : a = b := by
  apply List.ext_getElem?
  intro i
  by_cases hi : i < 25
  · have e : ∀ k < 8, (a.getD i 0).toNat / 256 ^ k % 256 = (b.getD i 0).toNat / 256 ^ k % 256 := by
      intro k hk
      have := congrArg (fun l => l[8 * i + k]?) h
      unfold bytes at this
      simp only [List.getElem?_map, List.getElem?_range (show 8 * i + k < 200 by omega), Option.map_some, Option.some.injEq] at this
      rw [show (8 * i + k) / 8 = i by omega, show (8 * i + k) % 8 = k by omega] at this
      have := congrArg BitVec.toNat this
      rw [BitVec.toNat_ofNat, BitVec.toNat_ofNat] at this
      exact this
    have : a.getD i 0 = b.getD i 0 := BitVec.eq_of_toNat_eq (digits_inj 8 _ _ (a.getD i 0).isLt (b.getD i 0).isLt e)
    rw [List.getD_eq_getElem?_getD, List.getD_eq_getElem?_getD, List.getElem?_eq_getElem (by omega), List.getElem?_eq_getElem (by omega)] at this
    rw [List.getElem?_eq_getElem (by omega), List.getElem?_eq_getElem (by omega)]
    exact congrArg some this
  · rw [List.getElem?_eq_none (by omega), List.getElem?_eq_none (by omega)]

theorem keccakF_inj (s t : List (BitVec 8)) (hs : s.length = 200) (ht : t.length = 200) (h : keccakF s = keccakF t) : s = t := by
  have l : ∀ s : List (BitVec 8), (lanes s).length = 25 := fun s => by simp [lanes]
  exact lanes_inj hs ht (rounds_inj _ _ _ (l s) (l t) (bytes_inj (rounds_length _ _ (l s)) (rounds_length _ _ (l t)) h))

end Verif.KeccakF64
