import Verif.Go.Prelude
import Mathlib.Tactic.Ring

/-! # Packing digits into a number, most significant first -/

set_option autoImplicit false

namespace Verif.Packing

/-- value of a list of digits in base `B`, most significant first -/
def pack (B : Nat) : List Nat → Nat
  | [] => 0
  | d :: ds => d * B ^ ds.length + pack B ds

theorem pack_lt (B : Nat) (l : List Nat) (h : ∀ d ∈ l, d < B) : pack B l < B ^ l.length := by
  induction l with
  | nil => simp [pack]
  | cons d ds ih =>
    have h1 := ih (fun x hx => h x (by simp [hx]))
    have h2 : d + 1 ≤ B := h d (by simp)
    simp only [pack, List.length_cons]
    calc d * B ^ ds.length + pack B ds < d * B ^ ds.length + B ^ ds.length := by omega
      _ = (d + 1) * B ^ ds.length := by ring
      _ ≤ B * B ^ ds.length := Nat.mul_le_mul_right _ h2
      _ = B ^ (ds.length + 1) := by ring

theorem pack_digit (B : Nat) (l : List Nat) (h : ∀ d ∈ l, d < B) (g : Nat) (hg : g < l.length) :
    pack B l / B ^ (l.length - 1 - g) % B = l[g] := by
  induction l generalizing g with
  | nil => simp at hg
  | cons d ds ih =>
    have hds : ∀ x ∈ ds, x < B := fun x hx => h x (by simp [hx])
    have h2 : d < B := h d (by simp)
    have hlt := pack_lt B ds hds
    have hB : 0 < B := by omega
    cases g with
    | zero =>
      simp only [pack, List.length_cons, Nat.add_sub_cancel, Nat.sub_zero, List.getElem_cons_zero]
      rw [Nat.add_comm, Nat.add_mul_div_right _ _ (Nat.pow_pos hB), Nat.div_eq_of_lt hlt, Nat.zero_add, Nat.mod_eq_of_lt h2]
    | succ g =>
      have hg' : g < ds.length := by simpa using hg
      simp only [pack, List.length_cons, Nat.add_sub_cancel, List.getElem_cons_succ]
      rw [← ih hds g hg', show ds.length - (g + 1) = ds.length - 1 - g by omega]
      have e : d * B ^ ds.length = (d * B ^ g * B) * B ^ (ds.length - 1 - g) := by
        have : ds.length = g + 1 + (ds.length - 1 - g) := by omega
        conv_lhs => rw [this, Nat.pow_add, Nat.pow_succ]
        ring
      rw [e, Nat.add_comm, Nat.add_mul_div_right _ _ (Nat.pow_pos hB), Nat.add_mul_mod_self_right]

/-- numbers below `B^m` are determined by their `m` digits -/
theorem digits_inj (B : Nat) (hB : 0 < B) (m : Nat) : ∀ a b, a < B ^ m → b < B ^ m →
    (∀ g < m, a / B ^ (m - 1 - g) % B = b / B ^ (m - 1 - g) % B) → a = b := by
  induction m with
  | zero => intro a b ha hb _; simp at ha hb; omega
  | succ m ih =>
    intro a b ha hb h
    have h0 := h m (by omega)
    simp only [Nat.add_sub_cancel, Nat.sub_self, Nat.pow_zero, Nat.div_one] at h0
    have h1 : a / B = b / B := by
      apply ih
      · rw [Nat.div_lt_iff_lt_mul hB, ← Nat.pow_succ]; exact ha
      · rw [Nat.div_lt_iff_lt_mul hB, ← Nat.pow_succ]; exact hb
      · intro g hg
        have := h g (by omega)
        rwa [show m + 1 - 1 - g = 1 + (m - 1 - g) by omega, Nat.pow_add, Nat.pow_one, ← Nat.div_div_eq_div_mul,
          ← Nat.div_div_eq_div_mul] at this
    rw [← Nat.div_add_mod a B, ← Nat.div_add_mod b B, h0, h1]

end Verif.Packing
