import Verif.Go.Prelude
import Verif.Spec.Wagner

/-! # Blocks of a Wagner tree -/

set_option autoImplicit false

namespace Verif.Spec.Wagner

variable {k : Nat} {ixs : List Nat}

theorem xorOf_append (f : Nat → Nat) (a b : List Nat) : xorOf f (a ++ b) = xorOf f a ^^^ xorOf f b := by
  induction a with
  | nil => simp [xorOf]
  | cons x a ih =>
    simp only [xorOf, List.cons_append, List.foldr_cons] at ih ⊢
    rw [ih, Nat.xor_assoc]

theorem xorOf_singleton (f : Nat → Nat) (a : Nat) : xorOf f [a] = f a := by simp [xorOf]

theorem block_succ (ixs : List Nat) (r w : Nat) : block ixs (r + 1) w = block ixs r (2 * w) ++ block ixs r (2 * w + 1) := by
  unfold block
  rw [Nat.pow_succ, Nat.mul_two, List.take_add, List.drop_drop]
  congr 3
  · ring
  · ring

theorem block_bound {r w : Nat} (hr : r ≤ k) (hw : w < 2 ^ (k - r)) : (w + 1) * 2 ^ r ≤ 2 ^ k := by
  have : (w + 1) * 2 ^ r ≤ 2 ^ (k - r) * 2 ^ r := Nat.mul_le_mul_right _ hw
  rwa [← Nat.pow_add, Nat.sub_add_cancel hr] at this

theorem block_length (hl : ixs.length = 2 ^ k) {r w : Nat} (hr : r ≤ k) (hw : w < 2 ^ (k - r)) : (block ixs r w).length = 2 ^ r := by
  have := block_bound hr hw
  rw [Nat.add_mul] at this
  simp only [block, List.length_take, List.length_drop]
  omega

theorem block_top (hl : ixs.length = 2 ^ k) : block ixs k 0 = ixs := by
  simp [block, ← hl]

theorem block_getElem? (r w i : Nat) (hi : i < 2 ^ r) : (block ixs r w)[i]? = ixs[w * 2 ^ r + i]? := by
  simp [block, List.getElem?_drop, hi]

theorem block_zero {w : Nat} (hw : w < ixs.length) : block ixs 0 w = [ixs[w]] := by
  apply List.ext_getElem?
  intro i
  cases i with
  | zero => rw [block_getElem? 0 w 0 (by simp)]; simp [List.getElem?_eq_getElem hw]
  | succ i => simp [block]

theorem child_lt {r w : Nat} (hr : r < k) (hw : w < 2 ^ (k - (r + 1))) : 2 * w < 2 ^ (k - r) ∧ 2 * w + 1 < 2 ^ (k - r) := by
  have : k - r = (k - (r + 1)) + 1 := by omega
  rw [this, Nat.pow_succ]
  omega

/-- sibling blocks share no index -/
def SiblingsDisjoint (k : Nat) (ixs : List Nat) : Prop :=
  ∀ r < k, ∀ w < 2 ^ (k - (r + 1)), ∀ a ∈ block ixs r (2 * w), ∀ b ∈ block ixs r (2 * w + 1), a ≠ b

theorem nodup_iff (hl : ixs.length = 2 ^ k) : ixs.Nodup ↔ SiblingsDisjoint k ixs := by
  constructor
  · intro h r hr w hw a ha b hb
    have hsub : (block ixs (r + 1) w).Nodup :=
      h.sublist ((List.take_sublist _ _).trans (List.drop_sublist _ _))
    rw [block_succ, List.nodup_append] at hsub
    exact hsub.2.2 a ha b hb
  · intro h
    have key : ∀ r, r ≤ k → ∀ w < 2 ^ (k - r), (block ixs r w).Nodup := by
      intro r
      induction r with
      | zero =>
        intro _ w hw
        rw [block_zero (by rw [hl]; simpa using hw)]
        simp
      | succ r ih =>
        intro hr w hw
        obtain ⟨h1, h2⟩ := child_lt (Nat.lt_of_succ_le hr) hw
        rw [block_succ, List.nodup_append]
        exact ⟨ih (by omega) _ h1, ih (by omega) _ h2, h r (by omega) w hw⟩
    have := key k (Nat.le_refl _) 0 (by simp)
    rwa [block_top hl] at this

/-- if all blocks at level `r0` xor to zero, so does every block above, in particular the whole list -/
theorem xor_up (f : Nat → Nat) (hl : ixs.length = 2 ^ k) (r0 : Nat) (hr0 : r0 ≤ k)
    (h : ∀ w < 2 ^ (k - r0), xorOf f (block ixs r0 w) = 0) : xorOf f ixs = 0 := by
  have key : ∀ d r, r = r0 + d → r ≤ k → ∀ w < 2 ^ (k - r), xorOf f (block ixs r w) = 0 := by
    intro d
    induction d with
    | zero => intro r hr _ w hw; subst hr; exact h w hw
    | succ d ih =>
      intro r hr hrk w hw
      obtain ⟨r', rfl⟩ : ∃ r', r = r' + 1 := ⟨r - 1, by omega⟩
      obtain ⟨h1, h2⟩ := child_lt (Nat.lt_of_succ_le hrk) hw
      rw [block_succ, xorOf_append, ih r' (by omega) (by omega) _ h1, ih r' (by omega) (by omega) _ h2]
      rfl
  have := key (k - r0) k (by omega) (Nat.le_refl _) 0 (by simp)
  rwa [block_top hl] at this

theorem xorOf_lt (f : Nat → Nat) (c : Nat) (hf : ∀ i, f i < 2 ^ c) (l : List Nat) : xorOf f l < 2 ^ c := by
  induction l with
  | nil => simp [xorOf]
  | cons a l ih => exact Nat.xor_lt_two_pow (hf a) ih

theorem swap_length (hl : ixs.length = 2 ^ k) {r w : Nat} (hr : r < k) (hw : w < 2 ^ (k - (r + 1))) :
    (swapSiblings ixs r w).length = 2 ^ k := by
  obtain ⟨h1, h2⟩ := child_lt hr hw
  have hb := block_bound (show r + 1 ≤ k from hr) hw
  simp only [swapSiblings, List.length_append, List.length_take, List.length_drop,
    block_length hl (Nat.le_of_lt hr) h1, block_length hl (Nat.le_of_lt hr) h2, hl]
  rw [Nat.add_mul, Nat.pow_succ] at hb ⊢
  omega

theorem swap_left (hl : ixs.length = 2 ^ k) {r w : Nat} (hr : r < k) (hw : w < 2 ^ (k - (r + 1))) :
    (swapSiblings ixs r w)[w * 2 ^ (r + 1)]? = ixs[w * 2 ^ (r + 1) + 2 ^ r]? := by
  obtain ⟨h1, h2⟩ := child_lt hr hw
  have hb := block_bound (show r + 1 ≤ k from hr) hw
  rw [Nat.add_mul] at hb
  have hlt : (ixs.take (w * 2 ^ (r + 1))).length = w * 2 ^ (r + 1) := by
    rw [List.length_take, hl]; omega
  have hp := Nat.two_pow_pos r
  rw [swapSiblings, List.append_assoc, List.append_assoc, List.getElem?_append_right (by omega), hlt, Nat.sub_self,
    List.getElem?_append_left (by rw [block_length hl (Nat.le_of_lt hr) h2]; exact hp), block_getElem? _ _ _ hp]
  congr 1
  ring

theorem swap_right (hl : ixs.length = 2 ^ k) {r w : Nat} (hr : r < k) (hw : w < 2 ^ (k - (r + 1))) :
    (swapSiblings ixs r w)[w * 2 ^ (r + 1) + 2 ^ r]? = ixs[w * 2 ^ (r + 1)]? := by
  obtain ⟨h1, h2⟩ := child_lt hr hw
  have hb := block_bound (show r + 1 ≤ k from hr) hw
  rw [Nat.add_mul] at hb
  have hlt : (ixs.take (w * 2 ^ (r + 1))).length = w * 2 ^ (r + 1) := by
    rw [List.length_take, hl]; omega
  have hp := Nat.two_pow_pos r
  have hbl := block_length hl (Nat.le_of_lt hr) h2
  rw [swapSiblings, List.append_assoc, List.append_assoc, List.getElem?_append_right (by omega), hlt,
    List.getElem?_append_right (by omega), hbl, Nat.add_sub_cancel_left, Nat.sub_self,
    List.getElem?_append_left (by rw [block_length hl (Nat.le_of_lt hr) h1]; exact hp), block_getElem? _ _ _ hp]
  congr 1
  ring

/-- a list and a sibling swap of it are not both ordered -/
theorem swap_not_ordered (hl : ixs.length = 2 ^ k) {r w : Nat} (hr : r < k) (hw : w < 2 ^ (k - (r + 1))) (h : Ordered k ixs) :
    ¬ Ordered k (swapSiblings ixs r w) := by
  intro h'
  have hb := block_bound (show r + 1 ≤ k from hr) hw
  rw [Nat.add_mul, Nat.pow_succ] at hb
  have hp := Nat.two_pow_pos r
  have ha : w * 2 ^ (r + 1) < ixs.length := by rw [hl, Nat.pow_succ]; omega
  have hb' : w * 2 ^ (r + 1) + 2 ^ r < ixs.length := by rw [hl, Nat.pow_succ]; omega
  have A := h r hr w hw _ _ (List.getElem?_eq_getElem ha) (List.getElem?_eq_getElem hb')
  have B := h' r hr w hw _ _ ((swap_left hl hr hw).trans (List.getElem?_eq_getElem hb'))
    ((swap_right hl hr hw).trans (List.getElem?_eq_getElem ha))
  omega

end Verif.Spec.Wagner
