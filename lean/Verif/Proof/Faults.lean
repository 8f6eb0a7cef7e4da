import Verif.Proof.Wagner
import Verif.Spec.Faults

/-! # Faults of sibling blocks -/

set_option autoImplicit false

namespace Verif.Spec.Wagner

variable {k : Nat} {ixs : List Nat}

theorem blocks_ne (hl : ixs.length = 2 ^ k) (r : Nat) (hr : r < k) (w : Nat) (hw : w < 2 ^ (k - (r + 1))) :
    block ixs r (2 * w) ≠ [] ∧ block ixs r (2 * w + 1) ≠ [] := by
  obtain ⟨h1, h2⟩ := child_lt hr hw
  have l1 := block_length hl (Nat.le_of_lt hr) h1
  have l2 := block_length hl (Nat.le_of_lt hr) h2
  have hp := Nat.two_pow_pos r
  exact ⟨by intro e; rw [e] at l1; simp at l1; omega, by intro e; rw [e] at l2; simp at l2; omega⟩

theorem no_faulty {agree : Prop} {A B : List Nat} (hA : A ≠ []) (hB : B ≠ []) :
    (agree ∧ (∀ a b, A[0]? = some a → B[0]? = some b → a < b) ∧ ∀ a ∈ A, ∀ b ∈ B, a ≠ b) ↔ ∀ f, ¬ Faulty agree A B f := by
  obtain ⟨a0, A', rfl⟩ : ∃ a0 A', A = a0 :: A' := by cases A with | nil => exact absurd rfl hA | cons x l => exact ⟨x, l, rfl⟩
  obtain ⟨b0, B', rfl⟩ : ∃ b0 B', B = b0 :: B' := by cases B with | nil => exact absurd rfl hB | cons x l => exact ⟨x, l, rfl⟩
  constructor
  · rintro ⟨h1, h2, h3⟩ f hf
    cases f with
    | collision => exact hf h1
    | order =>
      obtain ⟨_, a, b, ha, hb, hlt⟩ := hf
      have := h2 a b ha hb
      omega
    | duplicate =>
      obtain ⟨_, _, i, hi, hj⟩ := hf
      exact h3 i hi i hj rfl
  · intro h
    have h1 : agree := by
      by_contra hn
      exact h .collision hn
    have h2 : a0 ≤ b0 := by
      by_contra hn
      exact h .order ⟨h1, a0, b0, rfl, rfl, by omega⟩
    have hle : ∀ a b, (a0 :: A')[0]? = some a → (b0 :: B')[0]? = some b → a ≤ b := by
      intro a b ha hb
      obtain rfl : a0 = a := by simpa using ha
      obtain rfl : b0 = b := by simpa using hb
      exact h2
    have h3 : ∀ a ∈ a0 :: A', ∀ b ∈ b0 :: B', a ≠ b := by
      rintro a ha b hb rfl
      exact h .duplicate ⟨h1, hle, a, ha, hb⟩
    refine ⟨h1, ?_, h3⟩
    intro a b ha hb
    have := hle a b ha hb
    have := h3 a (List.mem_of_getElem? ha) b (List.mem_of_getElem? hb)
    omega

/-- a pair of blocks has one fault at most -/
theorem faulty_unique {agree : Prop} {A B : List Nat} {f g : Fault} (hf : Faulty agree A B f) (hg : Faulty agree A B g) : f = g := by
  have key : ∀ a b, A[0]? = some a → B[0]? = some b → b < a →
      ¬ (∀ a b, A[0]? = some a → B[0]? = some b → a ≤ b) := by
    intro a b ha hb hlt h
    have := h a b ha hb
    omega
  cases f with
  | collision => cases g with
    | collision => rfl
    | order => exact absurd hg.1 hf
    | duplicate => exact absurd hg.1 hf
  | order =>
    obtain ⟨h1, a, b, ha, hb, hlt⟩ := hf
    cases g with
    | collision => exact absurd h1 hg
    | order => rfl
    | duplicate => exact absurd hg.2.1 (key a b ha hb hlt)
  | duplicate => cases g with
    | collision => exact absurd hf.1 hg
    | order =>
      obtain ⟨_, a, b, ha, hb, hlt⟩ := hg
      exact absurd hf.2.1 (key a b ha hb hlt)
    | duplicate => rfl

theorem firstFault_unique {agree : Nat → List Nat → List Nat → Prop} {f g : Fault} (hf : FirstFault k agree ixs f)
    (hg : FirstFault k agree ixs g) : f = g := by
  obtain ⟨r, w, hr, hw, h1, h2⟩ := hf
  obtain ⟨r', w', hr', hw', h1', h2'⟩ := hg
  rcases Nat.lt_trichotomy r r' with h | h | h
  · exact absurd h1 (h2' r w hw (Or.inl h) f)
  · subst h
    rcases Nat.lt_trichotomy w w' with h | h | h
    · exact absurd h1 (h2' r w hw (Or.inr ⟨rfl, h⟩) f)
    · subst h
      exact faulty_unique h1 h1'
    · exact absurd h1' (h2 r w' hw' (Or.inr ⟨rfl, h⟩) g)
  · exact absurd h1' (h2 r' w' hw' (Or.inl h) g)

theorem not_noFault {agree : Nat → List Nat → List Nat → Prop} {f : Fault} (hf : FirstFault k agree ixs f) : ¬ NoFault k agree ixs := by
  obtain ⟨r, w, hr, hw, h1, _⟩ := hf
  exact fun h => h r w hr hw f h1

/-! ### exchanged siblings -/

theorem swap_getElem? (hl : ixs.length = 2 ^ k) {r w : Nat} (hr : r < k) (hw : w < 2 ^ (k - (r + 1))) (j i : Nat) (hi : i < 2 ^ r) :
    (swapSiblings ixs r w)[j * 2 ^ r + i]? =
      ixs[(if j = 2 * w then 2 * w + 1 else if j = 2 * w + 1 then 2 * w else j) * 2 ^ r + i]? := by
  obtain ⟨h1, h2⟩ := child_lt hr hw
  have hb := block_bound (show r + 1 ≤ k from hr) hw
  have hbl := block_length hl (Nat.le_of_lt hr) h2
  have hbl' := block_length hl (Nat.le_of_lt hr) h1
  have e1 : w * 2 ^ (r + 1) = 2 * w * 2 ^ r := by rw [Nat.pow_succ]; ring
  have e2 : (w + 1) * 2 ^ (r + 1) = (2 * w + 2) * 2 ^ r := by rw [Nat.pow_succ]; ring
  rw [swapSiblings, e1, e2]
  rw [e2] at hb
  have hlt : (ixs.take (2 * w * 2 ^ r)).length = 2 * w * 2 ^ r := by
    rw [List.length_take, hl]
    have : 2 * w * 2 ^ r ≤ (2 * w + 2) * 2 ^ r := Nat.mul_le_mul_right _ (by omega)
    omega
  rw [List.append_assoc, List.append_assoc]
  rcases Nat.lt_or_ge j (2 * w) with hj | hj
  · have : (j + 1) * 2 ^ r ≤ 2 * w * 2 ^ r := Nat.mul_le_mul_right _ hj
    rw [Nat.add_mul] at this
    rw [if_neg (by omega), if_neg (by omega), List.getElem?_append_left (by omega), List.getElem?_take_of_lt (by omega)]
  · have hge : 2 * w * 2 ^ r ≤ j * 2 ^ r := Nat.mul_le_mul_right _ hj
    rw [List.getElem?_append_right (by omega), hlt]
    rcases Nat.lt_or_ge j (2 * w + 1) with hj1 | hj1
    · obtain rfl : j = 2 * w := by omega
      rw [if_pos rfl, List.getElem?_append_left (by omega), block_getElem? _ _ _ (by omega)]
      congr 2
      omega
    · have hge1 : (2 * w + 1) * 2 ^ r ≤ j * 2 ^ r := Nat.mul_le_mul_right _ hj1
      rw [Nat.add_mul] at hge1
      rw [List.getElem?_append_right (by omega), hbl]
      rcases Nat.lt_or_ge j (2 * w + 2) with hj2 | hj2
      · obtain rfl : j = 2 * w + 1 := by omega
        have e3 : (2 * w + 1) * 2 ^ r = 2 * w * 2 ^ r + 2 ^ r := by ring
        rw [if_neg (by omega), if_pos rfl, List.getElem?_append_left (by omega), block_getElem? _ _ _ (by omega)]
        congr 2
        omega
      · have hge2 : (2 * w + 2) * 2 ^ r ≤ j * 2 ^ r := Nat.mul_le_mul_right _ hj2
        have e3 : (2 * w + 2) * 2 ^ r = 2 * w * 2 ^ r + 2 ^ r + 2 ^ r := by ring
        rw [if_neg (by omega), if_neg (by omega), List.getElem?_append_right (by omega), hbl', List.getElem?_drop]
        congr 1
        omega

/-- the blocks at the level of the exchange -/
theorem swap_block (hl : ixs.length = 2 ^ k) {r w : Nat} (hr : r < k) (hw : w < 2 ^ (k - (r + 1))) (j : Nat) :
    block (swapSiblings ixs r w) r j = block ixs r (if j = 2 * w then 2 * w + 1 else if j = 2 * w + 1 then 2 * w else j) := by
  apply List.ext_getElem?
  intro i
  rcases Nat.lt_or_ge i (2 ^ r) with hi | hi
  · rw [block_getElem? _ _ _ hi, block_getElem? _ _ _ hi, swap_getElem? hl hr hw j i hi]
  · have hnone : ∀ l : List Nat, ∀ j, (block l r j)[i]? = none := by
      intro l j
      apply List.getElem?_eq_none
      simp only [block, List.length_take]
      omega
    rw [hnone, hnone]

/-- at and below the level of the exchange every block is one of the original blocks -/
theorem swap_below (hl : ixs.length = 2 ^ k) {r w : Nat} (hr : r < k) (hw : w < 2 ^ (k - (r + 1))) :
    ∀ d s, s + d = r → ∀ j < 2 ^ (k - s), ∃ v < 2 ^ (k - s), block (swapSiblings ixs r w) s j = block ixs s v := by
  intro d
  induction d with
  | zero =>
    intro s hs j hj
    obtain rfl : s = r := by omega
    obtain ⟨h1, h2⟩ := child_lt hr hw
    refine ⟨_, ?_, swap_block hl hr hw j⟩
    by_cases e1 : j = 2 * w
    · rw [if_pos e1]; exact h2
    · rw [if_neg e1]
      by_cases e2 : j = 2 * w + 1
      · rw [if_pos e2]; exact h1
      · rw [if_neg e2]; exact hj
  | succ d ih =>
    intro s hs j hj
    have e : k - s = k - (s + 1) + 1 := by omega
    have hj' : j / 2 < 2 ^ (k - (s + 1)) := by
      rw [e, Nat.pow_succ] at hj
      omega
    obtain ⟨v, hv, hb⟩ := ih (s + 1) (by omega) (j / 2) hj'
    rw [block_succ, block_succ] at hb
    obtain ⟨k1, k2⟩ := child_lt (show s < k by omega) hj'
    obtain ⟨k3, k4⟩ := child_lt (show s < k by omega) hv
    have hsl := swap_length hl hr hw
    obtain ⟨b1, b2⟩ := List.append_inj hb (by
      rw [block_length hsl (by omega) k1, block_length hl (by omega) k3])
    rcases Nat.mod_two_eq_zero_or_one j with hm | hm
    · exact ⟨2 * v, k3, by rw [← b1]; congr 1; omega⟩
    · exact ⟨2 * v + 1, k4, by rw [← b2]; congr 1; omega⟩

/-- below the level of the exchange every pair of siblings is one of the original pairs -/
theorem swap_pairs (hl : ixs.length = 2 ^ k) {r w : Nat} (hr : r < k) (hw : w < 2 ^ (k - (r + 1))) (s : Nat) (hs : s < r) (j : Nat)
    (hj : j < 2 ^ (k - (s + 1))) : ∃ v < 2 ^ (k - (s + 1)), block (swapSiblings ixs r w) s (2 * j) = block ixs s (2 * v) ∧
      block (swapSiblings ixs r w) s (2 * j + 1) = block ixs s (2 * v + 1) := by
  obtain ⟨v, hv, hb⟩ := swap_below hl hr hw (r - (s + 1)) (s + 1) (by omega) j hj
  rw [block_succ, block_succ] at hb
  obtain ⟨k1, _⟩ := child_lt (show s < k by omega) hj
  obtain ⟨k3, _⟩ := child_lt (show s < k by omega) hv
  obtain ⟨b1, b2⟩ := List.append_inj hb (by
    rw [block_length (swap_length hl hr hw) (by omega) k1, block_length hl (by omega) k3])
  exact ⟨v, hv, b1, b2⟩

/-- exchanging two siblings of a tree without faults makes the order of these siblings the first fault -/
theorem swap_firstFault {agree : Nat → List Nat → List Nat → Prop} (hsym : ∀ r A B, agree r A B → agree r B A) (hl : ixs.length = 2 ^ k)
    {r w : Nat} (hr : r < k) (hw : w < 2 ^ (k - (r + 1))) (hn : NoFault k agree ixs) :
    FirstFault k agree (swapSiblings ixs r w) .order := by
  obtain ⟨h1, h2⟩ := child_lt hr hw
  have hp := Nat.two_pow_pos r
  have hne : ∀ j, j < 2 ^ (k - r) → block ixs r j ≠ [] := by
    intro j hj e
    have := block_length hl (Nat.le_of_lt hr) hj
    rw [e] at this
    simp at this
    omega
  obtain ⟨g1, g2, _⟩ := (no_faulty (hne _ h1) (hne _ h2)).2 (hn r w hr hw)
  refine ⟨r, w, hr, hw, ?_, ?_⟩
  · unfold FaultAt
    rw [swap_block hl hr hw (2 * w), swap_block hl hr hw (2 * w + 1), if_pos rfl, if_neg (by omega), if_pos rfl]
    refine ⟨hsym _ _ _ g1, ?_⟩
    obtain ⟨a, A, hA⟩ : ∃ a A, block ixs r (2 * w) = a :: A := by
      cases e : block ixs r (2 * w) with
      | nil => exact absurd e (hne _ h1)
      | cons a A => exact ⟨a, A, rfl⟩
    obtain ⟨b, B, hB⟩ : ∃ b B, block ixs r (2 * w + 1) = b :: B := by
      cases e : block ixs r (2 * w + 1) with
      | nil => exact absurd e (hne _ h2)
      | cons b B => exact ⟨b, B, rfl⟩
    have := g2 a b (by rw [hA]; rfl) (by rw [hB]; rfl)
    exact ⟨b, a, by rw [hB]; rfl, by rw [hA]; rfl, this⟩
  · rintro r' w' hw' (h | ⟨rfl, h⟩) f' hf
    · obtain ⟨v, hv, b1, b2⟩ := swap_pairs hl hr hw r' h w' hw'
      unfold FaultAt at hf
      rw [b1, b2] at hf
      exact hn r' v (by omega) hv f' hf
    · unfold FaultAt at hf
      rw [swap_block hl hr hw (2 * w'), swap_block hl hr hw (2 * w' + 1), if_neg (by omega), if_neg (by omega), if_neg (by omega),
        if_neg (by omega)] at hf
      exact hn r' w' hr hw' f' hf

end Verif.Spec.Wagner
