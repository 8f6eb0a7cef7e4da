import Verif.Proof.Eaglesong

/-! # Eaglesong: every step of a round is invertible -/

set_option autoImplicit false

namespace Verif.Eaglesong

open Go Spec Spec.Eaglesong

/-- `f` is a bijection of the lists of sixteen words -/
def Bij (f : List U32 → List U32) : Prop :=
  ∃ g : List U32 → List U32, ∀ s, s.length = 16 → (f s).length = 16 ∧ (g s).length = 16 ∧ g (f s) = s ∧ f (g s) = s

theorem Bij.comp {f h : List U32 → List U32} (hf : Bij f) (hh : Bij h) : Bij fun s => f (h s) := by
  obtain ⟨f', hf⟩ := hf
  obtain ⟨h', hh⟩ := hh
  refine ⟨fun s => h' (f' s), fun s hs => ?_⟩
  have a := hh s hs
  have b := hf s hs
  refine ⟨(hf _ a.1).1, (hh _ b.2.1).2.1, ?_, ?_⟩
  · show h' (f' (f (h s))) = s
    rw [(hf _ a.1).2.2.1, a.2.2.1]
  · show f (h (h' (f' s))) = s
    rw [(hh _ b.2.1).2.2.2, b.2.2.2]

theorem ext_word (s t : List U32) (hs : s.length = 16) (ht : t.length = 16) (h : ∀ j < 16, word s j = word t j) : s = t := by
  apply List.ext_getElem (by omega)
  intro j h1 h2
  rw [← word_get s j h1, ← word_get t j h2]
  exact h j (by omega)

/-! ## the bit matrix -/

theorem xorAll_cons (x : U32) (l : List U32) : xorAll (x :: l) = x ^^^ xorAll l := rfl

theorem xorAll_xor (a b : Nat → U32) (l : List Nat) :
    xorAll (l.map fun k => a k ^^^ b k) = xorAll (l.map a) ^^^ xorAll (l.map b) := by
  induction l with
  | nil => simp [xorAll]
  | cons x l ih =>
    simp only [List.map_cons, xorAll_cons, ih]
    rw [BitVec.xor_assoc, BitVec.xor_assoc, ← BitVec.xor_assoc (b x), BitVec.xor_comm (b x), BitVec.xor_assoc]

theorem xorAll_zero (l : List Nat) : xorAll (l.map fun _ => (0 : U32)) = 0 := by
  induction l with
  | nil => rfl
  | cons x l ih => rw [List.map_cons, xorAll_cons, ih]; rfl

theorem xorAll_single (f : Nat → U32) (n x : Nat) (hx : x < n) :
    xorAll ((List.range n).map fun k => if k = x then f k else 0) = f x := by
  induction n with
  | zero => omega
  | succ n ih =>
    rw [List.range_succ, List.map_append, xorAll_append]
    by_cases h : x = n
    · subst h
      rw [show (List.range x).map (fun k => if k = x then f k else 0) = (List.range x).map fun _ => (0 : U32) from
        List.map_congr_left fun k hk => if_neg (by rw [List.mem_range] at hk; omega), xorAll_zero]
      simp [xorAll]
    · rw [ih (by omega)]
      simp [xorAll, show ¬ n = x by omega]

theorem xorAll_count (f : Nat → U32) (l : List Nat) (hl : ∀ x ∈ l, x < 16) :
    xorAll (l.map f) = xorAll ((List.range 16).map fun k => if l.count k % 2 = 1 then f k else 0) := by
  induction l with
  | nil =>
    rw [show (fun k => if ([] : List Nat).count k % 2 = 1 then f k else 0) = fun _ => (0 : U32) from funext fun k => by simp, xorAll_zero]
    rfl
  | cons x l ih =>
    rw [List.map_cons, xorAll_cons, ih (fun y hy => hl y (List.mem_cons_of_mem _ hy)),
      ← xorAll_single f 16 x (hl x (List.mem_cons_self)), ← xorAll_xor]
    refine congrArg xorAll (List.map_congr_left fun k _ => ?_)
    by_cases h : k = x
    · subst h
      rw [List.count_cons_self, if_pos rfl]
      by_cases c : l.count k % 2 = 1
      · rw [if_pos c, if_neg (by omega)]; simp
      · rw [if_neg c, if_pos (by omega)]; simp
    · rw [List.count_cons_of_ne (by omega), if_neg h]; simp

/-- the columns of the inverse of the bit matrix -/
def inverseColumns : List (List Nat) :=
  [[0, 1, 2, 3, 5, 7, 8, 9, 10, 11, 15], [1, 2, 3, 4, 6, 8, 9, 10, 11, 12, 15], [2, 3, 4, 5, 7, 9, 10, 11, 12, 13, 15],
   [3, 4, 5, 6, 8, 10, 11, 12, 13, 14, 15], [0, 1, 2, 3, 4, 6, 8, 10, 12, 13, 14], [0, 4, 8, 10, 13, 14, 15], [0, 2, 3, 7, 8, 10, 14],
   [0, 2, 4, 5, 7, 10, 15], [1, 3, 5, 6, 8, 11, 15], [2, 4, 6, 7, 9, 12, 15], [3, 5, 7, 8, 10, 13, 15], [4, 6, 8, 9, 11, 14, 15],
   [0, 1, 2, 3, 8, 11, 12], [1, 2, 3, 4, 9, 12, 13], [2, 3, 4, 5, 10, 13, 14], [0, 1, 2, 4, 6, 7, 8, 9, 10, 14, 15]]

/-- multiplication by the matrix with the given columns -/
def mulCols (c : List (List Nat)) (s : List U32) : List U32 := c.map fun col => xorAll (col.map (word s))

theorem word_mulCols (c : List (List Nat)) (s : List U32) (j : Nat) : word (mulCols c s) j = xorAll ((c.getD j []).map (word s)) := by
  unfold mulCols word
  by_cases h : j < c.length
  · simp [List.getD_eq_getElem?_getD, h]
  · simp [List.getD_eq_getElem?_getD, h, xorAll]

theorem xorAll_flatMap (f : Nat → U32) (c : List (List Nat)) (l : List Nat) :
    xorAll (l.map fun k => xorAll ((c.getD k []).map f)) = xorAll ((l.flatMap fun k => c.getD k []).map f) := by
  induction l with
  | nil => rfl
  | cons x l ih => rw [List.map_cons, xorAll_cons, ih, List.flatMap_cons, List.map_append, xorAll_append]

/-- the product of two matrices of columns, as columns with repetitions -/
def prodCol (c d : List (List Nat)) (j : Nat) : List Nat := (d.getD j []).flatMap fun k => c.getD k []

/-- the two matrices are inverse to each other on one side -/
def inverseB (c d : List (List Nat)) : Bool :=
  d.length == 16 && (List.range 16).all fun j => (prodCol c d j).all (· < 16) &&
    (List.range 16).all fun k => decide ((prodCol c d j).count k % 2 = 1) == decide (k = j)

theorem mulCols_inverse (c d : List (List Nat)) (h : inverseB c d = true) (s : List U32) (hs : s.length = 16) : mulCols d (mulCols c s) = s := by
  unfold inverseB at h
  rw [Bool.and_eq_true, beq_iff_eq, List.all_eq_true] at h
  apply ext_word _ _ (by simp [mulCols, h.1]) hs
  intro j hj
  have h1 := h.2 j (List.mem_range.mpr hj)
  rw [Bool.and_eq_true, List.all_eq_true, List.all_eq_true] at h1
  rw [word_mulCols, show (word (mulCols c s)) = fun k => xorAll ((c.getD k []).map (word s)) from funext (word_mulCols c s), xorAll_flatMap]
  show xorAll ((prodCol c d j).map (word s)) = word s j
  rw [xorAll_count _ _ (fun x hx => by simpa using h1.1 x hx)]
  refine Eq.trans (congrArg xorAll (List.map_congr_left fun k hk => ?_)) (xorAll_single (word s) 16 j hj)
  have h2 := h1.2 k hk
  rw [beq_iff_eq, decide_eq_decide] at h2
  by_cases hkj : k = j
  · rw [if_pos (h2.mpr hkj), if_pos hkj]
  · rw [if_neg (fun hh => hkj (h2.mp hh)), if_neg hkj]

theorem matrix_bij : Bij matrix := by
  refine ⟨mulCols inverseColumns, fun s hs => ⟨matrix_length s, by simp [mulCols, inverseColumns], ?_, ?_⟩⟩
  · exact mulCols_inverse columns inverseColumns (by decide +kernel) s hs
  · exact mulCols_inverse inverseColumns columns (by decide +kernel) s hs

/-! ## the circulant step -/

theorem rot_bit (x : U32) (r i : Nat) (hi : i < 32) : (x.rotateLeft r).getLsbD i = x.getLsbD ((i + 32 - r % 32) % 32) := by
  rw [BitVec.getLsbD_rotateLeft, Bool.cond_decide]
  by_cases h : i < r % 32
  · rw [if_pos h]; congr 1; omega
  · rw [if_neg h]; simp only [hi, decide_true, Bool.true_and]; congr 1; omega

theorem rot_rot (x : U32) (a b : Nat) : (x.rotateLeft a).rotateLeft b = x.rotateLeft (a + b) := by
  apply BitVec.eq_of_getLsbD_eq
  intro i hi
  rw [rot_bit _ _ _ hi, rot_bit _ _ _ (by omega), rot_bit _ _ _ hi]
  congr 1; omega

theorem rot_xor_distrib (x y : U32) (a : Nat) : (x ^^^ y).rotateLeft a = x.rotateLeft a ^^^ y.rotateLeft a := by
  apply BitVec.eq_of_getLsbD_eq
  intro i hi
  rw [rot_bit _ _ _ hi, BitVec.getLsbD_xor, BitVec.getLsbD_xor, rot_bit _ _ _ hi, rot_bit _ _ _ hi]

theorem rot_32 (x : U32) (a : Nat) : x.rotateLeft (a * 32) = x := by
  apply BitVec.eq_of_getLsbD_eq
  intro i hi
  rw [rot_bit _ _ _ hi]
  congr 1; omega

/-- multiplication of one word by a circulant matrix with three ones per row -/
def circ (a b : Nat) (x : U32) : U32 := x ^^^ x.rotateLeft a ^^^ x.rotateLeft b

theorem circ_sq (a b : Nat) (x : U32) : circ a b (circ a b x) = circ (a * 2) (b * 2) x := by
  simp only [circ, rot_xor_distrib, rot_rot]
  rw [← Nat.mul_two, ← Nat.mul_two, Nat.add_comm b a]
  generalize x.rotateLeft a = p
  generalize x.rotateLeft b = q
  generalize x.rotateLeft (a + b) = r
  generalize x.rotateLeft (a * 2) = u
  generalize x.rotateLeft (b * 2) = v
  apply BitVec.eq_of_getLsbD_eq
  intro i _
  simp only [BitVec.getLsbD_xor]
  cases x.getLsbD i <;> cases p.getLsbD i <;> cases q.getLsbD i <;> cases r.getLsbD i <;> cases u.getLsbD i <;> cases v.getLsbD i <;> rfl

theorem circ_comm (a b c d : Nat) (x : U32) : circ a b (circ c d x) = circ c d (circ a b x) := by
  simp only [circ, rot_xor_distrib, rot_rot]
  rw [Nat.add_comm c a, Nat.add_comm c b, Nat.add_comm d a, Nat.add_comm d b]
  apply BitVec.eq_of_getLsbD_eq
  intro i _
  simp only [BitVec.getLsbD_xor]
  generalize x.getLsbD i = z
  generalize (x.rotateLeft a).getLsbD i = p
  generalize (x.rotateLeft b).getLsbD i = q
  generalize (x.rotateLeft c).getLsbD i = r
  generalize (x.rotateLeft d).getLsbD i = s
  generalize (x.rotateLeft (a + c)).getLsbD i = t
  generalize (x.rotateLeft (a + d)).getLsbD i = u
  generalize (x.rotateLeft (b + c)).getLsbD i = v
  generalize (x.rotateLeft (b + d)).getLsbD i = w
  revert z p q r s t u v w
  decide

/-- the inverse of `circ a b` -/
def uncirc (a b : Nat) (x : U32) : U32 :=
  circ (a * 16) (b * 16) (circ (a * 8) (b * 8) (circ (a * 4) (b * 4) (circ (a * 2) (b * 2) (circ a b x))))

theorem circ_32 (a b : Nat) (x : U32) : circ (a * 32) (b * 32) x = x := by
  rw [circ, rot_32, rot_32, BitVec.xor_self, BitVec.zero_xor]

theorem uncirc_circ (a b : Nat) (x : U32) : uncirc a b (circ a b x) = x := by
  unfold uncirc
  rw [circ_sq, circ_sq, Nat.mul_assoc a, Nat.mul_assoc b, circ_sq, Nat.mul_assoc a, Nat.mul_assoc b, circ_sq, Nat.mul_assoc a,
    Nat.mul_assoc b, circ_sq, Nat.mul_assoc a, Nat.mul_assoc b]
  exact circ_32 a b x

theorem circ_uncirc (a b : Nat) (x : U32) : circ a b (uncirc a b x) = x := by
  unfold uncirc
  rw [circ_comm a b, circ_comm a b, circ_comm a b, circ_comm a b]
  exact uncirc_circ a b x

/-- applying to each of sixteen words its own function -/
theorem pointwise_bij (F G : Nat → U32 → U32) (f : List U32 → List U32) (hl : ∀ s, s.length = 16 → (f s).length = 16)
    (hf : ∀ s, s.length = 16 → ∀ j < 16, word (f s) j = F j (word s j)) (h1 : ∀ j x, j < 16 → G j (F j x) = x) (h2 : ∀ j x, j < 16 → F j (G j x) = x) : Bij f := by
  refine ⟨fun s => (List.range 16).map fun j => G j (word s j), fun s hs => ⟨hl s hs, by simp, ?_, ?_⟩⟩
  · apply ext_word _ _ (by simp) hs
    intro j hj
    rw [word_map _ _ _ hj, hf s hs j hj, h1 j _ hj]
  · apply ext_word _ _ (hl _ (by simp)) hs
    intro j hj
    rw [hf _ (by simp) j hj, word_map _ _ _ hj, h2 j _ hj]

theorem circulant_bij : Bij circulant := by
  apply pointwise_bij (fun j => circ (rotations.getD j (0, 0)).1 (rotations.getD j (0, 0)).2)
    (fun j => uncirc (rotations.getD j (0, 0)).1 (rotations.getD j (0, 0)).2) circulant
    (fun s _ => circulant_length s)
  · intro s hs j hj
    rw [word_get _ j (by rw [circulant_length]; exact hj)]
    have hr : j < rotations.length := by rw [coefficients_eq.2.1]; exact hj
    simp only [circulant, List.getElem_mapIdx]
    rw [show rotations.getD j (0, 0) = rotations[j] by
      rw [List.getD_eq_getElem?_getD, List.getElem?_eq_getElem hr]; rfl]
    rfl
  · intro j x _; exact uncirc_circ _ _ x
  · intro j x _; exact circ_uncirc _ _ x

theorem inject_bij (i : Nat) : Bij (inject i) := by
  apply pointwise_bij (fun j x => x ^^^ constants.getD (16 * i + j) 0) (fun j x => x ^^^ constants.getD (16 * i + j) 0) (inject i)
    (fun s _ => inject_length i s)
  · intro s hs j hj
    exact word_map _ _ _ hj
  · intro j x _
    show (x ^^^ _) ^^^ _ = x
    rw [BitVec.xor_assoc, BitVec.xor_self, BitVec.xor_zero]
  · intro j x _
    show (x ^^^ _) ^^^ _ = x
    rw [BitVec.xor_assoc, BitVec.xor_self, BitVec.xor_zero]

/-! ## addition, rotation, addition -/

/-- the inverse of the addition-rotation-addition step -/
def unara (s : List U32) : List U32 :=
  (List.range 16).map fun j =>
    if j % 2 = 0 then (word s j).rotateLeft 24 - (word s (j + 1) - word s j).rotateLeft 8
    else (word s j - word s (j - 1)).rotateLeft 8

theorem word_ara (s : List U32) (j : Nat) (hj : j < 16) : word (ara s) j = araWord s j := by rw [ara_eq, word_map _ _ _ hj]

theorem ara_bij : Bij ara := by
  have back1 : ∀ x : U32, (x.rotateLeft 8).rotateLeft 24 = x := fun x => by rw [rot_rot]; exact rot_32 x 1
  have back2 : ∀ x : U32, (x.rotateLeft 24).rotateLeft 8 = x := fun x => by rw [rot_rot]; exact rot_32 x 1
  have wu : ∀ (s : List U32) (j : Nat), j < 16 → word (unara s) j =
    if j % 2 = 0 then (word s j).rotateLeft 24 - (word s (j + 1) - word s j).rotateLeft 8
    else (word s j - word s (j - 1)).rotateLeft 8 := fun s j hj => word_map _ _ _ hj
  have sub1 : ∀ a b : U32, a + b - a = b := fun a b => by rw [BitVec.add_comm, BitVec.add_sub_cancel]
  have sub2 : ∀ a b : U32, a + (b - a) = b := fun a b => by rw [BitVec.add_comm, BitVec.sub_add_cancel]
  refine ⟨unara, fun s hs => ⟨ara_length s, by simp [unara], ?_, ?_⟩⟩
  · apply ext_word _ _ (by simp [unara]) hs
    intro j hj
    rw [wu _ j hj]
    by_cases h : j % 2 = 0
    · rw [if_pos h, word_ara s j hj, word_ara s (j + 1) (by omega), araWord, araWord, if_pos h, if_neg (by omega), Nat.add_sub_cancel,
        back1, sub1, back2, BitVec.add_sub_cancel]
    · rw [if_neg h, word_ara s j hj, word_ara s (j - 1) (by omega), araWord, araWord, if_neg h, if_pos (by omega),
        show j - 1 + 1 = j by omega, sub1, back2]
  · apply ext_word _ _ (ara_length _) hs
    intro j hj
    rw [word_ara _ j hj, araWord]
    by_cases h : j % 2 = 0
    · rw [if_pos h, wu s j hj, wu s (j + 1) (by omega), if_pos h, if_neg (by omega), Nat.add_sub_cancel, BitVec.sub_add_cancel, back2]
    · rw [if_neg h, wu s j hj, wu s (j - 1) (by omega), if_neg h, if_pos (by omega), show j - 1 + 1 = j by omega, BitVec.sub_add_cancel, back2,
        back1, sub2]

theorem round_bij (i : Nat) : Bij (round i) := ara_bij.comp ((inject_bij i).comp (circulant_bij.comp matrix_bij))

theorem permutation_bij (n : Nat) : Bij (permutation n) := by
  induction n with
  | zero => exact ⟨id, fun s hs => ⟨hs, hs, rfl, rfl⟩⟩
  | succ n ih => exact (round_bij n).comp ih

end Verif.Eaglesong
