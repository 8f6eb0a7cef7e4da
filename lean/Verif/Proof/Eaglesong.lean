import Verif.Go.Prelude
import Verif.Go.Update
import Verif.Go.Bytes
import Verif.Model.Eaglesong
import Verif.Spec.Eaglesong
import Verif.Proof.SpecBytes

/-! # Eaglesong: the code computes the specification -/

set_option autoImplicit false

namespace Verif.Eaglesong

open Go Spec Spec.Eaglesong

theorem word_get (s : List U32) (j : Nat) (h : j < s.length) : word s j = s[j] := by
  simp [word, List.getD_eq_getElem?_getD, List.getElem?_eq_getElem h]

theorem word_some (s : List U32) (j : Nat) (x : U32) (h : s[j]? = some x) : word s j = x := by
  simp [word, List.getD_eq_getElem?_getD, h]

theorem word_map (v : Nat → U32) (n j : Nat) (h : j < n) : word ((List.range n).map v) j = v j := by
  simp [word, List.getD_eq_getElem?_getD, h]

theorem xorAll_append (a b : List U32) : xorAll (a ++ b) = xorAll a ^^^ xorAll b := by
  induction a with
  | nil => simp [xorAll]
  | cons x a ih =>
    have h1 : xorAll (x :: a ++ b) = x ^^^ xorAll (a ++ b) := rfl
    have h2 : xorAll (x :: a) = x ^^^ xorAll a := rfl
    rw [h1, h2, ih, BitVec.xor_assoc]

theorem xorAll_filter (p : Nat → Bool) (f : Nat → U32) (l : List Nat) :
    xorAll ((l.filter p).map f) = xorAll (l.map fun k => if p k then f k else 0) := by
  induction l with
  | nil => rfl
  | cons x l ih =>
    have h2 : xorAll ((x :: l).map fun k => if p k then f k else 0) = (if p x then f x else 0) ^^^ xorAll (l.map fun k => if p k then f k else 0) := rfl
    rw [h2, ← ih]
    by_cases h : p x
    · rw [List.filter_cons_of_pos h, if_pos h]; rfl
    · rw [List.filter_cons_of_neg h, if_neg h, show (0 : U32) = 0#32 from rfl, BitVec.zero_xor]

theorem columns_eq : columns = (List.range 16).map fun j => (List.range 16).filter fun k => bitMatrix.getD (k * 16 + j) 0 == 1 := by
  decide +kernel

theorem bits_01_all : bitMatrix.all (fun x => x == 0 || x == 1) = true := by decide +kernel

theorem bits_01 (x : U32) (hx : x ∈ bitMatrix) : x = 0 ∨ x = 1 := by
  have h := List.all_eq_true.mp bits_01_all x hx
  rw [Bool.or_eq_true, beq_iff_eq, beq_iff_eq] at h
  exact h

theorem bitMatrix_length : bitMatrix.length = 256 := by decide +kernel

theorem constants_eq : injectionConstants = constants := by decide +kernel

theorem constants_length : constants.length = 688 := by decide +kernel

theorem coefficients_eq : coefficients.length = 48 ∧ rotations.length = 16 ∧
    ∀ j < 16, coefficients.getD (3 * j + 1) 0 = (rotations.getD j (0, 0)).1 ∧ coefficients.getD (3 * j + 2) 0 = (rotations.getD j (0, 0)).2 ∧
      0 < (rotations.getD j (0, 0)).1 ∧ (rotations.getD j (0, 0)).1 < 32 ∧ 0 < (rotations.getD j (0, 0)).2 ∧ (rotations.getD j (0, 0)).2 < 32 := by
  decide +kernel

attribute [local irreducible] bitMatrix coefficients injectionConstants constants

theorem mat_entry (s : List U32) (hs : s.length = 16) (j : Nat) (hj : j < 16) :
    forRange 0 16 (0 : U32) (matStep s j) = .ok (xorAll ((List.range 16).map fun k => if (bitMatrix.getD (k * 16 + j) 0 == 1) = true then word s k else 0)) := by
  obtain ⟨m, e, h⟩ := forRange_inv (f := matStep s j)
    (fun i acc => acc = xorAll ((List.range i).map fun k => if (bitMatrix.getD (k * 16 + j) 0 == 1) = true then word s k else 0)) 0 16 (0 : U32) (by omega) rfl (by
      rintro i acc _ hi rfl
      unfold matStep
      have hb := bitMatrix_length
      rw [idx_ok _ _ (by omega), ok_bind, idx_ok _ _ (by omega), ok_bind]
      refine ⟨_, rfl, ?_⟩
      rw [List.range_succ, List.map_append, xorAll_append]
      refine congrArg _ ?_
      have hg : bitMatrix.getD (i * 16 + j) 0 = bitMatrix[i * 16 + j]'(by omega) := by
        simp [List.getD_eq_getElem?_getD, List.getElem?_eq_getElem (show i * 16 + j < bitMatrix.length by omega)]
      have h01 := bits_01 _ (List.getElem_mem (l := bitMatrix) (n := i * 16 + j) (by omega))
      show _ = (if (bitMatrix.getD (i * 16 + j) 0 == 1) = true then word s i else 0) ^^^ 0#32
      rw [BitVec.xor_zero, hg, word_get s i (by omega)]
      rcases h01 with h | h
      · rw [h, if_neg (by decide)]; simp
      · rw [h, if_pos (by decide)]; simp)
  rw [e, h]

theorem matrix_length (s : List U32) : (matrix s).length = 16 := by simp [matrix, columns]

theorem matrix_eq (s : List U32) : matrix s = (List.range 16).map fun j => xorAll ((List.range 16).map fun k => if (bitMatrix.getD (k * 16 + j) 0 == 1) = true then word s k else 0) := by
  unfold matrix
  rw [columns_eq, List.map_map]
  apply List.map_congr_left
  intro j _
  exact xorAll_filter _ _ _

theorem temp_loop (s : List U32) (hs : s.length = 16) :
    forRange 0 16 (List.replicate 16 (0 : U32)) (tempStep s) = .ok (matrix s) := by
  rw [forRange_update (fun j _ => word (matrix s) j) 16 _ (by simp)]
  · refine congrArg Except.ok ?_
    apply List.ext_getElem (by simp [matrix_length])
    intro j h1 h2
    have : j < 16 := by simpa using h1
    rw [List.getElem_mapIdx, if_pos this, word_get _ _ h2]
  · intro i m x hi hm h1 h2
    have hx : x = 0 := by
      rw [List.getElem?_replicate, if_pos hi] at h2
      exact (Option.some.inj h2).symm
    have h16 : m.length = 16 := by simpa using hm
    have hmi : m[i] = 0 := by
      rw [List.getElem?_eq_getElem (by omega)] at h1
      rw [Option.some.inj h1, hx]
    unfold tempStep
    rw [idx_ok _ _ (by omega), ok_bind, hmi, mat_entry s hs i hi, ok_bind, upd_ok _ _ _ (by omega), matrix_eq, word_map _ _ _ hi]

theorem copy_loop (t s : List U32) (ht : t.length = 16) (hs : s.length = 16) : forRange 0 16 s (copyStep t) = .ok t := by
  rw [forRange_fill (fun j => word t j) 16 s hs]
  · refine congrArg Except.ok ?_
    apply List.ext_getElem (by simp [ht])
    intro j h1 h2
    simp [word_get _ _ h2]
  · intro i m hi hm _
    unfold copyStep
    rw [idx_ok _ _ (by omega), ok_bind, upd_ok _ _ _ (by omega), word_get t i (by omega)]

theorem rot_xor (x : U32) (c : Nat) (h : c < 32) : x <<< c ^^^ x >>> (32 - c) = x.rotateLeft c := by
  rw [BitVec.rotateLeft_eq_rotateLeftAux_of_lt h, BitVec.rotateLeftAux]
  apply BitVec.eq_of_getLsbD_eq
  intro i hi
  rw [BitVec.getLsbD_xor, BitVec.getLsbD_or, BitVec.getLsbD_shiftLeft, BitVec.getLsbD_ushiftRight]
  by_cases hc : i < c
  · simp [hc]
  · simp [hc, hi, BitVec.getLsbD_of_ge x (32 - c + i) (by omega)]

theorem circulant_length (s : List U32) : (circulant s).length = 16 := by simp [circulant, rotations]

theorem circ_loop (s : List U32) (hs : s.length = 16) : forRange 0 16 s circStep = .ok (circulant s) := by
  have hc := coefficients_eq
  rw [forRange_update (fun j x => x ^^^ x.rotateLeft (rotations.getD j (0, 0)).1 ^^^ x.rotateLeft (rotations.getD j (0, 0)).2) 16 s (by omega)]
  · refine congrArg Except.ok ?_
    apply List.ext_getElem (by simp [circulant_length, hs])
    intro j h1 h2
    have h1' : j < s.length := by simpa using h1
    have hj : j < 16 := by omega
    rw [circulant_length] at h2
    simp only [circulant, List.getElem_mapIdx]
    rw [if_pos hj, word_get s j h1']
    have : rotations.getD j (0, 0) = rotations[j]'(by rw [hc.2.1]; exact hj) := by
      rw [List.getD_eq_getElem?_getD, List.getElem?_eq_getElem]; rfl
    rw [this]
  · intro i m x hi hm h1 _
    obtain ⟨hcl, _, hall⟩ := hc
    obtain ⟨e1, e2, p1, l1, p2, l2⟩ := hall i hi
    have g1 : coefficients.getD (3 * i + 1) 0 = coefficients[3 * i + 1]'(by omega) := by
      rw [List.getD_eq_getElem?_getD, List.getElem?_eq_getElem (by omega)]; rfl
    have g2 : coefficients.getD (3 * i + 2) 0 = coefficients[3 * i + 2]'(by omega) := by
      rw [List.getD_eq_getElem?_getD, List.getElem?_eq_getElem (by omega)]; rfl
    have hx : m[i]'(by omega) = x := by
      rw [List.getElem?_eq_getElem (by omega)] at h1
      exact Option.some.inj h1
    unfold circStep
    rw [idx_ok m i (by omega), ok_bind, idx_ok _ _ (by omega), ok_bind, idx_ok _ _ (by omega), ok_bind]
    simp only [ok_bind]
    rw [upd_ok _ _ _ (by omega), hx, ← g1, ← g2, e1, e2, BitVec.xor_assoc (x ^^^ _ ^^^ _), BitVec.xor_assoc x, rot_xor x _ l1, rot_xor x _ l2]

theorem inject_length (i : Nat) (s : List U32) : (inject i s).length = 16 := by simp [inject]

theorem inject_loop (r : Nat) (hr : r < 43) (s : List U32) (hs : s.length = 16) : forRange 0 16 s (injectStep r) = .ok (inject r s) := by
  rw [forRange_update (fun j x => x ^^^ constants.getD (16 * r + j) 0) 16 s (by omega)]
  · refine congrArg Except.ok ?_
    apply List.ext_getElem (by simp [inject_length, hs])
    intro j h1 h2
    have h1' : j < s.length := by simpa using h1
    have hj : j < 16 := by omega
    simp only [inject, List.getElem_mapIdx, List.getElem_map, List.getElem_range]
    rw [if_pos hj, word_get s j h1']
  · intro i m x hi hm h1 _
    have hx : m[i]'(by omega) = x := by
      rw [List.getElem?_eq_getElem (by omega)] at h1
      exact Option.some.inj h1
    have hcl := constants_length
    unfold injectStep
    rw [constants_eq, idx_ok m i (by omega), ok_bind, idx_ok _ _ (by omega), ok_bind, upd_ok _ _ _ (by omega), hx]
    rw [show constants.getD (16 * r + i) 0 = constants[r * 16 + i]'(by omega) by
      rw [Nat.mul_comm 16 r, List.getD_eq_getElem?_getD, List.getElem?_eq_getElem (by omega)]; rfl]

/-- the two words of pair `q` after the addition-rotation-addition step -/
def araWord (s : List U32) (j : Nat) : U32 :=
  if j % 2 = 0 then (word s j + word s (j + 1)).rotateLeft 8
  else (word s (j - 1) + word s j).rotateLeft 8 + (word s j).rotateLeft 24

theorem ara_eq (s : List U32) : ara s = (List.range 16).map (araWord s) := by
  simp only [ara, List.range, List.range.loop, List.flatMap_cons, List.flatMap_nil, List.map_cons, List.map_nil]
  rfl

theorem ara_length (s : List U32) : (ara s).length = 16 := by simp [ara_eq]

theorem ara_loop (s : List U32) (hs : s.length = 16) : forRange 0 8 s araStep = .ok (ara s) := by
  obtain ⟨m, e, hl, hm⟩ := forRange_inv (f := araStep)
    (fun i m => m.length = 16 ∧ ∀ j < 16, m[j]? = some (if j < 2 * i then araWord s j else word s j)) 0 8 s (by omega)
    ⟨hs, by intro j hj; rw [if_neg (by omega), List.getElem?_eq_getElem (by omega), word_get s j (by omega)]⟩ (by
      rintro q m _ hq ⟨hl, hm⟩
      have a0 : m[2 * q]'(by omega) = word s (2 * q) := by
        have := hm (2 * q) (by omega)
        rw [if_neg (by omega), List.getElem?_eq_getElem (by omega)] at this
        exact Option.some.inj this
      have a1 : m[2 * q + 1]'(by omega) = word s (2 * q + 1) := by
        have := hm (2 * q + 1) (by omega)
        rw [if_neg (by omega), List.getElem?_eq_getElem (by omega)] at this
        exact Option.some.inj this
      have r8 : ∀ x : U32, x <<< 8 ^^^ x >>> 24 = x.rotateLeft 8 := fun x => rot_xor x 8 (by omega)
      have r24 : ∀ x : U32, x <<< 24 ^^^ x >>> 8 = x.rotateLeft 24 := fun x => rot_xor x 24 (by omega)
      unfold araStep
      simp only []
      rw [idx_ok m _ (by omega), ok_bind, idx_ok m _ (by omega), ok_bind, upd_ok _ _ _ (by omega), ok_bind,
        idx_ok _ _ (by simp; omega), ok_bind, upd_ok _ _ _ (by simp; omega), ok_bind,
        idx_ok _ _ (by simp; omega), ok_bind, upd_ok _ _ _ (by simp; omega), ok_bind,
        idx_ok _ _ (by simp; omega), ok_bind, idx_ok _ _ (by simp; omega), ok_bind, upd_ok _ _ _ (by simp; omega)]
      refine ⟨_, rfl, by simpa using hl, ?_⟩
      intro j hj
      simp only [List.getElem_set, List.getElem?_set, List.length_set, hl, a0, a1, r8, r24]
      by_cases c1 : 2 * q + 1 = j
      · subst c1
        rw [if_pos (show 2 * q + 1 < 2 * (q + 1) by omega)]
        simp [araWord, show 2 * q + 1 < 16 by omega, show (2 * q + 1) % 2 = 1 by omega]
      · by_cases c2 : 2 * q = j
        · subst c2
          rw [if_pos (show 2 * q < 2 * (q + 1) by omega)]
          simp [araWord, show 2 * q < 16 by omega]
        · rw [if_neg c1, if_neg c1, if_neg c2, if_neg c2, hm j hj]
          by_cases h : j < 2 * q
          · rw [if_pos h, if_pos (by omega)]
          · rw [if_neg h, if_neg (by omega)])
  rw [e, ara_eq]
  refine congrArg Except.ok ?_
  apply List.ext_getElem (by simp [hl])
  intro j h1 h2
  have := hm j (by omega)
  rw [if_pos (by omega), List.getElem?_eq_getElem h1] at this
  simpa using Option.some.inj this

theorem round_length (i : Nat) (s : List U32) : (round i s).length = 16 := ara_length _

theorem round_eq (i : Nat) (hi : i < 43) (s : List U32) (hs : s.length = 16) : roundStep i s = .ok (round i s) := by
  unfold roundStep
  rw [temp_loop s hs, ok_bind, copy_loop _ _ (matrix_length s) hs, ok_bind, circ_loop _ (matrix_length s), ok_bind,
    inject_loop i hi _ (circulant_length _), ok_bind, ara_loop _ (inject_length _ _)]
  rfl

theorem permutation_length (n : Nat) (s : List U32) (hs : s.length = 16) : (permutation n s).length = 16 := by
  cases n with
  | zero => exact hs
  | succ n => exact round_length _ _

theorem permute_eq (n : Nat) (hn : n ≤ 43) (s : List U32) (hs : s.length = 16) : permute n s = .ok (permutation n s) := by
  obtain ⟨m, e, h⟩ := forRange_inv (f := roundStep) (fun i m => m = permutation i s) 0 n s (by omega) rfl (by
    rintro i m _ hi rfl
    exact ⟨_, round_eq i (by omega) _ (permutation_length i s hs), rfl⟩)
  rw [permute, e, h]

end Verif.Eaglesong
