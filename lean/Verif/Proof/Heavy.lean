import Verif.Go.Prelude
import Verif.Go.Bytes
import Verif.Go.Update
import Verif.Model.Heavy
import Verif.Spec.Heavy
import Verif.Proof.SpecBytes
import Verif.Proof.Beam

/-! # HeavyHash: generator, matrix drawing, product, digest -/

set_option autoImplicit false

namespace Verif.Heavy

open Go Spec Spec.Heavy

/-! ### xoshiro256++ -/

theorem rotl_eq (a b : U64) (n : Nat) (hb : b.toNat = n % 64) : rotl a b = a.rotateLeft n := Beam.rotl_eq a b n hb

def Xoshiro.toSpec (h : Xoshiro) : XState := ⟨h.s0, h.s1, h.s2, h.s3⟩

theorem next_state (h : Xoshiro) : h.next.1.toSpec = h.toSpec.step := by
  have e0 : h.s0 ^^^ (h.s3 ^^^ h.s1) = h.s0 ^^^ h.s1 ^^^ h.s3 := by rw [BitVec.xor_comm h.s3, BitVec.xor_assoc]
  have e1 : h.s1 ^^^ (h.s2 ^^^ h.s0) = h.s0 ^^^ h.s1 ^^^ h.s2 := by
    rw [BitVec.xor_comm h.s2, ← BitVec.xor_assoc, BitVec.xor_comm h.s1]
  have e2 : h.s2 ^^^ h.s0 ^^^ h.s1 <<< 17 = h.s0 ^^^ h.s2 ^^^ h.s1 <<< 17 := by rw [BitVec.xor_comm h.s2]
  have e3 : rotl (h.s3 ^^^ h.s1) 45 = (h.s1 ^^^ h.s3).rotateLeft 45 := by rw [rotl_eq _ 45 45 rfl, BitVec.xor_comm h.s3]
  show (⟨h.s0 ^^^ (h.s3 ^^^ h.s1), h.s1 ^^^ (h.s2 ^^^ h.s0), h.s2 ^^^ h.s0 ^^^ h.s1 <<< 17, rotl (h.s3 ^^^ h.s1) 45⟩ : XState) =
    ⟨h.s0 ^^^ h.s1 ^^^ h.s3, h.s0 ^^^ h.s1 ^^^ h.s2, h.s0 ^^^ h.s2 ^^^ h.s1 <<< 17, (h.s1 ^^^ h.s3).rotateLeft 45⟩
  rw [e0, e1, e2, e3]

theorem next_out (h : Xoshiro) : h.next.2 = h.toSpec.out := by
  simp only [Xoshiro.next, Xoshiro.toSpec, XState.out, rotl_eq _ 23 23 rfl]

/-- the generator after `n` calls -/
def Xoshiro.iter (h : Xoshiro) : Nat → Xoshiro
  | 0 => h
  | n + 1 => (h.iter n).next.1

theorem iter_spec (h : Xoshiro) (n : Nat) : (h.iter n).toSpec = h.toSpec.after n := by
  induction n with
  | zero => rfl
  | succ n ih => rw [Xoshiro.iter, next_state, ih]; rfl

theorem iter_out (h : Xoshiro) (n : Nat) : (h.iter n).next.2 = h.toSpec.word n := by
  rw [next_out, iter_spec]; rfl

/-! ### drawing a matrix -/

/-- nibble `k` of a word as the code extracts it -/
def nib (value : U64) (k : Nat) : U16 := ((value >>> (4 * k)) &&& 0x0f).setWidth 16

theorem nib_toNat (value : U64) (k : Nat) : (nib value k).toNat = value.toNat / 16 ^ k % 16 := by
  unfold nib
  rw [BitVec.toNat_setWidth, BitVec.toNat_and, BitVec.toNat_ushiftRight, Nat.shiftRight_eq_div_pow,
    show (0x0f : U64).toNat = 2 ^ 4 - 1 from rfl, Nat.and_two_pow_sub_one_eq_mod, Nat.pow_mul]
  norm_num
  omega

theorem nibbleLoop (value : U64) (q : Nat) (hq : q < 4) (row : List U16) (hl : row.length = 64) :
    ∃ m, forRange 0 iterations row (nibbleStep value (iterations * q)) = .ok m ∧ m.length = 64 ∧
      ∀ j, m[j]? = if 16 * q ≤ j ∧ j < 16 * q + 16 then some (nib value (j - 16 * q)) else row[j]? := by
  obtain ⟨m, e, h1, h2⟩ := forRange_inv (f := nibbleStep value (iterations * q))
    (fun k m => m.length = 64 ∧ ∀ j, m[j]? = if 16 * q ≤ j ∧ j < 16 * q + k then some (nib value (j - 16 * q)) else row[j]?)
    0 16 row (by omega) ⟨hl, by intro j; rw [if_neg (by omega)]⟩ (by
      rintro k m _ hk ⟨hm, hj⟩
      have hit : iterations * q + k = 16 * q + k := by simp [iterations, size]
      refine ⟨m.set (16 * q + k) (nib value k), ?_, by simpa using hm, ?_⟩
      · unfold nibbleStep
        rw [hit, upd_ok _ _ _ (by omega)]; rfl
      · intro j
        by_cases h : 16 * q + k = j
        · subst h
          rw [List.getElem?_set_self (by omega), if_pos (by omega)]
          congr 2; omega
        · rw [List.getElem?_set_ne h, hj j]
          by_cases h' : 16 * q ≤ j ∧ j < 16 * q + k
          · rw [if_pos h', if_pos (by omega)]
          · rw [if_neg h', if_neg (by omega)])
  exact ⟨m, e, h1, h2⟩

theorem wordLoop (h : Xoshiro) (row : List U16) (hl : row.length = 64) :
    forRange 0 (size / iterations) (row, h) wordStep =
      .ok ((List.range 64).map fun j => nib (h.toSpec.word (j / 16)) (j % 16), h.iter 4) := by
  obtain ⟨⟨m, g⟩, e, h1, h2, h3⟩ := forRange_inv (f := wordStep)
    (fun q s => s.1.length = 64 ∧ s.2 = h.iter q ∧ ∀ j < 16 * q, s.1[j]? = some (nib (h.toSpec.word (j / 16)) (j % 16)))
    0 4 (row, h) (by omega) ⟨hl, rfl, by intros; omega⟩ (by
      rintro q ⟨m, g⟩ _ hq ⟨hm, hg, hj⟩
      dsimp only at hm hg hj
      obtain ⟨m', e, h1, h2⟩ := nibbleLoop g.next.2 q hq m hm
      refine ⟨(m', g.next.1), ?_, h1, by rw [hg]; rfl, ?_⟩
      · unfold wordStep
        dsimp only
        rw [e, ok_bind]; rfl
      · intro j hjq
        dsimp only
        rw [h2 j]
        by_cases hc : 16 * q ≤ j
        · rw [if_pos (by omega), hg, iter_out, show j / 16 = q by omega, show j - 16 * q = j % 16 by omega]
        · rw [if_neg (by omega)]
          exact hj j (by omega))
  dsimp only at h1 h2 h3
  rw [show size / iterations = 4 from rfl, e, h2]
  refine congrArg Except.ok (Prod.ext_iff.2 ⟨?_, rfl⟩)
  apply List.ext_getElem?
  intro j
  by_cases hj : j < 64
  · rw [h3 j (by omega), List.getElem?_map, List.getElem?_range hj]; rfl
  · rw [List.getElem?_eq_none (by dsimp only; omega), List.getElem?_eq_none (by simpa using hj)]

theorem after_add (s : XState) (m n : Nat) : (s.after m).after n = s.after (m + n) := by
  induction n with
  | zero => rfl
  | succ n ih => show ((s.after m).after n).step = (s.after (m + n)).step; rw [ih]

theorem word_add (s : XState) (m n : Nat) : (s.after m).word n = s.word (m + n) := by
  unfold XState.word; rw [after_add]

theorem iter_add (h : Xoshiro) (m n : Nat) : (h.iter m).iter n = h.iter (m + n) := by
  induction n with
  | zero => rfl
  | succ n ih => show ((h.iter m).iter n).next.1 = (h.iter (m + n)).next.1; rw [ih]

theorem nib_entry (s : XState) (t i j : Nat) :
    nib (s.word (256 * t + 4 * i + j / 16)) (j % 16) = BitVec.ofNat 16 (entry s t i j) := by
  apply BitVec.eq_of_toNat_eq
  rw [nib_toNat, BitVec.toNat_ofNat]
  unfold entry
  omega

/-- a list of 64 rows of 64 entries -/
def Square {α : Type} (c : List (List α)) : Prop := c.length = 64 ∧ ∀ r ∈ c, r.length = 64

theorem candidate_square (s : XState) (t : Nat) : Square (candidate s t) := by
  refine ⟨by simp [candidate], fun r hr => ?_⟩
  simp only [candidate, List.mem_map] at hr
  obtain ⟨i, _, rfl⟩ := hr
  simp

theorem drawLoop (h : Xoshiro) (t : Nat) (mat : List (List U16)) (hm : Square mat) :
    forRange 0 size (mat, h.iter (256 * t)) rowStep = .ok (candidate h.toSpec t, h.iter (256 * (t + 1))) := by
  obtain ⟨⟨m, g⟩, e, h1, h2, h3, h4⟩ := forRange_inv (f := rowStep)
    (fun i s => s.1.length = 64 ∧ (∀ r ∈ s.1, r.length = 64) ∧ s.2 = h.iter (256 * t + 4 * i) ∧
      ∀ k < i, s.1[k]? = some ((List.range 64).map fun j => BitVec.ofNat 16 (entry h.toSpec t k j)))
    0 64 (mat, h.iter (256 * t)) (by omega) ⟨hm.1, hm.2, rfl, by intros; omega⟩ (by
      rintro i ⟨m, g⟩ _ hi ⟨hl, hr, hg, hk⟩
      dsimp only at hl hr hg hk
      have hrow : (m[i]).length = 64 := hr _ (List.getElem_mem _)
      have hrow' : ((List.range 64).map fun j => nib (g.toSpec.word (j / 16)) (j % 16)) =
          (List.range 64).map fun j => BitVec.ofNat 16 (entry h.toSpec t i j) := by
        apply List.map_congr_left
        intro j _
        rw [hg, iter_spec, word_add, nib_entry]
      refine ⟨(m.set i ((List.range 64).map fun j => BitVec.ofNat 16 (entry h.toSpec t i j)), g.iter 4), ?_, ?_, ?_, ?_, ?_⟩
      · unfold rowStep
        dsimp only
        rw [idx_ok _ _ (by omega), ok_bind, wordLoop g _ hrow, ok_bind]
        dsimp only
        rw [upd_ok _ _ _ (by omega), ok_bind, hrow']; rfl
      · simpa using hl
      · intro r hr'
        rcases List.mem_or_eq_of_mem_set hr' with h | rfl
        · exact hr r h
        · simp
      · rw [hg, iter_add]; rfl
      · intro k hki
        dsimp only
        by_cases h : i = k
        · subst h; rw [List.getElem?_set_self (by omega)]
        · rw [List.getElem?_set_ne h]; exact hk k (by omega))
  dsimp only at h1 h2 h3 h4
  rw [show size = 64 from rfl, e, h3]
  refine congrArg Except.ok (Prod.ext_iff.2 ⟨?_, by dsimp only; congr 1⟩)
  apply List.ext_getElem?
  intro j
  by_cases hj : j < 64
  · rw [h4 j hj]; unfold candidate; rw [List.getElem?_map, List.getElem?_range hj]; rfl
  · rw [List.getElem?_eq_none (by dsimp only; omega), List.getElem?_eq_none (by rw [(candidate_square _ _).1]; omega)]

/-! ### the rank routine returns, whatever the arithmetic -/

section Total
variable {F : Type} (N : Num F)

theorem divLoop_total (i : Nat) (hi : i < 64) (row : List F) (hl : row.length = 64) :
    ∃ r, forRange (i + 1) size row (divStep N i) = .ok r ∧ r.length = 64 := by
  apply forRange_inv (f := divStep N i) (fun _ r => r.length = 64) (i + 1) 64 row (by omega) hl
  intro k r _ hk hr
  unfold divStep
  rw [idx_ok _ _ (by omega), ok_bind, idx_ok _ _ (by omega), ok_bind, upd_ok _ _ _ (by omega)]
  exact ⟨_, rfl, by simpa using hr⟩

theorem subLoop_total (i : Nat) (hi : i < 64) (pivot row : List F) (hp : pivot.length = 64) (hl : row.length = 64) :
    ∃ r, forRange (i + 1) size row (subStep N pivot i) = .ok r ∧ r.length = 64 := by
  apply forRange_inv (f := subStep N pivot i) (fun _ r => r.length = 64) (i + 1) 64 row (by omega) hl
  intro k r _ hk hr
  unfold subStep
  rw [idx_ok _ _ (by omega), ok_bind, idx_ok _ _ (by omega), ok_bind, idx_ok _ _ (by omega), ok_bind, upd_ok _ _ _ (by omega)]
  exact ⟨_, rfl, by simpa using hr⟩

theorem square_set {α : Type} {c : List (List α)} (hc : Square c) (k : Nat) (r : List α) (hr : r.length = 64) : Square (c.set k r) := by
  refine ⟨by simpa using hc.1, fun x hx => ?_⟩
  rcases List.mem_or_eq_of_mem_set hx with h | rfl
  · exact hc.2 x h
  · exact hr

theorem elimLoop_total (i j : Nat) (hi : i < 64) (hj : j < 64) (c : List (List F)) (hc : Square c) :
    ∃ c', forRange 0 size c (elimStep N i j) = .ok c' ∧ Square c' := by
  apply forRange_inv (f := elimStep N i j) (fun _ c => Square c) 0 64 c (by omega) hc
  intro k c _ hk hc
  have hck : k < c.length := by rw [hc.1]; exact hk
  have hcj : j < c.length := by rw [hc.1]; exact hj
  have hkl : (c[k]).length = 64 := hc.2 _ (List.getElem_mem _)
  have hjl : (c[j]).length = 64 := hc.2 _ (List.getElem_mem _)
  unfold elimStep
  by_cases h1 : k = j
  · rw [if_pos h1]; exact ⟨c, rfl, hc⟩
  · rw [if_neg h1, idx_ok _ _ hck, ok_bind, idx_ok _ _ (by omega), ok_bind]
    by_cases h2 : N.small (c[k])[i] = true
    · rw [if_pos h2]; exact ⟨c, rfl, hc⟩
    · obtain ⟨r, e, hr⟩ := subLoop_total N i hi c[j] c[k] hjl hkl
      rw [if_neg h2, idx_ok _ _ hcj, ok_bind, e, ok_bind, upd_ok _ _ _ hck]
      exact ⟨_, rfl, square_set hc k r hr⟩

theorem findPivot_total (c : List (List F)) (sel : List Bool) (i : Nat) (hi : i < 64) (hc : Square c) (hs : sel.length = 64) :
    (findPivot N c sel i = .ok 64 ∧ ∀ j (_ : j < 64), ((sel.getD j false) = true ∨ N.big ((c[j]'(by rw [hc.1]; omega))[i]'(by
      rw [hc.2 _ (List.getElem_mem _)]; omega)) = false)) ∨
    ∃ j, ∃ h : j < 64, findPivot N c sel i = .ok j ∧ N.big ((c[j]'(by rw [hc.1]; omega))[i]'(by
      rw [hc.2 _ (List.getElem_mem _)]; omega)) = true := by
  have key := forRangeE_inv (f := pivotStep N c sel i)
    (fun b _ => ∀ j (_ : j < 64), j < b → ((sel.getD j false) = true ∨ N.big ((c[j]'(by rw [hc.1]; omega))[i]'(by
      rw [hc.2 _ (List.getElem_mem _)]; omega)) = false))
    (fun j => ∃ h : j < 64, N.big ((c[j]'(by rw [hc.1]; omega))[i]'(by
      rw [hc.2 _ (List.getElem_mem _)]; omega)) = true) 0 64 () (by omega) (by intros; omega) (by
      intro j _ _ hj hI
      have hcj : j < c.length := by rw [hc.1]; exact hj
      have hrl : (c[j]).length = 64 := hc.2 _ (List.getElem_mem _)
      have hsl : sel.getD j false = sel[j] := by simp [List.getD_eq_getElem?_getD, List.getElem?_eq_getElem (show j < sel.length by omega)]
      unfold pivotStep
      rw [idx_ok _ _ (by omega), ok_bind, idx_ok _ _ hcj, ok_bind, idx_ok _ _ (by omega), ok_bind]
      by_cases h1 : (!sel[j] && N.big (c[j])[i]) = true
      · rw [if_pos h1]
        exact Or.inr ⟨j, rfl, hj, (Bool.and_eq_true_iff.1 h1).2⟩
      · rw [if_neg h1]
        refine Or.inl ⟨(), rfl, fun j' hj' hlt => ?_⟩
        by_cases h2 : j' = j
        · subst h2
          rw [hsl]
          cases hb : sel[j'] with
          | true => left; rfl
          | false =>
            right
            rw [hb] at h1
            simpa using h1
        · exact hI j' hj' (by omega))
  unfold findPivot
  rcases key with ⟨s, e, h⟩ | ⟨b, e, h⟩
  · left
    refine ⟨?_, fun j hj => h j hj hj⟩
    rw [show size = 64 from rfl, e, ok_bind]; rfl
  · right
    refine ⟨b, h.1, ?_, h.2⟩
    rw [show size = 64 from rfl, e, ok_bind]; rfl

theorem rankStep_total (i : Nat) (hi : i < 64) (s : RankState F) (hc : Square s.copied) (hs : s.rowsSelected.length = 64) :
    ∃ s', rankStep N i s = .ok s' ∧ Square s'.copied ∧ s'.rowsSelected.length = 64 := by
  obtain ⟨c, r, sel⟩ := s
  dsimp only at hc hs ⊢
  unfold rankStep
  dsimp only
  rcases findPivot_total N c sel i hi hc hs with ⟨e, -⟩ | ⟨j, hj, e, -⟩
  · rw [e, ok_bind, if_neg (by simp [size])]
    exact ⟨_, rfl, hc, hs⟩
  · have hcj : j < c.length := by rw [hc.1]; exact hj
    obtain ⟨r1, e1, h1⟩ := divLoop_total N i hi c[j] (hc.2 _ (List.getElem_mem _))
    obtain ⟨c2, e2, h2⟩ := elimLoop_total N i j hi hj _ (square_set hc j r1 h1)
    rw [e, ok_bind, if_pos (by rw [size]; omega), upd_ok _ _ _ (by omega), ok_bind, idx_ok _ _ hcj, ok_bind, e1, ok_bind,
      upd_ok _ _ _ hcj, ok_bind, e2, ok_bind]
    exact ⟨_, rfl, h2, by simpa using hs⟩

theorem calculateRank_total (mat : List (List U16)) (h : Square mat) : ∃ r, calculateRank N mat = .ok r := by
  have hc : Square (mat.map fun row => row.map N.ofU16) := by
    refine ⟨by simpa using h.1, fun r hr => ?_⟩
    obtain ⟨r', hr', rfl⟩ := List.mem_map.1 hr
    simpa using h.2 r' hr'
  obtain ⟨s, e, -, -⟩ := forRange_inv (f := rankStep N) (fun _ s => Square s.copied ∧ s.rowsSelected.length = 64) 0 64
    { copied := mat.map fun row => row.map N.ofU16, rank := 0, rowsSelected := List.replicate size false } (by omega)
    ⟨hc, by simp [size]⟩ (by
      rintro i s _ hi ⟨h1, h2⟩
      exact rankStep_total N i hi s h1 h2)
  unfold calculateRank
  dsimp only
  rw [show size = 64 from rfl] at *
  rw [e, ok_bind]
  exact ⟨_, rfl⟩

/-- the zero matrix -/
def zeroMat : List (List U16) := List.replicate 64 (List.replicate 64 0)

theorem zeroMat_square : Square zeroMat := by
  refine ⟨by simp [zeroMat], fun r hr => ?_⟩
  rw [List.eq_of_mem_replicate hr]; simp

theorem rank_zeroMat (hz : N.big (N.ofU16 0) = false) : calculateRank N zeroMat = .ok 0 := by
  have hc : Square (zeroMat.map fun row => row.map N.ofU16) := by
    refine ⟨by simp [zeroMat], fun r hr => ?_⟩
    obtain ⟨r', hr', rfl⟩ := List.mem_map.1 hr
    simpa using zeroMat_square.2 r' hr'
  obtain ⟨s, e, h⟩ := forRange_inv (f := rankStep N)
    (fun _ s => s = { copied := zeroMat.map fun row => row.map N.ofU16, rank := 0, rowsSelected := List.replicate 64 false }) 0 64
    { copied := zeroMat.map fun row => row.map N.ofU16, rank := 0, rowsSelected := List.replicate 64 false } (by omega) rfl (by
      rintro i s _ hi rfl
      refine ⟨_, ?_, rfl⟩
      unfold rankStep
      dsimp only
      rcases findPivot_total N _ (List.replicate 64 false) i hi hc (by simp) with ⟨e, -⟩ | ⟨j, hj, e, hb⟩
      · rw [e, ok_bind, if_neg (by simp [size])]; rfl
      · exfalso
        simp only [zeroMat, List.getElem_replicate, List.getElem_map] at hb
        rw [hz] at hb
        exact absurd hb (by simp))
  unfold calculateRank
  dsimp only
  rw [show size = 64 from rfl] at *
  rw [e, ok_bind, h]; rfl

end Total

/-! ### the matrix loop -/

section Matrix
variable {F : Type} (N : Num F)

/-- the loop state before evaluation number `k` of the condition -/
def loopState (h : Xoshiro) : Nat → List (List U16) × Xoshiro
  | 0 => (zeroMat, h)
  | t + 1 => (candidate h.toSpec t, h.iter (256 * (t + 1)))

theorem loopState_square (h : Xoshiro) (k : Nat) : Square (loopState h k).1 := by
  cases k with
  | zero => exact zeroMat_square
  | succ t => exact candidate_square _ _

theorem loopState_snd (h : Xoshiro) (k : Nat) : (loopState h k).2 = h.iter (256 * k) := by
  cases k <;> rfl

theorem newMatrix_cases (hz : N.big (N.ofU16 0) = false) (fuel : Nat) (s0 s1 s2 s3 : U64) :
    (∃ t, t + 1 < fuel ∧ calculateRank N (candidate ⟨s0, s1, s2, s3⟩ t) = .ok 64 ∧
      (∀ t' < t, calculateRank N (candidate ⟨s0, s1, s2, s3⟩ t') ≠ .ok 64) ∧
      newMatrix N fuel s0 s1 s2 s3 = .ok (candidate ⟨s0, s1, s2, s3⟩ t)) ∨
    ((∀ t, t + 1 < fuel → calculateRank N (candidate ⟨s0, s1, s2, s3⟩ t) ≠ .ok 64) ∧
      newMatrix N fuel s0 s1 s2 s3 = .error .fuel) := by
  obtain ⟨h, hh⟩ : ∃ h, h = newXoshiro s0 s1 s2 s3 := ⟨_, rfl⟩
  have hs : h.toSpec = ⟨s0, s1, s2, s3⟩ := by rw [hh]; rfl
  have key := forever_seq (f := matrixStep N) (loopState h) (fun k => (loopState h k).1)
    (fun k => calculateRank N (loopState h k).1 = .ok 64) (by
      intro k hk
      obtain ⟨r, hr⟩ := calculateRank_total N _ (loopState_square h k)
      have hr64 : r ≠ size := by rintro rfl; exact hk hr
      unfold matrixStep
      rw [hr, ok_bind, if_pos hr64, show loopState h k = ((loopState h k).1, h.iter (256 * k)) by rw [← loopState_snd],
        drawLoop h k _ (loopState_square h k), ok_bind]
      rfl) (by
      intro k hk
      unfold matrixStep
      rw [hk, ok_bind, if_neg (by simp [size])]; rfl) fuel 0
  have hnm : newMatrix N fuel s0 s1 s2 s3 = forever fuel (loopState h 0) (matrixStep N) := by
    unfold newMatrix; rw [← hh]; rfl
  rw [hnm, ← hs]
  have h0 : ¬ calculateRank N (loopState h 0).1 = .ok 64 := by
    show ¬ calculateRank N zeroMat = .ok 64
    rw [rank_zeroMat N hz]; simp
  rcases key with ⟨t, _, h2, h3, h4, h5⟩ | ⟨h1, h2⟩
  · left
    cases t with
    | zero => exact absurd h3 h0
    | succ t => exact ⟨t, by omega, h3, fun t' ht' => h4 (t' + 1) (by omega) (by omega), h5⟩
  · right
    exact ⟨fun t ht => h1 (t + 1) (by omega) (by omega), h2⟩

end Matrix

end Verif.Heavy
