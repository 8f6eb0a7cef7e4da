import Verif.Proof.HeavyEval
import Mathlib.LinearAlgebra.Matrix.Rank
import Mathlib.LinearAlgebra.Matrix.NonsingularInverse
import Mathlib.Data.ZMod.Basic

/-! # A candidate matrix that has an inverse modulo a number is regular -/

set_option autoImplicit false

namespace Verif.Heavy.Eval

open Spec.Heavy Gf2

/-- `acc + r · c` for a row of codes -/
def dot (r : List Nat) : List Nat → Nat → Nat :=
  List.rec (fun _ acc => acc)
    (fun x _ ih c acc => List.rec acc (fun y c _ => force (Nat.add acc (Nat.mul (Nat.shiftRight x 62) y)) fun acc => ih c acc) c) r

/-- the products with the columns of the inverse are those of the unit matrix modulo `p` -/
def isInverse (p : Nat) (inverse rows : List (List Nat)) : Bool :=
  (List.range 64).all fun i => (List.range 64).all fun j => dot (rows.getD i []) (inverse.getD j []) 0 % p == if i = j then 1 else 0

theorem code_shift (x : Nat) : Nat.shiftRight (code x) 62 = x := by
  show (2 * (4096 * (x * 562949953421312) + 1025)) >>> 62 = x
  rw [Nat.shiftRight_eq_div_pow]
  omega

theorem dot_eq (l c : List Nat) (h : l.length = c.length) (acc : Nat) :
    dot (l.map code) c acc = acc + (List.zipWith (· * ·) l c).sum := by
  induction l generalizing c acc with
  | nil => simp [dot]
  | cons x l ih =>
    cases c with
    | nil => simp at h
    | cons y c =>
      show force (acc + Nat.shiftRight (code x) 62 * y) (fun acc => dot (l.map code) c acc) = _
      rw [force_eq, code_shift, ih c (by simpa using h), List.zipWith_cons_cons, List.sum_cons, Nat.add_assoc]

theorem zipWith_sum (f : Nat → Nat) (c : List Nat) (n : Nat) (hc : c.length = n) :
    (List.zipWith (· * ·) ((List.range n).map f) c).sum = ∑ k : Fin n, f k * c.getD k 0 := by
  have : List.zipWith (· * ·) ((List.range n).map f) c = List.ofFn fun k : Fin n => f k * c.getD k 0 := by
    apply List.ext_getElem
    · simp [hc]
    · intro i h1 h2
      have hi : i < c.length := by simp at h1; omega
      simp [List.getD_eq_getElem?_getD, hi]
  rw [this, List.sum_ofFn]

theorem exact_det (p : Nat) (hp : 1 < p) (inverse : List (List Nat)) (hlen : inverse.length = 64)
    (hlens : (inverse.all fun c => c.length == 64) = true) (w : Nat) (s : XState) (hs : Xoshiro.unpack w = s)
    (h : rowsOf 64 w (isInverse p inverse) = true) : (Matrix.of fun i j : Fin 64 => (entry s 0 i j : ℤ)).det ≠ 0 := by
  rw [rowsOf_eq s 64 0 w hs] at h
  unfold isInverse at h
  obtain ⟨Y, hY⟩ : ∃ Y : Matrix (Fin 64) (Fin 64) (ZMod p), Y = Matrix.of fun k j : Fin 64 => (((inverse.getD j []).getD k 0 : Nat) : ZMod p) := ⟨_, rfl⟩
  have hmul : (Matrix.of fun i j : Fin 64 => (entry s 0 i j : ℤ)).map (Int.castRingHom (ZMod p)) * Y = 1 := by
    ext i j
    have h1 := List.all_eq_true.1 (List.all_eq_true.1 h i.val (List.mem_range.2 i.isLt)) j.val (List.mem_range.2 j.isLt)
    have hlen : (inverse.getD j.val []).length = 64 := by
      have hj : j.val < inverse.length := by rw [hlen]; exact j.isLt
      rw [List.getD_eq_getElem?_getD, List.getElem?_eq_getElem hj, Option.getD_some]
      exact eq_of_beq (List.all_eq_true.1 hlens _ (List.getElem_mem hj))
    have hrow : ((List.range 64).map fun j => rowCodes s (0 + j)).getD i.val [] = ((List.range 64).map fun j => entry s 0 i.val j).map code := by
      rw [List.getD_eq_getElem?_getD, List.getElem?_map, List.getElem?_range i.isLt, Option.map_some, Option.getD_some, Nat.zero_add, List.map_map]
      rfl
    rw [hrow, dot_eq _ _ (by rw [hlen]; simp), Nat.zero_add, zipWith_sum _ _ 64 hlen, beq_iff_eq] at h1
    have h2 := congrArg (Nat.cast : Nat → ZMod p) h1
    rw [ZMod.natCast_mod] at h2
    rw [Matrix.mul_apply, Matrix.one_apply, hY]
    simp only [Matrix.map_apply, Matrix.of_apply]
    rw [Nat.cast_sum] at h2
    simp only [Nat.cast_mul] at h2
    by_cases hij : i = j
    · rw [if_pos hij]
      rw [if_pos (congrArg Fin.val hij)] at h2
      simpa using h2
    · rw [if_neg hij]
      rw [if_neg (fun e => hij (Fin.ext e))] at h2
      simpa using h2
  intro h0
  have h3 := congrArg Matrix.det hmul
  rw [Matrix.det_mul, Matrix.det_one, ← RingHom.mapMatrix_apply, ← RingHom.map_det, h0, map_zero, zero_mul] at h3
  have : Fact (1 < p) := ⟨hp⟩
  exact zero_ne_one h3

theorem rank_of_det (s : XState) (h : (Matrix.of fun i j : Fin 64 => (entry s 0 i j : ℤ)).det ≠ 0) :
    (Matrix.of fun i j : Fin 64 => (entry s 0 i j : ℚ)).rank = 64 := by
  have hm : (Matrix.of fun i j : Fin 64 => (entry s 0 i j : ℚ)) = (Matrix.of fun i j : Fin 64 => (entry s 0 i j : ℤ)).map (Int.castRingHom ℚ) := by
    ext i j
    simp
  have hu : IsUnit (Matrix.of fun i j : Fin 64 => (entry s 0 i j : ℚ)) := by
    rw [Matrix.isUnit_iff_isUnit_det, hm, ← RingHom.mapMatrix_apply, ← RingHom.map_det, isUnit_iff_ne_zero]
    simpa using h
  rw [Matrix.rank_of_isUnit _ hu, Fintype.card_fin]

end Verif.Heavy.Eval
