import Mathlib.Data.Int.ModEq
import Mathlib.Data.List.Rotate
import Mathlib.Tactic.Ring
import Verif.Proof.Autolykos

/-! # The indexes of Autolykos2 determine the digest they are taken from (for C104) -/

set_option autoImplicit false

namespace Verif.Autolykos

open Go Spec.Autolykos

/-- byte `i` of a digest of 32 bytes, continued periodically -/
def cyc (h : List Byte) (i : Nat) : Nat := (h.getD (i % 32) 0).toNat

theorem cyc_lt (h : List Byte) (i : Nat) : cyc h i < 256 := BitVec.isLt _

theorem double_getElem? (h : List Byte) (hl : h.length = 32) (i : Nat) (hi : i < 64) : (h ++ h)[i]? = some (h.getD (i % 32) 0) := by
  by_cases h1 : i < 32
  · rw [List.getElem?_append_left (by omega), Nat.mod_eq_of_lt h1, List.getD_eq_getElem?_getD, List.getElem?_eq_getElem (by omega)]
    rfl
  · rw [List.getElem?_append_right (by omega), hl, show i % 32 = i - 32 by omega, List.getD_eq_getElem?_getD, List.getElem?_eq_getElem (by omega)]
    rfl

/-- the four bytes at a place -/
theorem window (h : List Byte) (hl : h.length = 32) (j : Nat) (hj : j ≤ 60) : Spec.beValue (((h ++ h).drop j).take 4) =
    cyc h j * 2 ^ 24 + cyc h (j + 1) * 2 ^ 16 + cyc h (j + 2) * 2 ^ 8 + cyc h (j + 3) := by
  have e : ((h ++ h).drop j).take 4 = [h.getD (j % 32) 0, h.getD ((j + 1) % 32) 0, h.getD ((j + 2) % 32) 0, h.getD ((j + 3) % 32) 0] := by
    apply List.ext_getElem?
    intro i
    by_cases hi : i < 4
    · rw [List.getElem?_take, if_pos hi, List.getElem?_drop, double_getElem? h hl (j + i) (by omega)]
      rcases (by omega : i = 0 ∨ i = 1 ∨ i = 2 ∨ i = 3) with rfl | rfl | rfl | rfl <;> rfl
    · rw [List.getElem?_take, if_neg hi, List.getElem?_eq_none (by simp; omega)]
  rw [e]
  unfold cyc
  simp only [Spec.beValue, List.reverse_cons, List.reverse_nil, List.nil_append, List.cons_append, Spec.leValue, List.foldr_cons, List.foldr_nil]
  omega

/-- of a multiple of `2 ^ 32` by a byte and a number up to 255 only zero are congruent -/
def Separates (N : Nat) : Bool := 255 < N && (List.range 256).all fun x => 2 ^ 32 * x % N = 0 || (255 < 2 ^ 32 * x % N && 2 ^ 32 * x % N < N - 255)

/-- the sizes of the table -/
def sizes : Nat → Nat → List Nat
  | 0, n => [n]
  | k + 1, n => n :: sizes k (grow n)

theorem growN_succ' (k n : Nat) : growN (k + 1) n = growN k (grow n) := by
  induction k with
  | zero => rfl
  | succ k ih =>
    rw [growN, ih]
    rfl

theorem sizes_mem (k j n : Nat) (h : j ≤ k) : growN j n ∈ sizes k n := by
  induction k generalizing j n with
  | zero =>
    obtain rfl : j = 0 := by omega
    exact List.mem_cons_self
  | succ k ih =>
    cases j with
    | zero => exact List.mem_cons_self
    | succ j =>
      rw [growN_succ']
      exact List.mem_cons_of_mem _ (ih j _ (by omega))

theorem sizes_separate : ((sizes 71 (2 ^ 26)).all Separates) = true := by decide +kernel

theorem size_separates (height : Nat) : Separates (tableSize (2 ^ 26) height) = true := by
  obtain ⟨k, hk, e⟩ := tableSize_steps height
  rw [e]
  exact List.all_eq_true.mp sizes_separate _ (sizes_mem 71 k _ hk)

theorem separates_nat {N : Nat} (h : Separates N = true) (x : Nat) (hx : x < 256) (y : Int) (h1 : -255 ≤ y) (h2 : y ≤ 255)
    (hd : (N : Int) ∣ 2 ^ 32 * (x : Int) - y) : y = 0 := by
  unfold Separates at h
  rw [Bool.and_eq_true, List.all_eq_true] at h
  have hN := of_decide_eq_true h.1
  have hx := h.2 x (List.mem_range.mpr hx)
  simp only [Bool.or_eq_true, Bool.and_eq_true, decide_eq_true_eq] at hx
  obtain ⟨r, hr⟩ : ∃ r, r = 2 ^ 32 * x % N := ⟨_, rfl⟩
  rw [← hr] at hx
  have hlt : r < N := by rw [hr]; exact Nat.mod_lt _ (by omega)
  have hd' : (N : Int) ∣ (r : Int) - y := by
    have e : ((2 ^ 32 * x : Nat) : Int) = N * ((2 ^ 32 * x / N : Nat) : Int) + (r : Int) := by
      rw [hr]
      exact_mod_cast (Nat.div_add_mod _ _).symm
    have e' : (2 ^ 32 * (x : Int) - y) = N * ((2 ^ 32 * x / N : Nat) : Int) + ((r : Int) - y) := by
      rw [← Int.add_sub_assoc, ← e]
      push_cast
      rfl
    rw [e'] at hd
    exact (Int.dvd_add_right (Dvd.intro _ rfl)).mp hd
  obtain ⟨q, hq⟩ := hd'
  rcases hx with hx | hx
  · rcases Int.lt_trichotomy q 0 with h | h | h
    · have : (N : Int) * q ≤ N * (-1) := Int.mul_le_mul_of_nonneg_left (by omega) (by omega)
      omega
    · rw [h] at hq
      omega
    · have : (N : Int) * 1 ≤ N * q := Int.mul_le_mul_of_nonneg_left (by omega) (by omega)
      omega
  · exfalso
    rcases Int.lt_trichotomy q 0 with h | h | h
    · have : (N : Int) * q ≤ N * (-1) := Int.mul_le_mul_of_nonneg_left (by omega) (by omega)
      omega
    · rw [h] at hq
      omega
    · have : (N : Int) * 1 ≤ N * q := Int.mul_le_mul_of_nonneg_left (by omega) (by omega)
      omega

theorem separates_int {N : Nat} (h : Separates N = true) (x y : Int) (hx1 : -255 ≤ x) (hx2 : x ≤ 255) (h1 : -255 ≤ y) (h2 : y ≤ 255)
    (hd : (N : Int) ∣ 2 ^ 32 * x - y) : y = 0 := by
  rcases Int.lt_or_le x 0 with hn | hn
  · have := separates_nat h (-x).toNat (by omega) (-y) (by omega) (by omega) (by
      rw [Int.toNat_of_nonneg (by omega), show 2 ^ 32 * -x - -y = -(2 ^ 32 * x - y) by ring]
      exact (Int.dvd_neg).mpr hd)
    omega
  · refine separates_nat h x.toNat (by omega) y h1 h2 ?_
    rw [Int.toNat_of_nonneg hn]
    exact hd

/-- digests whose 32 windows are congruent are equal -/
theorem windows_inj {N : Nat} (hN : Separates N = true) (h h' : List Byte) (hl : h.length = 32) (hl' : h'.length = 32)
    (heq : ∀ j < 32, Spec.beValue (((h ++ h).drop j).take 4) % N = Spec.beValue (((h' ++ h').drop j).take 4) % N) : h = h' := by
  have hper : ∀ (g : List Byte) (i : Nat), cyc g (32 + i) = cyc g i := fun g i => by
    unfold cyc
    rw [show (32 + i) % 32 = i % 32 by omega]
  have hw : ∀ j < 33, (cyc h j * 2 ^ 24 + cyc h (j + 1) * 2 ^ 16 + cyc h (j + 2) * 2 ^ 8 + cyc h (j + 3)) % N =
      (cyc h' j * 2 ^ 24 + cyc h' (j + 1) * 2 ^ 16 + cyc h' (j + 2) * 2 ^ 8 + cyc h' (j + 3)) % N := by
    intro j hj
    by_cases h32 : j = 32
    · have e := heq 0 (by omega)
      rw [window h hl _ (by omega), window h' hl' _ (by omega)] at e
      have p0 := fun g => hper g 0
      rw [Nat.add_zero] at p0
      rw [h32, hper, hper, hper, hper, hper, hper, p0, p0]
      exact e
    · have e := heq j (by omega)
      rwa [window h hl _ (by omega), window h' hl' _ (by omega)] at e
  have hc : ∀ j < 32, cyc h (j + 4) = cyc h' (j + 4) := by
    intro j hj
    have e1 := hw j (by omega)
    have e2 := hw (j + 1) (by omega)
    have d1 := (Nat.modEq_iff_dvd.mp e1)
    have d2 := (Nat.modEq_iff_dvd.mp e2)
    have b0 := cyc_lt h j
    have b0' := cyc_lt h' j
    have b4 := cyc_lt h (j + 4)
    have b4' := cyc_lt h' (j + 4)
    have key : (N : Int) ∣ 2 ^ 32 * ((cyc h' j : Int) - cyc h j) - ((cyc h' (j + 4) : Int) - cyc h (j + 4)) := by
      have := Int.dvd_sub (Dvd.dvd.mul_left d1 256) d2
      refine (congrArg ((N : Int) ∣ ·) ?_).mp this
      push_cast
      rw [show j + 1 + 1 = j + 2 from rfl, show j + 1 + 2 = j + 3 from rfl, show j + 1 + 3 = j + 4 from rfl]
      ring
    have := separates_int hN _ _ (by omega) (by omega) (by omega) (by omega) key
    omega
  apply List.ext_getElem?
  intro i
  by_cases hi : i < 32
  · have hb : cyc h i = cyc h' i := by
      by_cases h4 : 4 ≤ i
      · have := hc (i - 4) (by omega)
        rwa [show i - 4 + 4 = i by omega] at this
      · have := hc (i + 28) (by omega)
        rwa [show i + 28 + 4 = 32 + i by omega, hper, hper] at this
    unfold cyc at hb
    have hb := BitVec.eq_of_toNat_eq hb
    rw [Nat.mod_eq_of_lt hi, List.getD_eq_getElem?_getD, List.getD_eq_getElem?_getD, List.getElem?_eq_getElem (by omega),
      List.getElem?_eq_getElem (by omega)] at hb
    rw [List.getElem?_eq_getElem (by omega), List.getElem?_eq_getElem (by omega)]
    exact congrArg some hb
  · rw [List.getElem?_eq_none (by omega), List.getElem?_eq_none (by omega)]

theorem cyc_rotate (h : List Byte) (hl : h.length = 32) (r i : Nat) : cyc (h.rotate r) i = cyc h (i + r) := by
  unfold cyc
  rw [List.getD_eq_getElem?_getD, List.getElem?_rotate (by omega), ← List.getD_eq_getElem?_getD, hl]
  exact congrArg (fun k => (h.getD k 0).toNat) (by omega)

theorem cyc_add (h : List Byte) (i : Nat) : cyc h (i + 32) = cyc h i := by
  unfold cyc
  rw [show (i + 32) % 32 = i % 32 by omega]

/-- a sum over a period -/
theorem sum_period (g : Nat → Nat) (p : Nat) (hg : ∀ i, g (i + p) = g i) (r : Nat) :
    ((List.range p).map fun j => g (j + r)).sum = ((List.range p).map g).sum := by
  induction r with
  | zero => rfl
  | succ r ih =>
    rw [← ih]
    have e1 : ((List.range (p + 1)).map fun j => g (j + r)).sum = ((List.range p).map fun j => g (j + r)).sum + g (p + r) := by
      rw [List.range_succ, List.map_append, List.sum_append]
      simp
    have e2 : ((List.range (p + 1)).map fun j => g (j + r)).sum = g r + ((List.range p).map fun j => g (j + (r + 1))).sum := by
      rw [List.range_succ_eq_map, List.map_cons, List.sum_cons, List.map_map, Nat.zero_add]
      refine congrArg (fun l : List Nat => g r + l.sum) (List.map_congr_left fun j _ => ?_)
      exact congrArg g (by rw [Nat.succ_eq_add_one]; omega)
    rw [e1, Nat.add_comm p r, hg] at e2
    omega

/-- a sum over the windows is the same for a rotated digest -/
theorem windows_rotate (f : Nat → Nat) (h : List Byte) (hl : h.length = 32) (r : Nat) :
    ((List.range 32).map fun j => f (Spec.beValue (((h.rotate r ++ h.rotate r).drop j).take 4))).sum =
      ((List.range 32).map fun j => f (Spec.beValue (((h ++ h).drop j).take 4))).sum := by
  obtain ⟨g, hg⟩ : ∃ g : Nat → Nat, g = fun j => f (cyc h j * 2 ^ 24 + cyc h (j + 1) * 2 ^ 16 + cyc h (j + 2) * 2 ^ 8 + cyc h (j + 3)) := ⟨_, rfl⟩
  have e1 : ((List.range 32).map fun j => f (Spec.beValue (((h.rotate r ++ h.rotate r).drop j).take 4))) = (List.range 32).map fun j => g (j + r) := by
    apply List.map_congr_left
    intro j hj
    have hj := List.mem_range.mp hj
    rw [window _ (by rw [List.length_rotate, hl]) j (by omega), hg, cyc_rotate h hl, cyc_rotate h hl, cyc_rotate h hl, cyc_rotate h hl]
    dsimp only
    rw [show j + 1 + r = j + r + 1 by omega, show j + 2 + r = j + r + 2 by omega, show j + 3 + r = j + r + 3 by omega]
  have e2 : ((List.range 32).map fun j => f (Spec.beValue (((h ++ h).drop j).take 4))) = (List.range 32).map g := by
    apply List.map_congr_left
    intro j hj
    have hj := List.mem_range.mp hj
    rw [window _ hl j (by omega), hg]
  rw [e1, e2]
  apply sum_period
  intro i
  rw [hg]
  dsimp only
  rw [cyc_add, show i + 32 + 1 = i + 1 + 32 by omega, show i + 32 + 2 = i + 2 + 32 by omega, show i + 32 + 3 = i + 3 + 32 by omega, cyc_add, cyc_add, cyc_add]

end Verif.Autolykos
