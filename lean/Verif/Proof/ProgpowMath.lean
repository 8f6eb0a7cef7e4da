import Verif.Model.Progpow
import Verif.Spec.Progpow
import Verif.Go.Lemmas

/-! # The arithmetic of ProgPoW: KISS99, random math and random merge -/

set_option autoImplicit false

namespace Verif.Progpow

open Go Crypto
open Verif.Spec (Progpow.Kiss)

namespace Kiss99

/-- the generator state as the specification has it -/
def abs (k : Kiss99) : Spec.Progpow.Kiss := ⟨k.z, k.w, k.jsr, k.jcong⟩

theorem mwc_eq (m : Nat) (hm : m < 2 ^ 16) (x : U32) :
    BitVec.ofNat 32 m * (x &&& (65535 : U32)) + (x >>> 16) = Spec.Progpow.Kiss.mwc m x := by
  apply BitVec.eq_of_toNat_eq
  have h : x.toNat &&& 65535 = x.toNat % 2 ^ 16 := Nat.and_two_pow_sub_one_eq_mod x.toNat 16
  have h1 : m % 2 ^ 32 = m := Nat.mod_eq_of_lt (by omega)
  simp only [Spec.Progpow.Kiss.mwc, BitVec.toNat_add, BitVec.toNat_mul, BitVec.toNat_and, BitVec.toNat_ofNat, BitVec.toNat_ushiftRight,
    Nat.shiftRight_eq_div_pow, Nat.mod_add_mod]
  rw [show (65535 : U32).toNat = 65535 from rfl, h, h1]

theorem lcg_eq (m c : Nat) (x : U32) : BitVec.ofNat 32 m * x + BitVec.ofNat 32 c = BitVec.ofNat 32 (m * x.toNat + c) := by
  apply BitVec.eq_of_toNat_eq
  simp [BitVec.toNat_add, BitVec.toNat_mul]

theorem out_eq (z w : U32) : (z <<< 16) + w = BitVec.ofNat 32 (z.toNat * 2 ^ 16 + w.toNat) := by
  apply BitVec.eq_of_toNat_eq
  simp only [BitVec.toNat_add, BitVec.toNat_shiftLeft, BitVec.toNat_ofNat, Nat.shiftLeft_eq, Nat.mod_add_mod]

theorem next_fst (k : Kiss99) : k.next.1 = k.abs.step.out := by
  unfold Kiss99.next abs Spec.Progpow.Kiss.step Spec.Progpow.Kiss.out Spec.Progpow.Kiss.shr3
  simp only
  rw [← mwc_eq 36969 (by decide) k.z, ← mwc_eq 18000 (by decide) k.w, ← lcg_eq, ← out_eq]
  rfl

theorem next_snd (k : Kiss99) : k.next.2.abs = k.abs.step := by
  unfold Kiss99.next abs Spec.Progpow.Kiss.step Spec.Progpow.Kiss.shr3
  simp only
  rw [← mwc_eq 36969 (by decide) k.z, ← mwc_eq 18000 (by decide) k.w, ← lcg_eq]
  rfl

end Kiss99

theorem fnv1a_eq (h d : U32) : fnv1a h d = Spec.Progpow.fnv1a h d := by
  rw [fnv1a, Spec.Progpow.fnv1a]; rfl

/-! ## Rotations -/

theorem and31 (b : U32) : (b &&& 31).toNat = b.toNat % 32 := by
  rw [BitVec.toNat_and]; exact Nat.and_two_pow_sub_one_eq_mod b.toNat 5

theorem sub_and31 (b : U32) : ((32 - b) &&& 31).toNat = (32 - b.toNat % 32) % 32 := by
  rw [and31, BitVec.toNat_sub, show (32 : U32).toNat = 32 from rfl]
  have := b.isLt
  omega

theorem rotl32_eq (a b : U32) : rotl32 a b = a.rotateLeft (b.toNat % 32) := by
  unfold rotl32
  rw [BitVec.shiftLeft_eq', BitVec.ushiftRight_eq', and31, sub_and31]
  simp only [BitVec.rotateLeft, BitVec.rotateLeftAux, Nat.mod_mod]
  by_cases h : b.toNat % 32 = 0
  · rw [h]
    simp only [Nat.sub_zero, Nat.mod_self]
    rw [BitVec.ushiftRight_eq_zero (x := a) (n := 32) (by omega)]
    simp
  · rw [Nat.mod_eq_of_lt (a := 32 - b.toNat % 32) (by omega)]

theorem rotr32_eq (a b : U32) : rotr32 a b = a.rotateRight (b.toNat % 32) := by
  unfold rotr32
  rw [BitVec.shiftLeft_eq', BitVec.ushiftRight_eq', sub_and31, and31]
  simp only [BitVec.rotateRight, BitVec.rotateRightAux, Nat.mod_mod]
  by_cases h : b.toNat % 32 = 0
  · rw [h]
    simp only [Nat.sub_zero, Nat.mod_self]
    rw [BitVec.shiftLeft_eq_zero (x := a) (n := 32) (by omega)]
    simp
  · rw [Nat.mod_eq_of_lt (a := 32 - b.toNat % 32) (by omega), BitVec.or_comm]

/-! ## Bit counts -/

theorem countP_range_ge (m n : Nat) (p : Nat → Bool) (hp : ∀ i, i < n → (p i = true ↔ m ≤ i)) :
    (List.range n).countP p = n - m := by
  induction n with
  | zero => simp
  | succ n ih =>
    rw [List.range_succ, List.countP_append, ih fun i hi => hp i (by omega)]
    by_cases h : m ≤ n
    · have := (hp n (by omega)).2 h
      simp [this]; omega
    · have : p n = false := by
        cases hpn : p n with
        | false => rfl
        | true => exact absurd ((hp n (by omega)).1 hpn) h
      simp [this]; omega

theorem leadingZeros32_eq (a : U32) : leadingZeros32 a = Spec.Progpow.clz a := by
  unfold leadingZeros32 Spec.Progpow.clz
  symm
  apply countP_range_ge
  intro i hi
  simp only [decide_eq_true_eq]
  by_cases h : a = 0
  · subst h; simp [Nat.two_pow_pos]
  · have ha : a.toNat ≠ 0 := fun e => h (BitVec.eq_of_toNat_eq (by simpa using e))
    rw [if_neg h, ← Nat.log2_lt ha]; omega

theorem onesCount32_eq (a : U32) : onesCount32 a = Spec.Progpow.popcount a := by
  unfold onesCount32 Spec.Progpow.popcount
  generalize List.range 32 = l
  induction l with
  | nil => rfl
  | cons i l ih =>
    rw [List.map_cons, List.sum_cons, ih, List.countP_cons, Nat.testBit_eq_decide_div_mod_eq]
    have : a.toNat / 2 ^ i % 2 < 2 := Nat.mod_lt _ (by omega)
    by_cases h : a.toNat / 2 ^ i % 2 = 1
    · simp [h]; omega
    · have : a.toNat / 2 ^ i % 2 = 0 := by omega
      simp [this]

theorem randomMath_eq (a b s : U32) : randomMath a b s = Spec.Progpow.math a b s.toNat := by
  unfold randomMath Spec.Progpow.math
  have hs : (s % 11).toNat = s.toNat % 11 := by rw [BitVec.toNat_umod]; rfl
  rw [hs]
  have hlt : s.toNat % 11 < 11 := Nat.mod_lt _ (by omega)
  generalize s.toNat % 11 = n at hlt
  match n, hlt with
  | 0, _ => rfl
  | 1, _ => rfl
  | 2, _ =>
    show mulHi32 a b = BitVec.ofNat 32 (a.toNat * b.toNat / 2 ^ 32)
    unfold mulHi32
    apply BitVec.eq_of_toNat_eq
    have h : a.toNat * b.toNat < 2 ^ 64 := by
      have := Nat.mul_lt_mul'' a.isLt b.isLt
      omega
    have ha : a.toNat % 2 ^ 64 = a.toNat := Nat.mod_eq_of_lt (by omega)
    have hb : b.toNat % 2 ^ 64 = b.toNat := Nat.mod_eq_of_lt (by omega)
    simp only [BitVec.toNat_setWidth, BitVec.toNat_ushiftRight, BitVec.toNat_mul, Nat.shiftRight_eq_div_pow, BitVec.toNat_ofNat, ha, hb,
      Nat.mod_eq_of_lt h]
  | 3, _ =>
    show minUint32 a b = BitVec.ofNat 32 (min a.toNat b.toNat)
    unfold minUint32
    by_cases h : b < a
    · rw [if_pos h, Nat.min_eq_right (by have := BitVec.lt_def.1 h; omega)]; simp
    · rw [if_neg h, Nat.min_eq_left (by have := mt BitVec.lt_def.2 h; omega)]; simp
  | 4, _ => exact rotl32_eq a b
  | 5, _ => exact rotr32_eq a b
  | 6, _ => rfl
  | 7, _ => rfl
  | 8, _ => rfl
  | 9, _ =>
    show clz32 a + clz32 b = BitVec.ofNat 32 (Spec.Progpow.clz a + Spec.Progpow.clz b)
    rw [clz32, clz32, leadingZeros32_eq, leadingZeros32_eq, BitVec.ofNat_add]
  | 10, _ =>
    show popcount32 a + popcount32 b = BitVec.ofNat 32 (Spec.Progpow.popcount a + Spec.Progpow.popcount b)
    rw [popcount32, popcount32, onesCount32_eq, onesCount32_eq, BitVec.ofNat_add]
  | n + 11, h => omega

theorem randomMerge_eq (a b s : U32) : randomMerge a b s = Spec.Progpow.merge a b s.toNat := by
  unfold randomMerge Spec.Progpow.merge
  have hs : (s % 4).toNat = s.toNat % 4 := by rw [BitVec.toNat_umod]; rfl
  have hx : (((s >>> 16) % 31) + 1 : U32).toNat = s.toNat / 2 ^ 16 % 31 + 1 := by
    rw [BitVec.toNat_add, BitVec.toNat_umod, BitVec.toNat_ushiftRight, Nat.shiftRight_eq_div_pow,
      show (31 : U32).toNat = 31 from rfl, show (1 : U32).toNat = 1 from rfl]
    omega
  have hx' : (((s >>> 16) % 31) + 1 : U32).toNat % 32 = s.toNat / 2 ^ 16 % 31 + 1 := by rw [hx]; omega
  simp only [hs, rotl32_eq, rotr32_eq, hx']
  have hlt : s.toNat % 4 < 4 := Nat.mod_lt _ (by omega)
  generalize s.toNat % 4 = n at hlt
  match n, hlt with
  | 0, _ => rfl
  | 1, _ => rfl
  | 2, _ => rfl
  | 3, _ => rfl
  | n + 4, h => omega

/-! ## Merging loses nothing -/

theorem mul33_inv (a : U32) : a * 33 * 0x3e0f83e1 = a := by
  rw [BitVec.mul_assoc, show (33 : U32) * 0x3e0f83e1 = 1 by decide]; exact BitVec.mul_one a

theorem mul33_inv' (a : U32) : a * 0x3e0f83e1 * 33 = a := by
  rw [BitVec.mul_assoc, show (0x3e0f83e1 : U32) * 33 = 1 by decide]; exact BitVec.mul_one a

theorem rotateLeft_rotateRight (a : U32) (n : Nat) (h : n < 32) : (a.rotateLeft n).rotateRight n = a := by
  apply BitVec.eq_of_getLsbD_eq
  intro i hi
  rw [BitVec.getLsbD_rotateRight, BitVec.getLsbD_rotateLeft, BitVec.getLsbD_rotateLeft]
  have hn : n % 32 = n := Nat.mod_eq_of_lt h
  rw [hn]
  simp only [Bool.cond_decide]
  by_cases h1 : i < 32 - n
  · rw [if_pos h1, if_neg (by omega)]
    simp [show n + i < 32 by omega]
  · rw [if_neg h1]
    simp only [hi, decide_true, Bool.true_and]
    rw [if_pos (by omega)]
    congr 1; omega

theorem rotateRight_rotateLeft (a : U32) (n : Nat) (h : n < 32) : (a.rotateRight n).rotateLeft n = a := by
  apply BitVec.eq_of_getLsbD_eq
  intro i hi
  rw [BitVec.getLsbD_rotateLeft, BitVec.getLsbD_rotateRight, BitVec.getLsbD_rotateRight]
  have hn : n % 32 = n := Nat.mod_eq_of_lt h
  rw [hn]
  simp only [Bool.cond_decide]
  by_cases h1 : i < n
  · rw [if_pos h1, if_neg (by omega)]
    simp only [show 32 - n + i < 32 by omega, decide_true, Bool.true_and]
    congr 1; omega
  · rw [if_neg h1]
    simp only [hi, decide_true, Bool.true_and]
    rw [if_pos (by omega)]
    congr 1; omega

/-- the register before a merge, from the result and the data -/
def unmerge (r b : U32) (s : U32) : U32 :=
  let x := s.toNat / 2 ^ 16 % 31 + 1
  [(r - b) * 0x3e0f83e1, (r * 0x3e0f83e1) ^^^ b, (r ^^^ b).rotateRight x, (r ^^^ b).rotateLeft x].getD (s.toNat % 4) 0

/-- the data of a merge, from the result and the register -/
def undata (r a : U32) (s : U32) : U32 :=
  let x := s.toNat / 2 ^ 16 % 31 + 1
  [r - a * 33, (r * 0x3e0f83e1) ^^^ a, r ^^^ a.rotateLeft x, r ^^^ a.rotateRight x].getD (s.toNat % 4) 0

theorem xor_cancel (a b : U32) : a ^^^ b ^^^ b = a := by rw [BitVec.xor_assoc, BitVec.xor_self, BitVec.xor_zero]

theorem xor_cancel' (a b : U32) : (a ^^^ b) ^^^ a = b := by rw [BitVec.xor_comm a b, xor_cancel]

theorem sel4 {P : Nat → Prop} (h0 : P 0) (h1 : P 1) (h2 : P 2) (h3 : P 3) (n : Nat) : P (n % 4) := by
  have hlt : n % 4 < 4 := Nat.mod_lt _ (by omega)
  generalize n % 4 = n at hlt
  match n, hlt with
  | 0, _ => exact h0
  | 1, _ => exact h1
  | 2, _ => exact h2
  | 3, _ => exact h3
  | n + 4, h => omega

theorem unmerge_merge (a b s : U32) : unmerge (randomMerge a b s) b s = a := by
  rw [randomMerge_eq]
  unfold unmerge Spec.Progpow.merge
  have hx : s.toNat / 2 ^ 16 % 31 + 1 < 32 := by omega
  generalize s.toNat / 2 ^ 16 % 31 + 1 = x at hx
  refine sel4 (P := fun n => [(([a * 33 + b, (a ^^^ b) * 33, a.rotateLeft x ^^^ b, a.rotateRight x ^^^ b].getD n 0) - b) * 0x3e0f83e1,
    (([a * 33 + b, (a ^^^ b) * 33, a.rotateLeft x ^^^ b, a.rotateRight x ^^^ b].getD n 0) * 0x3e0f83e1) ^^^ b,
    (([a * 33 + b, (a ^^^ b) * 33, a.rotateLeft x ^^^ b, a.rotateRight x ^^^ b].getD n 0) ^^^ b).rotateRight x,
    (([a * 33 + b, (a ^^^ b) * 33, a.rotateLeft x ^^^ b, a.rotateRight x ^^^ b].getD n 0) ^^^ b).rotateLeft x].getD n 0 = a)
    ?_ ?_ ?_ ?_ s.toNat
  · show (a * 33 + b - b) * 0x3e0f83e1 = a
    rw [BitVec.add_sub_cancel]; exact mul33_inv a
  · show ((a ^^^ b) * 33 * 0x3e0f83e1) ^^^ b = a
    rw [mul33_inv]; exact xor_cancel a b
  · show (a.rotateLeft x ^^^ b ^^^ b).rotateRight x = a
    rw [xor_cancel]; exact rotateLeft_rotateRight a x hx
  · show (a.rotateRight x ^^^ b ^^^ b).rotateLeft x = a
    rw [xor_cancel]; exact rotateRight_rotateLeft a x hx

theorem merge_unmerge (r b s : U32) : randomMerge (unmerge r b s) b s = r := by
  rw [randomMerge_eq]
  unfold unmerge Spec.Progpow.merge
  have hx : s.toNat / 2 ^ 16 % 31 + 1 < 32 := by omega
  generalize s.toNat / 2 ^ 16 % 31 + 1 = x at hx
  have key : ∀ n, n = 0 ∨ n = 1 ∨ n = 2 ∨ n = 3 →
      (fun u : U32 => [u * 33 + b, (u ^^^ b) * 33, u.rotateLeft x ^^^ b, u.rotateRight x ^^^ b].getD n 0)
        ([(r - b) * 0x3e0f83e1, (r * 0x3e0f83e1) ^^^ b, (r ^^^ b).rotateRight x, (r ^^^ b).rotateLeft x].getD n 0) = r := by
    rintro n (rfl | rfl | rfl | rfl)
    · show (r - b) * 0x3e0f83e1 * 33 + b = r
      rw [mul33_inv']; exact BitVec.sub_add_cancel r b
    · show (r * 0x3e0f83e1 ^^^ b ^^^ b) * 33 = r
      rw [xor_cancel]; exact mul33_inv' r
    · show ((r ^^^ b).rotateRight x).rotateLeft x ^^^ b = r
      rw [rotateRight_rotateLeft _ x hx]; exact xor_cancel r b
    · show ((r ^^^ b).rotateLeft x).rotateRight x ^^^ b = r
      rw [rotateLeft_rotateRight _ x hx]; exact xor_cancel r b
  exact key _ (by omega)

theorem undata_merge (a b s : U32) : undata (randomMerge a b s) a s = b := by
  rw [randomMerge_eq]
  unfold undata Spec.Progpow.merge
  generalize s.toNat / 2 ^ 16 % 31 + 1 = x
  have key : ∀ n, n = 0 ∨ n = 1 ∨ n = 2 ∨ n = 3 →
      (fun r : U32 => [r - a * 33, (r * 0x3e0f83e1) ^^^ a, r ^^^ a.rotateLeft x, r ^^^ a.rotateRight x].getD n 0)
        ([a * 33 + b, (a ^^^ b) * 33, a.rotateLeft x ^^^ b, a.rotateRight x ^^^ b].getD n 0) = b := by
    rintro n (rfl | rfl | rfl | rfl)
    · show a * 33 + b - a * 33 = b
      rw [BitVec.add_comm]; exact BitVec.add_sub_cancel b _
    · show ((a ^^^ b) * 33 * 0x3e0f83e1) ^^^ a = b
      rw [mul33_inv]; exact xor_cancel' a b
    · exact xor_cancel' _ b
    · exact xor_cancel' _ b
  exact key _ (by omega)

theorem merge_undata (r a s : U32) : randomMerge a (undata r a s) s = r := by
  rw [randomMerge_eq]
  unfold undata Spec.Progpow.merge
  generalize s.toNat / 2 ^ 16 % 31 + 1 = x
  have key : ∀ n, n = 0 ∨ n = 1 ∨ n = 2 ∨ n = 3 →
      (fun d : U32 => [a * 33 + d, (a ^^^ d) * 33, a.rotateLeft x ^^^ d, a.rotateRight x ^^^ d].getD n 0)
        ([r - a * 33, (r * 0x3e0f83e1) ^^^ a, r ^^^ a.rotateLeft x, r ^^^ a.rotateRight x].getD n 0) = r := by
    rintro n (rfl | rfl | rfl | rfl)
    · show a * 33 + (r - a * 33) = r
      rw [BitVec.add_comm]; exact BitVec.sub_add_cancel r _
    · show (a ^^^ ((r * 0x3e0f83e1) ^^^ a)) * 33 = r
      rw [BitVec.xor_comm, xor_cancel]; exact mul33_inv' r
    · show a.rotateLeft x ^^^ (r ^^^ a.rotateLeft x) = r
      rw [BitVec.xor_comm]; exact xor_cancel r _
    · show a.rotateRight x ^^^ (r ^^^ a.rotateRight x) = r
      rw [BitVec.xor_comm]; exact xor_cancel r _
  exact key _ (by omega)

end Verif.Progpow
