import Verif.Go.Lemmas
import Mathlib.Tactic.Ring
import Mathlib.Tactic.NormNum

/-! # Byte strings, words and positional values -/

set_option autoImplicit false

namespace Verif.Go

@[simp] theorem leBytes_length {w : Nat} (n : Nat) (v : BitVec w) : (leBytes n v).length = n := by simp [leBytes]
@[simp] theorem beBytes_length {w : Nat} (n : Nat) (v : BitVec w) : (beBytes n v).length = n := by simp [beBytes]
@[simp] theorem bytesOf_length {w : Nat} (o : ByteOrder) (n : Nat) (v : BitVec w) : (bytesOf o n v).length = n := by
  cases o <;> simp [bytesOf]

theorem beNat_append (a b : List Byte) : beNat (a ++ b) = beNat a * 256 ^ b.length + beNat b := by
  have gen : ∀ (b : List Byte) (x : Nat), b.foldl (fun a b => a * 256 + b.toNat) x = x * 256 ^ b.length + beNat b := by
    intro b
    induction b with
    | nil => intro x; simp [beNat]
    | cons c b ih =>
      intro x
      simp only [List.foldl_cons, List.length_cons, beNat]
      rw [ih, ih (0 * 256 + c.toNat)]
      ring
  rw [beNat, List.foldl_append, gen]; rfl

theorem beNat_cons (c : Byte) (b : List Byte) : beNat (c :: b) = c.toNat * 256 ^ b.length + beNat b := by
  have := beNat_append [c] b
  simpa [beNat] using this

theorem beNat_concat (a : List Byte) (c : Byte) : beNat (a ++ [c]) = beNat a * 256 + c.toNat := by
  rw [beNat_append]; simp [beNat]

theorem beNat_lt (a : List Byte) : beNat a < 256 ^ a.length := by
  induction a with
  | nil => simp [beNat]
  | cons c a ih =>
    rw [beNat_cons, List.length_cons, Nat.pow_succ]
    have := c.isLt
    have h : c.toNat * 256 ^ a.length ≤ 255 * 256 ^ a.length := Nat.mul_le_mul_right _ (by omega)
    omega

theorem leNat_append (a b : List Byte) : leNat (a ++ b) = leNat a + 256 ^ a.length * leNat b := by
  induction a with
  | nil => simp [leNat]
  | cons c a ih => simp only [List.cons_append, leNat, ih, List.length_cons]; ring

theorem leNat_lt (a : List Byte) : leNat a < 256 ^ a.length := by
  induction a with
  | nil => simp [leNat]
  | cons c a ih =>
    simp only [leNat, List.length_cons, Nat.pow_succ]
    have := c.isLt
    omega

theorem leNat_reverse (a : List Byte) : leNat a.reverse = beNat a := by
  induction a with
  | nil => rfl
  | cons c a ih => rw [List.reverse_cons, leNat_append, ih, beNat_cons]; simp [leNat]; ring

theorem beNat_reverse (a : List Byte) : beNat a.reverse = leNat a := by
  rw [← leNat_reverse, List.reverse_reverse]

theorem leNat_inj : ∀ (a b : List Byte), a.length = b.length → leNat a = leNat b → a = b
  | [], [], _, _ => rfl
  | x :: a, y :: b, hl, h => by
    simp only [leNat] at h
    have hx := x.isLt
    have hy := y.isLt
    have h1 : x.toNat = y.toNat := by omega
    have h2 : leNat a = leNat b := by omega
    rw [BitVec.eq_of_toNat_eq h1, leNat_inj a b (by simpa using hl) h2]

theorem beNat_inj (a b : List Byte) (hl : a.length = b.length) (h : beNat a = beNat b) : a = b := by
  have := leNat_inj a.reverse b.reverse (by simpa using hl) (by rw [leNat_reverse, leNat_reverse, h])
  simpa using this

theorem leBytes_succ {w : Nat} (n : Nat) (v : BitVec w) :
    leBytes (n + 1) v = v.setWidth 8 :: leBytes n (v >>> 8) := by
  simp only [leBytes, List.range_succ_eq_map, List.map_cons, List.map_map, Nat.mul_zero, BitVec.ushiftRight_zero]
  congr 1
  apply List.map_congr_left
  intro i _
  simp only [Function.comp]
  rw [← BitVec.shiftRight_add]
  congr 1
  congr 1
  omega

theorem leNat_leBytes {w : Nat} (n : Nat) : ∀ (v : BitVec w), leNat (leBytes n v) = v.toNat % 256 ^ n := by
  induction n with
  | zero => intro v; simp [leBytes, leNat, Nat.mod_one]
  | succ n ih =>
    intro v
    rw [leBytes_succ, leNat, ih, BitVec.toNat_setWidth, BitVec.toNat_ushiftRight, Nat.shiftRight_eq_div_pow]
    rw [show (256 : Nat) ^ (n + 1) = 256 * 256 ^ n by ring, Nat.mod_mul]

theorem beNat_beBytes {w : Nat} (n : Nat) (v : BitVec w) : beNat (beBytes n v) = v.toNat % 256 ^ n := by
  rw [beBytes, beNat_reverse, leNat_leBytes]

theorem natOf_bytesOf {w : Nat} (o : ByteOrder) (n : Nat) (v : BitVec w) : natOf o (bytesOf o n v) = v.toNat % 256 ^ n := by
  cases o
  · exact leNat_leBytes n v
  · exact beNat_beBytes n v

theorem natOf_lt (o : ByteOrder) (a : List Byte) : natOf o a < 256 ^ a.length := by
  cases o
  · exact leNat_lt a
  · exact beNat_lt a

theorem natOf_inj (o : ByteOrder) (a b : List Byte) (hl : a.length = b.length) (h : natOf o a = natOf o b) : a = b := by
  cases o
  · exact leNat_inj a b hl h
  · exact beNat_inj a b hl h

/-- encoding the value of a 4-byte string gives it back -/
theorem bytesOf_natOf (o : ByteOrder) {n w : Nat} (a : List Byte) (hl : a.length = n) (hw : 8 * n ≤ w) :
    bytesOf o n (BitVec.ofNat w (natOf o a)) = a := by
  apply natOf_inj o
  · simp [hl]
  · rw [natOf_bytesOf, BitVec.toNat_ofNat]
    have h1 := natOf_lt o a
    have h2 : (256 : Nat) ^ n ≤ 2 ^ w := by
      rw [show (256 : Nat) = 2 ^ 8 by norm_num, ← Nat.pow_mul]
      exact Nat.pow_le_pow_right (by omega) hw
    rw [hl] at h1
    rw [Nat.mod_eq_of_lt (Nat.lt_of_lt_of_le h1 h2), Nat.mod_eq_of_lt h1]

theorem ofNat_natOf_bytesOf (o : ByteOrder) {n w : Nat} (v : BitVec w) (hw : w ≤ 8 * n) :
    BitVec.ofNat w (natOf o (bytesOf o n v)) = v := by
  apply BitVec.eq_of_toNat_eq
  rw [natOf_bytesOf, BitVec.toNat_ofNat]
  have h1 := v.isLt
  have h2 : 2 ^ w ≤ (256 : Nat) ^ n := by
    rw [show (256 : Nat) = 2 ^ 8 by norm_num, ← Nat.pow_mul]
    exact Nat.pow_le_pow_right (by omega) hw
  rw [Nat.mod_eq_of_lt (Nat.lt_of_lt_of_le h1 h2), Nat.mod_eq_of_lt h1]

/-- the `i`-th `w`-element block of a concatenation of blocks -/
theorem flatMap_block {α β : Type} (f : α → List β) (w : Nat) (hf : ∀ a, (f a).length = w) :
    ∀ (l : List α) (i : Nat) (h : i < l.length), ((l.flatMap f).drop (w * i)).take w = f l[i] := by
  intro l
  induction l with
  | nil => intro i h; simp at h
  | cons a l ih =>
    intro i h
    rw [List.flatMap_cons]
    cases i with
    | zero => simp [hf]
    | succ i =>
      rw [List.drop_append, hf]
      have e : w * (i + 1) - w = w * i := by rw [Nat.mul_succ]; omega
      rw [e, List.drop_of_length_le (by rw [hf, Nat.mul_succ]; omega), List.nil_append]
      simpa using ih i (by simpa using h)

theorem flatMap_length_const {α β : Type} (f : α → List β) (w : Nat) (hf : ∀ a, (f a).length = w) (l : List α) :
    (l.flatMap f).length = w * l.length := by
  induction l with
  | nil => simp
  | cons a l ih => rw [List.flatMap_cons, List.length_append, ih, hf, List.length_cons]; ring

/-- cutting a list in blocks and concatenating them gives it back, up to a remainder -/
theorem flatMap_blocks {β : Type} (w : Nat) : ∀ (m : Nat) (l : List β), w * m ≤ l.length →
    (List.range m).flatMap (fun i => (l.drop (w * i)).take w) = l.take (w * m) := by
  intro m
  induction m with
  | zero => intro l _; simp
  | succ m ih =>
    intro l h
    rw [List.range_succ, List.flatMap_append, ih l (by rw [Nat.mul_succ] at h; omega), Nat.mul_succ, List.take_add]
    simp

end Verif.Go
