import Verif.Model.CShake
import Verif.Proof.HasherUse
import Mathlib.Data.Nat.Digits.Lemmas

/-! # Proofs about Model/CShake.lean and Spec/CShake.lean -/

set_option autoImplicit false

namespace Verif.Hasher

open Go Spec.Sponge Spec.CShake

/-- the value of a numeral -/
theorem numeral_value (n : Nat) : Nat.ofDigits 256 ((numeral n).reverse.map BitVec.toNat) = n := by
  unfold numeral
  split
  · next h => subst h; rfl
  · rw [List.reverse_reverse, List.map_map]
    have : (Nat.digits 256 n).map (BitVec.toNat ∘ BitVec.ofNat 8) = Nat.digits 256 n := by
      conv => rhs; rw [← List.map_id (Nat.digits 256 n)]
      apply List.map_congr_left
      intro d hd
      have := Nat.digits_lt_base (by decide : 1 < 256) hd
      simp only [Function.comp, BitVec.toNat_ofNat, id]
      omega
    rw [this, Nat.ofDigits_digits]

theorem numeral_inj {a b : Nat} (h : numeral a = numeral b) : a = b := by
  rw [← numeral_value a, ← numeral_value b, h]

theorem numeral_length {n : Nat} (h : n < 256 ^ 255) : (numeral n).length < 256 := by
  unfold numeral
  split
  · decide
  · rw [List.length_reverse, List.length_map]
    have := (Nat.digits_length_le_iff (b := 256) (by decide) (k := 255) n).mpr h
    omega

theorem leftEncode_prefix {a b : Nat} (ha : a < 256 ^ 255) (hb : b < 256 ^ 255) {x y : List Byte} (h : leftEncode a ++ x = leftEncode b ++ y) :
    a = b ∧ x = y := by
  unfold leftEncode at h
  rw [List.cons_append, List.cons_append, List.cons.injEq] at h
  obtain ⟨h1, h2⟩ := h
  have h3 : (numeral a).length = (numeral b).length := by
    have := congrArg BitVec.toNat h1
    rw [BitVec.toNat_ofNat, BitVec.toNat_ofNat, Nat.mod_eq_of_lt (numeral_length ha), Nat.mod_eq_of_lt (numeral_length hb)] at this
    exact this
  obtain ⟨h4, h5⟩ := List.append_inj h2 h3
  exact ⟨numeral_inj h4, h5⟩

theorem encodeString_prefix {s t : List Byte} (hs : 8 * s.length < 256 ^ 255) (ht : 8 * t.length < 256 ^ 255) {x y : List Byte}
    (h : encodeString s ++ x = encodeString t ++ y) : s = t ∧ x = y := by
  unfold encodeString at h
  rw [List.append_assoc, List.append_assoc] at h
  obtain ⟨h1, h2⟩ := leftEncode_prefix hs ht h
  exact List.append_inj h2 (by omega)

/-- the front and what follows it -/
theorem front_prefix {n m s t : List Byte} (hn : 8 * n.length < 256 ^ 255) (hm : 8 * m.length < 256 ^ 255) (hs : 8 * s.length < 256 ^ 255)
    (ht : 8 * t.length < 256 ^ 255) {x y : List Byte} (h : front n s ++ x = front m t ++ y) : n = m ∧ s = t ∧ x = y := by
  have h0 := h
  unfold front bytepad at h
  dsimp only at h
  simp only [List.append_assoc] at h
  obtain ⟨_, h1⟩ := leftEncode_prefix (by norm_num) (by norm_num) h
  obtain ⟨e1, h2⟩ := encodeString_prefix hn hm h1
  obtain ⟨e2, _⟩ := encodeString_prefix hs ht h2
  subst e1 e2
  exact ⟨rfl, rfl, List.append_cancel_left h0⟩

theorem padding_ne_nil (r : Nat) (ds : Byte) (n : Nat) : padding r ds n ≠ [] := by
  unfold padding
  split <;> simp

theorem padding_length (r : Nat) (hr : 2 ≤ r) (ds : Byte) (n : Nat) : (padding r ds n).length = r - n % r := by
  have := Nat.mod_lt n (by omega : 0 < r)
  unfold padding
  split
  · simp
    omega
  · simp
    omega

/-- a padded string read from its end -/
theorem padding_reverse (r : Nat) (ds : Byte) (n : Nat) :
    (padding r ds n).reverse = if n % r = r - 1 then [ds ^^^ 0x80] else 0x80 :: (List.replicate (r - 2 - n % r) 0 ++ [ds]) := by
  unfold padding
  split
  · rfl
  · simp

theorem zeros_prefix {a b : Nat} {d e : Byte} (hd : d ≠ 0) (he : e ≠ 0) {x y : List Byte}
    (h : List.replicate a 0 ++ d :: x = List.replicate b 0 ++ e :: y) : a = b ∧ d = e ∧ x = y := by
  induction a generalizing b with
  | zero =>
    cases b with
    | zero => exact ⟨rfl, (List.cons.inj h).1, (List.cons.inj h).2⟩
    | succ b => exact absurd (List.cons.inj h).1 hd
  | succ a ih =>
    cases b with
    | zero => exact absurd (List.cons.inj h).1.symm he
    | succ b =>
      obtain ⟨h1, h2⟩ := ih (b := b) (List.cons.inj h).2
      exact ⟨by omega, h2⟩

/-- strings with their padding, of two kinds -/
theorem padded_inj (r : Nat) {d e : Byte} (hd : d ≠ 0) (he : e ≠ 0) (hd2 : d ^^^ 0x80 ≠ 0x80) (he2 : e ^^^ 0x80 ≠ 0x80)
    (hde : d ^^^ 0x80 = e ^^^ 0x80 → d = e) {x y : List Byte}
    (h : x ++ padding r d x.length = y ++ padding r e y.length) : d = e ∧ x = y := by
  have h1 := congrArg List.reverse h
  rw [List.reverse_append, List.reverse_append, padding_reverse, padding_reverse] at h1
  split at h1 <;> split at h1
  · simp only [List.cons_append, List.nil_append, List.cons.injEq, List.reverse_inj] at h1
    exact ⟨hde h1.1, h1.2⟩
  · simp only [List.cons_append, List.nil_append, List.cons.injEq] at h1
    exact absurd h1.1 hd2
  · simp only [List.cons_append, List.nil_append, List.cons.injEq] at h1
    exact absurd h1.1.symm he2
  · simp only [List.cons_append, List.cons.injEq, true_and, List.append_assoc, List.nil_append] at h1
    obtain ⟨_, h2, h3⟩ := zeros_prefix hd he h1
    exact ⟨h2, List.reverse_inj.mp h3⟩

/-- the strings absorbed by cSHAKE256 -/
theorem absorbed_inj {n m s t x y : List Byte} (hn : 8 * n.length < 256 ^ 255) (hm : 8 * m.length < 256 ^ 255) (hs : 8 * s.length < 256 ^ 255)
    (ht : 8 * t.length < 256 ^ 255) (h : Spec.CShake.absorbed n s x = Spec.CShake.absorbed m t y) : n = m ∧ s = t ∧ x = y := by
  unfold Spec.CShake.absorbed at h
  split at h <;> split at h
  · next h1 h2 =>
    obtain ⟨_, e⟩ := padded_inj 136 (by decide) (by decide) (by decide) (by decide) (by decide) h
    exact ⟨h1.1.trans h2.1.symm, h1.2.trans h2.2.symm, e⟩
  · obtain ⟨e, _⟩ := padded_inj 136 (by decide) (by decide) (by decide) (by decide) (by decide) h
    exact absurd e (by decide)
  · obtain ⟨e, _⟩ := padded_inj 136 (by decide) (by decide) (by decide) (by decide) (by decide) h
    exact absurd e (by decide)
  · obtain ⟨_, e⟩ := padded_inj 136 (by decide) (by decide) (by decide) (by decide) (by decide) h
    exact front_prefix hn hm hs ht e

/-- a new object, one string and a read -/
theorem once_eq (K : Kind) (hK : K.Good) (d : List Byte) (m : Nat) :
    (do let h ← write K fresh d; pure (read K h m).1 : Go (List Byte)) = .ok (digest K.f K.rate K.ds m d) := by
  obtain ⟨t, h1, h2⟩ := absorbed_write K hK [] d fresh (absorbed_fresh K hK)
  rw [List.nil_append] at h2
  rw [h1]
  exact congrArg Except.ok (read_absorbed K hK d t h2 m).1

theorem cshake256_eq (f : List Byte → List Byte) (hf : ∀ x : List Byte, x.length = 200 → (f x).length = 200) (data personal : List Byte) (size : Nat) :
    Hasher.cshake256 f data personal size = .ok (Spec.CShake.cshake256 f [] personal data size) := by
  unfold Hasher.cshake256 newCShake256 Spec.CShake.cshake256 Spec.CShake.absorbed
  have g : ∀ ds, Kind.Good ⟨f, 136, ds, 64⟩ := fun ds => ⟨Nat.succ_pos 135, (by decide : 136 ≤ 200), hf⟩
  by_cases h : personal = []
  · subst h
    exact once_eq ⟨f, 136, 0x1f, 64⟩ (g _) data size
  · rw [if_neg (fun c => h c.2), if_neg (fun c => h c.2)]
    obtain ⟨t, h1, h2⟩ := absorbed_write _ (g 0x04) [] (front [] personal) fresh (absorbed_fresh _ (g _))
    obtain ⟨u, h3, h4⟩ := absorbed_write _ (g 0x04) _ data t h2
    rw [List.nil_append] at h4
    have e : (do let (K, h) ← (do let h ← write ⟨f, 136, 0x04, 64⟩ fresh (front [] personal); return ((⟨f, 136, 0x04, 64⟩ : Kind), h) : Go (Kind × Sponge))
                 let h ← write K h data
                 pure (read K h size).1 : Go (List Byte)) = .ok (read ⟨f, 136, 0x04, 64⟩ u size).1 := by
      rw [h1]
      change (write ⟨f, 136, 0x04, 64⟩ t data >>= fun h => pure (read ⟨f, 136, 0x04, 64⟩ h size).1) = _
      rw [h3]
      rfl
    refine Eq.trans e ?_
    rw [(read_absorbed _ (g 0x04) _ u h4 size).1]
    rfl

end Verif.Hasher
