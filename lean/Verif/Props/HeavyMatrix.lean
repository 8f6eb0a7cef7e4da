import Verif.Props.Heavy
import Verif.Props.HeavyCycle

/-! # C105: how much of the matrix enters HeavyHash -/

set_option autoImplicit false

namespace Verif.Props

open Go Heavy Spec.Heavy

/-- the sum of the 64 nibbles -/
def nibbleSum (h : List Byte) : Nat := ((List.range 64).map (nibble h)).sum

/-- what is hashed last, for a matrix and the first digest -/
def lastHashed (mat : Nat → Nat → Nat) (h : List Byte) : List Byte :=
  (List.range 32).map fun i => h.getD i 0 ^^^ BitVec.ofNat 8 (16 * product mat h (2 * i) + product mat h (2 * i + 1))

/-- the last hash -/
def lastHash (P : Prims) (x : List Byte) : List Byte := (P.cshake256 x [72, 101, 97, 118, 121, 72, 97, 115, 104] 32).reverse

namespace HeavyMatrix

theorem sum_le (f g : Nat → Nat) (n : Nat) (h : ∀ j < n, f j ≤ g j) : ((List.range n).map f).sum ≤ ((List.range n).map g).sum := by
  induction n with
  | zero => simp
  | succ n ih =>
    have h1 := ih fun j hj => h j (by omega)
    have h2 := h n (by omega)
    rw [List.range_succ, List.map_append, List.map_append, List.sum_append, List.sum_append]
    simp only [List.map_cons, List.map_nil, List.sum_cons, List.sum_nil]
    omega

theorem sum_mul (f : Nat → Nat) (n c : Nat) : ((List.range n).map fun j => c * f j).sum = c * ((List.range n).map f).sum := by
  induction n with
  | zero => simp
  | succ n ih =>
    rw [List.range_succ, List.map_append, List.map_append, List.sum_append, List.sum_append, ih, Nat.mul_add]
    simp only [List.map_cons, List.map_nil, List.sum_cons, List.sum_nil, Nat.add_zero]

theorem sum_near (f g : Nat → Nat) (b c : Nat) (hne : ∀ j, j ≠ b → f j = g j) (hb : f b ≤ g b + c) (n : Nat) :
    ((List.range n).map f).sum ≤ ((List.range n).map g).sum + if b < n then c else 0 := by
  induction n with
  | zero => simp
  | succ n ih =>
    rw [List.range_succ, List.map_append, List.map_append, List.sum_append, List.sum_append]
    simp only [List.map_cons, List.map_nil, List.sum_cons, List.sum_nil]
    by_cases h : n = b
    · rw [h] at ih ⊢
      rw [if_neg (by omega)] at ih
      rw [if_pos (by omega)]
      omega
    · rw [hne n h]
      by_cases h1 : b < n
      · rw [if_pos h1] at ih
        rw [if_pos (by omega)]
        omega
      · rw [if_neg h1] at ih
        rw [if_neg (by omega)]
        omega

theorem product_le (mat : Nat → Nat → Nat) (hmat : ∀ i j, mat i j < 16) (h : List Byte) (i : Nat) : product mat h i ≤ 15 * nibbleSum h / 1024 := by
  unfold product nibbleSum
  rw [← sum_mul]
  refine Nat.div_le_div_right (sum_le _ _ _ fun j _ => ?_)
  exact Nat.mul_le_mul_right _ (by have := hmat i j; omega)

theorem product_lt (mat : Nat → Nat → Nat) (hmat : ∀ i j, mat i j < 16) (h : List Byte) (i : Nat) : product mat h i < 16 := by
  have h1 := product_le mat hmat h i
  have h2 : nibbleSum h ≤ ((List.range 64).map fun _ => 15).sum := sum_le _ _ _ fun j _ => by have := nibble_lt h j; omega
  have h3 : ((List.range 64).map fun _ => 15).sum = 960 := by decide
  omega

theorem entry_lt (s : XState) (t i j : Nat) : entry s t i j < 16 := Nat.mod_lt _ (by omega)

/-- exclusive or acts on the two nibbles of a byte -/
theorem xor_nibbles (a p q : Nat) (hq : q < 16) :
    (a ^^^ (16 * p + q)) / 16 = a / 16 ^^^ p ∧ (a ^^^ (16 * p + q)) % 16 = a % 16 ^^^ q := by
  have e1 : (16 * p + q) / 16 = p := by omega
  have e2 : (16 * p + q) % 16 = q := by omega
  constructor
  · have := Nat.xor_div_two_pow (a := a) (b := 16 * p + q) (n := 4)
    rw [show 2 ^ 4 = 16 from rfl, e1] at this
    exact this
  · have := Nat.xor_mod_two_pow (a := a) (b := 16 * p + q) (n := 4)
    rw [show 2 ^ 4 = 16 from rfl, e2] at this
    exact this

theorem lastHashed_nibble (mat : Nat → Nat → Nat) (hmat : ∀ i j, mat i j < 16) (h : List Byte) (i : Nat) (hi : i < 64) :
    nibble (lastHashed mat h) i = nibble h i ^^^ product mat h i := by
  have hp := product_lt mat hmat h
  have hx : (lastHashed mat h).getD (i / 2) 0 = h.getD (i / 2) 0 ^^^ BitVec.ofNat 8 (16 * product mat h (2 * (i / 2)) + product mat h (2 * (i / 2) + 1)) := by
    unfold lastHashed
    rw [List.getD_eq_getElem?_getD, List.getElem?_map, List.getElem?_range (by omega)]
    rfl
  have hv : ((lastHashed mat h).getD (i / 2) 0).toNat = (h.getD (i / 2) 0).toNat ^^^ (16 * product mat h (2 * (i / 2)) + product mat h (2 * (i / 2) + 1)) := by
    rw [hx, BitVec.toNat_xor, BitVec.toNat_ofNat, Nat.mod_eq_of_lt]
    have h1 := hp (2 * (i / 2))
    have h2 := hp (2 * (i / 2) + 1)
    omega
  have hn := xor_nibbles (h.getD (i / 2) 0).toNat (product mat h (2 * (i / 2))) _ (hp (2 * (i / 2) + 1))
  unfold nibble
  rw [hv]
  by_cases h2 : i % 2 = 0
  · rw [if_pos h2, if_pos h2, hn.1, show 2 * (i / 2) = i by omega]
  · rw [if_neg h2, if_neg h2, hn.2, show 2 * (i / 2) + 1 = i by omega]

end HeavyMatrix

open HeavyMatrix

/-- **C105** Every nibble of what is hashed last is that of the first digest, changed by a number of at most `15 S / 1024`, `S` being the sum of
the nibbles of the first digest: about 7 on average, and never 15. -/
theorem C105_bound {F : Type} (N : Num F) (hz : N.big (N.ofU16 0) = false) (P : Prims) (fuel : Nat) (hash : List Byte) (hl : hash.length = 32)
    (ts nonce : U64) (d : Option (List Byte)) (hd : compute N P fuel hash ts nonce = .ok d) :
    let h := powHash P hash ts nonce
    ∃ x, x.length = 32 ∧ d = some (lastHash P x) ∧ ∀ i < 64, ∃ p, p ≤ 15 * nibbleSum h / 1024 ∧ nibble x i = nibble h i ^^^ p := by
  intro h
  obtain ⟨t, _, _, _, e⟩ := (C50_compute N hz P fuel hash hl ts nonce d).mp hd
  refine ⟨lastHashed (entry (seed hash) t) h, by simp [lastHashed], e, fun i hi => ⟨_, ?_, lastHashed_nibble _ (entry_lt _ t) h i hi⟩⟩
  exact product_le _ (entry_lt _ t) h i

/-- **C105** So if the sum is at most 68, the matrix plays no role: `Compute` gives the last hash of the first digest. -/
theorem C105_no_matrix {F : Type} (N : Num F) (hz : N.big (N.ofU16 0) = false) (P : Prims) (fuel : Nat) (hash : List Byte) (hl : hash.length = 32)
    (ts nonce : U64) (d : Option (List Byte)) (hd : compute N P fuel hash ts nonce = .ok d) (hS : nibbleSum (powHash P hash ts nonce) ≤ 68) :
    d = some (lastHash P (powHash P hash ts nonce)) := by
  obtain ⟨h, hh⟩ : ∃ h, h = powHash P hash ts nonce := ⟨_, rfl⟩
  obtain ⟨t, _, _, _, e⟩ := (C50_compute N hz P fuel hash hl ts nonce d).mp hd
  rw [← hh] at hS ⊢
  have h0 : ∀ i, product (entry (seed hash) t) h i = 0 := fun i => by
    have := product_le _ (entry_lt (seed hash) t) h i
    omega
  have hlen : h.length = 32 := by
    rw [hh]
    exact P.cshake256_length _ _ _
  have hx : lastHashed (entry (seed hash) t) h = h := by
    unfold lastHashed
    apply List.ext_getElem?
    intro i
    by_cases hi : i < 32
    · rw [List.getElem?_map, List.getElem?_range hi, Option.map_some, h0, h0, List.getD_eq_getElem?_getD, List.getElem?_eq_getElem (by omega)]
      simp
    · rw [List.getElem?_eq_none (by simp; omega), List.getElem?_eq_none (by omega)]
  rw [e]
  show some (lastHash P (lastHashed (entry (seed hash) t) (powHash P hash ts nonce))) = _
  rw [← hh, hx]

/-- **C105** If it is at most 546, the upper bit of every nibble that is hashed last is that of the first digest. -/
theorem C105_upper_bits {F : Type} (N : Num F) (hz : N.big (N.ofU16 0) = false) (P : Prims) (fuel : Nat) (hash : List Byte) (hl : hash.length = 32)
    (ts nonce : U64) (d : Option (List Byte)) (hd : compute N P fuel hash ts nonce = .ok d) (hS : nibbleSum (powHash P hash ts nonce) ≤ 546) :
    ∃ x, x.length = 32 ∧ d = some (lastHash P x) ∧ ∀ i < 64, nibble x i / 8 = nibble (powHash P hash ts nonce) i / 8 := by
  obtain ⟨x, h1, h2, h3⟩ := C105_bound N hz P fuel hash hl ts nonce d hd
  refine ⟨x, h1, h2, fun i hi => ?_⟩
  obtain ⟨p, hp, e⟩ := h3 i hi
  rw [e]
  have := Nat.xor_div_two_pow (a := nibble (powHash P hash ts nonce) i) (b := p) (n := 3)
  rw [show 2 ^ 3 = 8 from rfl, show p / 8 = 0 by omega, Nat.xor_zero] at this
  exact this

/-- **C105** One wrong entry of the matrix changes at most one coordinate of the product, and that by one at most. -/
theorem C105_entry (mat mat' : Nat → Nat → Nat) (hmat : ∀ i j, mat i j < 16) (a b : Nat) (hne : ∀ i j, (i ≠ a ∨ j ≠ b) → mat i j = mat' i j)
    (h : List Byte) (i : Nat) : (i ≠ a → product mat h i = product mat' h i) ∧ product mat h i ≤ product mat' h i + 1 := by
  constructor
  · intro hi
    unfold product
    rw [List.map_congr_left fun j _ => by rw [hne i j (Or.inl hi)]]
  · have h1 := sum_near (fun j => mat i j * nibble h j) (fun j => mat' i j * nibble h j) b 225 (fun j hj => by rw [hne i j (Or.inr hj)]) (by
      have := Nat.mul_le_mul (Nat.le_of_lt_succ (hmat i b)) (Nat.le_of_lt_succ (nibble_lt h b))
      omega) 64
    unfold product
    split at h1 <;> omega

/-- **C105** One changed nibble of the first digest changes every coordinate of the product by one at most. -/
theorem C105_nibble (mat : Nat → Nat → Nat) (hmat : ∀ i j, mat i j < 16) (h h' : List Byte) (b : Nat) (hne : ∀ j, j ≠ b → nibble h j = nibble h' j)
    (i : Nat) : product mat h i ≤ product mat h' i + 1 := by
  have h1 := sum_near (fun j => mat i j * nibble h j) (fun j => mat i j * nibble h' j) b 225 (fun j hj => by rw [hne j hj]) (by
    have := Nat.mul_le_mul (Nat.le_of_lt_succ (hmat i b)) (Nat.le_of_lt_succ (nibble_lt h b))
    omega) 64
  unfold product
  split at h1 <;> omega

/-- a matrix of nibbles: fifteens in the first row, ones on the diagonal below -/
def dullMat (i j : Nat) : Nat := if i = 0 then 15 else if i = j then 1 else 0

/-- two digests that differ in the first nibble -/
def dullHash (b : Byte) : List Byte := [b, 0xff, 0xf8] ++ List.replicate 29 0

/-- **C105** For a matrix of nibbles of full rank, which the rank routine takes, two different first digests can give the same string to be hashed
last, so that full rank does not make `Compute` one-to-one up to the hash functions. -/
theorem C105_not_injective : (∀ N : Num F64, N = separate ∨ N = fused →
      calculateRank N ((List.range 64).map fun i => (List.range 64).map fun j => BitVec.ofNat 16 (dullMat i j)) = .ok 64) ∧
    (∀ i j, dullMat i j < 16) ∧ dullHash 0x0f ≠ dullHash 0x1f ∧ lastHashed dullMat (dullHash 0x0f) = lastHashed dullMat (dullHash 0x1f) := by
  refine ⟨fun N hN => C81_triangular N hN (fun i j => BitVec.ofNat 16 (dullMat i j)) ?_ ?_, ?_, by decide, by decide +kernel⟩
  · intro i j h
    rw [dullMat, if_neg (by omega), if_neg (by omega)]
    rfl
  · intro i
    rw [dullMat]
    by_cases h : i = 0
    · rw [if_pos h]
      decide
    · rw [if_neg h, if_pos rfl]
      decide
  · intro i j
    unfold dullMat
    split
    · omega
    · split <;> omega

/-- the hypotheses are met: with a first digest of zeros every hash other than zero has a result, the last hash of zeros -/
example (hash : List Byte) (hl : hash.length = 32) (hne : hash ≠ List.replicate 32 0) (ts nonce : U64) :
    ∃ fuel, compute separate Prims.zero fuel hash ts nonce = .ok (some (lastHash Prims.zero (List.replicate 32 0))) := by
  obtain ⟨d, _, h⟩ := C93_returns separate (Or.inl rfl) Prims.zero hash hl hne ts nonce
  refine ⟨2 ^ 256, ?_⟩
  have e := h (2 ^ 256) (Nat.le_refl _)
  rw [e, C105_no_matrix separate ((zeroLike_of separate (Or.inl rfl)).not_big _ (zeroLike_of separate (Or.inl rfl)).zero) Prims.zero _ hash hl ts nonce _ e (show nibbleSum (List.replicate 32 0) ≤ 68 by decide +kernel)]
  rfl

/-- sums of nibbles below and above the bounds -/
example : nibbleSum (dullHash 0x0f) = 68 ∧ nibbleSum (dullHash 0x1f) = 69 ∧ nibbleSum (List.replicate 32 0x78) = 480 := by decide +kernel

/-- the bound 68 is the best one: with 69 the product is not zero for some matrix -/
example : product dullMat (dullHash 0x0f) 0 = 0 ∧ product dullMat (dullHash 0x1f) 0 = 1 := by decide +kernel

/-- one entry changed: the coordinate changes by one, or not at all -/
example : product (fun i j => if i = 0 ∧ j = 1 then 14 else dullMat i j) (dullHash 0x1f) 0 = 0 ∧
    product (fun i j => if i = 0 ∧ j = 9 then 14 else dullMat i j) (dullHash 0x1f) 0 = 1 := by decide +kernel

end Verif.Props
