import Verif.Proof.Heavy

/-! # HeavyHash: the matrix product and the digest -/

set_option autoImplicit false

namespace Verif.Heavy

open Go Spec Spec.Heavy

/-- entry of a list of rows, as a number -/
def ent (mat : List (List U16)) (i j : Nat) : Nat := ((mat.getD i []).getD j 0).toNat

/-- the vector of nibbles -/
def vec (h : List Byte) : List U16 := (List.range 64).map fun j => BitVec.ofNat 16 (nibble h j)

theorem nibble_lt (h : List Byte) (j : Nat) : nibble h j < 16 := by
  unfold nibble
  have := (h.getD (j / 2) 0).isLt
  split <;> omega

theorem vectorLoop (h : List Byte) (hl : h.length = 32) :
    forRange 0 (size / 2) (List.replicate size (0 : U16)) (vectorStep h) = .ok (vec h) := by
  obtain ⟨m, e, h1, h2⟩ := forRange_inv (f := vectorStep h)
    (fun i v => v.length = 64 ∧ ∀ j < 2 * i, v[j]? = some (BitVec.ofNat 16 (nibble h j)))
    0 32 (List.replicate size (0 : U16)) (by omega) ⟨by simp [size], by intros; omega⟩ (by
      rintro i v _ hi ⟨hv, hj⟩
      have hgd : h.getD i 0 = h[i] := by simp [List.getD_eq_getElem?_getD, List.getElem?_eq_getElem (show i < h.length by omega)]
      have e1 : (h[i] >>> 4).setWidth 16 = BitVec.ofNat 16 (nibble h (2 * i)) := by
        apply BitVec.eq_of_toNat_eq
        have := (h[i]).isLt
        rw [BitVec.toNat_setWidth, BitVec.toNat_ushiftRight, Nat.shiftRight_eq_div_pow, BitVec.toNat_ofNat, nibble, if_pos (by omega),
          show 2 * i / 2 = i by omega, hgd]
      have e2 : (h[i] &&& 0x0f).setWidth 16 = BitVec.ofNat 16 (nibble h (2 * i + 1)) := by
        apply BitVec.eq_of_toNat_eq
        rw [BitVec.toNat_setWidth, BitVec.toNat_and, show (0x0f : Byte).toNat = 2 ^ 4 - 1 from rfl, Nat.and_two_pow_sub_one_eq_mod,
          BitVec.toNat_ofNat, nibble, if_neg (by omega), show (2 * i + 1) / 2 = i by omega, hgd]
      unfold vectorStep
      rw [idx_ok _ _ (by omega), ok_bind, upd_ok _ _ _ (by omega), ok_bind, upd_ok _ _ _ (by simp; omega), e1, e2]
      refine ⟨_, rfl, by simpa using hv, ?_⟩
      intro j hj2
      by_cases c1 : i * 2 + 1 = j
      · rw [c1, List.getElem?_set_self (by simp; omega), ← c1, Nat.mul_comm]
      · rw [List.getElem?_set_ne c1]
        by_cases c2 : i * 2 = j
        · rw [c2, List.getElem?_set_self (by omega), ← c2, Nat.mul_comm]
        · rw [List.getElem?_set_ne c2]
          exact hj j (by omega))
  rw [show size / 2 = 32 from rfl, e]
  refine congrArg Except.ok ?_
  apply List.ext_getElem?
  intro j
  by_cases hj : j < 64
  · rw [h2 j (by omega), vec, List.getElem?_map, List.getElem?_range hj]; rfl
  · rw [List.getElem?_eq_none (by omega), List.getElem?_eq_none (by simp [vec]; omega)]

theorem sum_range_succ (f : Nat → Nat) (n : Nat) : ((List.range (n + 1)).map f).sum = ((List.range n).map f).sum + f n := by
  rw [List.range_succ]; simp

theorem dotLoop (mat : List (List U16)) (hm : Square mat) (hb : ∀ i j, i < 64 → j < 64 → ent mat i j < 16) (h : List Byte) (i : Nat) (hi : i < 64) :
    ∃ s : U16, forRange 0 size 0 (dotStep (mat.getD i []) (vec h)) = .ok s ∧
      s.toNat = ((List.range 64).map fun j => ent mat i j * nibble h j).sum ∧
      ((List.range 64).map fun j => ent mat i j * nibble h j).sum ≤ 14400 := by
  have hml : (mat.getD i []).length = 64 := by
    have : i < mat.length := by rw [hm.1]; exact hi
    rw [show mat.getD i [] = mat[i] by simp [List.getD_eq_getElem?_getD, List.getElem?_eq_getElem this]]
    exact hm.2 _ (List.getElem_mem _)
  obtain ⟨s, e, h1, h2⟩ := forRange_inv (f := dotStep (mat.getD i []) (vec h))
    (fun k s => s.toNat = ((List.range k).map fun j => ent mat i j * nibble h j).sum ∧
      ((List.range k).map fun j => ent mat i j * nibble h j).sum ≤ 225 * k)
    0 64 0 (by omega) ⟨rfl, by simp⟩ (by
      rintro k s _ hk ⟨hs, hle⟩
      have hent : ((mat.getD i [])[k]'(by omega)).toNat = ent mat i k := by
        unfold ent
        rw [List.getD_eq_getElem?_getD (i := k), List.getElem?_eq_getElem (by omega)]; rfl
      have hmul : ent mat i k * nibble h k ≤ 15 * 15 :=
        Nat.mul_le_mul (Nat.le_of_lt_succ (hb i k hi hk)) (Nat.le_of_lt_succ (nibble_lt h k))
      have hvk : (vec h)[k]'(by simp [vec]; omega) = BitVec.ofNat 16 (nibble h k) := by simp [vec]
      have hn := nibble_lt h k
      unfold dotStep
      rw [idx_ok _ _ (by omega), ok_bind, idx_ok _ _ (by simp [vec]; omega), ok_bind, hvk]
      refine ⟨_, rfl, ?_, ?_⟩
      · rw [BitVec.toNat_add, BitVec.toNat_mul, hent, BitVec.toNat_ofNat, Nat.mod_eq_of_lt (show nibble h k < 2 ^ 16 by omega), hs,
          sum_range_succ, Nat.mod_eq_of_lt (show ent mat i k * nibble h k < 2 ^ 16 by omega), Nat.mod_eq_of_lt (by omega)]
      · rw [sum_range_succ]; omega)
  exact ⟨s, e, h1, by omega⟩

theorem product_lt (mat : List (List U16)) (hm : Square mat) (hb : ∀ i j, i < 64 → j < 64 → ent mat i j < 16) (h : List Byte) (i : Nat) (hi : i < 64) :
    product (ent mat) h i < 16 := by
  obtain ⟨s, _, _, h3⟩ := dotLoop mat hm hb h i hi
  unfold product
  omega

theorem productLoop (mat : List (List U16)) (hm : Square mat) (hb : ∀ i j, i < 64 → j < 64 → ent mat i j < 16) (h : List Byte) :
    forRange 0 size (List.replicate size (0 : U16)) (productStep mat (vec h)) =
      .ok ((List.range 64).map fun i => BitVec.ofNat 16 (product (ent mat) h i)) := by
  apply forRange_fill (fun i => BitVec.ofNat 16 (product (ent mat) h i)) 64 _ (by simp [size])
  intro i m hi hml _
  obtain ⟨s, e, h1, h2⟩ := dotLoop mat hm hb h i hi
  have hmi : i < mat.length := by rw [hm.1]; exact hi
  have hgd : mat.getD i [] = mat[i] := by simp [List.getD_eq_getElem?_getD, List.getElem?_eq_getElem hmi]
  unfold productStep
  rw [idx_ok _ _ hmi, ok_bind, ← hgd, e, ok_bind, upd_ok _ _ _ (by omega)]
  congr 2
  apply BitVec.eq_of_toNat_eq
  rw [BitVec.toNat_ushiftRight, Nat.shiftRight_eq_div_pow, h1, BitVec.toNat_ofNat]
  unfold product
  omega

theorem pack_nibbles (a b : Nat) (ha : a < 16) (hb : b < 16) :
    ((BitVec.ofNat 16 a) <<< 4).setWidth 8 ||| (BitVec.ofNat 16 b).setWidth 8 = BitVec.ofNat 8 (16 * a + b) := by
  apply BitVec.eq_of_toNat_eq
  simp only [BitVec.toNat_or, BitVec.toNat_setWidth, BitVec.toNat_shiftLeft, BitVec.toNat_ofNat]
  rw [Nat.mod_eq_of_lt (show a < 2 ^ 16 by omega), Nat.mod_eq_of_lt (show b < 2 ^ 16 by omega),
    Nat.shiftLeft_eq, Nat.mod_eq_of_lt (show a * 2 ^ 4 < 2 ^ 16 by omega), Nat.mod_eq_of_lt (show a * 2 ^ 4 < 2 ^ 8 by omega),
    Nat.mod_eq_of_lt (show b < 2 ^ 8 by omega), Nat.mod_eq_of_lt (show 16 * a + b < 2 ^ 8 by omega), Nat.mul_comm a,
    ← Nat.two_pow_add_eq_or_of_lt (i := 4) (by omega)]

theorem digestLoop (mat : List (List U16)) (hm : Square mat) (hb : ∀ i j, i < 64 → j < 64 → ent mat i j < 16) (h : List Byte) (hl : h.length = 32) :
    forRange 0 32 (List.replicate 32 (0 : Byte)) (digestStep h ((List.range 64).map fun i => BitVec.ofNat 16 (product (ent mat) h i))) =
      .ok ((List.range 32).map fun i => h.getD i 0 ^^^ BitVec.ofNat 8 (16 * product (ent mat) h (2 * i) + product (ent mat) h (2 * i + 1))) := by
  apply forRange_fill (fun i => h.getD i 0 ^^^ BitVec.ofNat 8 (16 * product (ent mat) h (2 * i) + product (ent mat) h (2 * i + 1))) 32 _ (by simp)
  intro i m hi hml _
  have hgd : h.getD i 0 = h[i] := by simp [List.getD_eq_getElem?_getD, List.getElem?_eq_getElem (show i < h.length by omega)]
  unfold digestStep
  rw [idx_ok _ _ (by omega), ok_bind, idx_ok _ _ (by simp; omega), ok_bind, idx_ok _ _ (by simp; omega), ok_bind, upd_ok _ _ _ (by omega),
    List.getElem_map, List.getElem_map, List.getElem_range, List.getElem_range,
    pack_nibbles _ _ (product_lt mat hm hb h _ (by omega)) (product_lt mat hm hb h _ (by omega)), hgd, Nat.mul_comm i 2]

theorem reverseLoop (b : List Byte) : forRange 0 (b.length / 2) b swapStep = .ok b.reverse := Beam.reverseBytes_eq b

/-! ### the whole function -/

theorem product_congr (m m' : Nat → Nat → Nat) (h : List Byte) (i : Nat) (hm : ∀ j, j < 64 → m i j = m' i j) :
    product m h i = product m' h i := by
  unfold product
  congr 2
  apply List.map_congr_left
  intro j hj
  rw [hm j (List.mem_range.1 hj)]

theorem digest_congr (P : Prims) (m m' : Nat → Nat → Nat) (hash : List Byte) (ts nonce : U64)
    (hm : ∀ i j, i < 64 → j < 64 → m i j = m' i j) : Spec.Heavy.digest P m hash ts nonce = Spec.Heavy.digest P m' hash ts nonce := by
  unfold Spec.Heavy.digest
  generalize powHash P hash ts nonce = h
  have : ((List.range 32).map fun i => h.getD i 0 ^^^ BitVec.ofNat 8 (16 * product m h (2 * i) + product m h (2 * i + 1))) =
      (List.range 32).map fun i => h.getD i 0 ^^^ BitVec.ofNat 8 (16 * product m' h (2 * i) + product m' h (2 * i + 1)) := by
    apply List.map_congr_left
    intro i hi
    rw [List.mem_range] at hi
    rw [product_congr m m' _ _ (fun j hj => hm _ j (by omega) hj), product_congr m m' _ (2 * i + 1) (fun j hj => hm _ j (by omega) hj)]
  dsimp only
  rw [this]

theorem ent_candidate (s : XState) (t i j : Nat) (hi : i < 64) (hj : j < 64) : ent (candidate s t) i j = entry s t i j := by
  have hlt : entry s t i j < 16 := Nat.mod_lt _ (by omega)
  unfold ent candidate
  rw [List.getD_eq_getElem?_getD (i := i), List.getElem?_map, List.getElem?_range hi]
  simp only [Option.map_some, Option.getD_some]
  rw [List.getD_eq_getElem?_getD (i := j), List.getElem?_map, List.getElem?_range hj]
  simp only [Option.map_some, Option.getD_some, BitVec.toNat_ofNat]
  omega

theorem leWord (hash : List Byte) (i : Nat) (h : 8 * i + 8 ≤ hash.length) (lo hi : Nat) (h1 : lo = 8 * i) (h2 : hi = 8 * i + 8) :
    (slc hash lo hi >>= fun b => getU64 .little b) = .ok (leWord64 hash i) := by
  subst h1 h2
  rw [slc_ok _ _ _ (by omega) h, ok_bind]
  unfold getU64
  rw [if_pos (by simp; omega)]
  unfold leWord64
  rw [leValue_eq, natOf, List.take_of_length_le (by simp; omega), List.drop_take]
  simp

theorem heavyHash_eq {F : Type} (N : Num F) (P : Prims) (fuel : Nat) (hash : List Byte) (hl : hash.length = 32) (ts nonce : U64) :
    heavyHash N P fuel hash ts nonce =
      (newMatrix N fuel (leWord64 hash 0) (leWord64 hash 1) (leWord64 hash 2) (leWord64 hash 3) >>= fun mat =>
        (let header := powHash P hash ts nonce
        do
        let v ← forRange 0 (size / 2) (List.replicate size (0 : U16)) (vectorStep header)
        let p ← forRange 0 size (List.replicate size (0 : U16)) (productStep mat v)
        let digest ← forRange 0 32 (List.replicate 32 (0 : Byte)) (digestStep header p)
        let digest := cshake256 P digest [72, 101, 97, 118, 121, 72, 97, 115, 104] 32
        forRange 0 (digest.length / 2) digest swapStep)) := by
  unfold heavyHash
  have w : ∀ i, i < 4 → ∀ lo hi, lo = 8 * i → hi = 8 * i + 8 → ∀ {β : Type} (f : U64 → Go β),
      (slc hash lo hi >>= fun b => getU64 .little b >>= f) = f (leWord64 hash i) := by
    intro i hi4 lo hi h1 h2 β f
    have := leWord hash i (by omega) lo hi h1 h2
    rw [← ok_bind (leWord64 hash i) f, ← this]
    cases slc hash lo hi <;> rfl
  rw [w 0 (by omega) _ _ rfl rfl, w 1 (by omega) _ _ rfl rfl, w 2 (by omega) _ _ rfl rfl, w 3 (by omega) _ _ rfl rfl]
  congr 1
  funext mat
  have ht : hash.take 32 = hash := List.take_of_length_le (by omega)
  have hd : (List.replicate (32 + 8 + 32 + 8) (0 : Byte)).drop hash.length = List.replicate 48 0 := by rw [hl]; rfl
  dsimp only
  rw [ht, hd]
  have p1 : putU64 .little (hash ++ List.replicate 48 0) 32 ts = .ok (hash ++ leEncode 8 ts.toNat ++ List.replicate 40 0) := by
    unfold putU64
    rw [if_neg (by simp [hl]), if_neg (by simp [hl])]
    refine congrArg Except.ok ?_
    rw [List.take_left' hl, leEncode_eq_leBytes, List.drop_append, List.drop_of_length_le (by omega), hl]
    rfl
  have p2 : putU64 .little (hash ++ leEncode 8 ts.toNat ++ List.replicate 40 0) 72 nonce =
      .ok (hash ++ leEncode 8 ts.toNat ++ List.replicate 32 0 ++ leEncode 8 nonce.toNat) := by
    unfold putU64
    rw [if_neg (by simp [hl]), if_neg (by simp [hl])]
    refine congrArg Except.ok ?_
    have hle : (hash ++ leEncode 8 ts.toNat).length = 40 := by simp [hl]
    rw [List.take_append, List.take_of_length_le (by omega), hle, leEncode_eq_leBytes (v := nonce), List.drop_of_length_le (by simp [hl])]
    simp [bytesOf]
  rw [p1, ok_bind, p2, ok_bind]
  rfl

theorem heavyHash_draw {F : Type} (N : Num F) (P : Prims) (fuel : Nat) (hash : List Byte) (hl : hash.length = 32) (ts nonce : U64) (t : Nat)
    (hm : newMatrix N fuel (leWord64 hash 0) (leWord64 hash 1) (leWord64 hash 2) (leWord64 hash 3) = .ok (candidate (seed hash) t)) :
    heavyHash N P fuel hash ts nonce = .ok (Spec.Heavy.digest P (entry (seed hash) t) hash ts nonce) := by
  have hlen : (powHash P hash ts nonce).length = 32 := P.cshake256_length _ _ _
  have hsq := candidate_square (seed hash) t
  have hb : ∀ i j, i < 64 → j < 64 → ent (candidate (seed hash) t) i j < 16 := by
    intro i j hi hj
    rw [ent_candidate _ _ _ _ hi hj]
    exact Nat.mod_lt _ (by omega)
  rw [heavyHash_eq N P fuel hash hl, hm, ok_bind]
  dsimp only
  rw [vectorLoop _ hlen, ok_bind, productLoop _ hsq hb, ok_bind, digestLoop _ hsq hb _ hlen, ok_bind, reverseLoop,
    ← digest_congr P (ent (candidate (seed hash) t)) (entry (seed hash) t) hash ts nonce (fun i j hi hj => ent_candidate _ _ _ _ hi hj)]
  rfl

end Verif.Heavy
