import Verif.Proof.EquihashVerify

/-! # The twisted group hash with digests below 64 bytes

The code adds words of a digest up to the byte 64. The bytes of a sum depend on the bytes of the same word before them only, so the bytes below
the size of the digest do not depend on what lies behind the digests. -/

set_option autoImplicit false

namespace Verif.Equihash

open Go Spec Spec.Equihash Convutil Crypto

variable {q : Params}

/-- the parameters without the twist -/
def untwisted (q : Params) : Params := { q with twist := false }

/-- hash functions under which plain Equihash has the group hashes of `q` under `P` -/
def plainPrims (P : Prims) (q : Params) (header : List Byte) : Prims :=
  { P with
    blake2bRaw := fun d _ n => (groupHash P q header (leValue (d.drop header.length)) ++ List.replicate n 0).take n
    blake2bRaw_length := by intro d p n _ _; simp }

theorem leEncode_mod (m v : Nat) : leEncode m (v % 256 ^ m) = leEncode m v := by
  apply leNat_inj _ _ (by simp)
  rw [leNat_leEncode, leNat_leEncode, Nat.mod_mod]

theorem rawHash_mod (P : Prims) (q : Params) (header : List Byte) (g : Nat) : rawHash P q header (g % 2 ^ 32) = rawHash P q header g := by
  unfold rawHash
  have := leEncode_mod 4 g
  rw [show (256 : Nat) ^ 4 = 2 ^ 32 by norm_num] at this
  rw [this]

theorem groupHash_mod (P : Prims) (q : Params) (header : List Byte) (g : Nat) : groupHash P q header (g % 2 ^ 32) = groupHash P q header g := by
  unfold groupHash
  have h16 : g % 2 ^ 32 % 16 = g % 16 := Nat.mod_mod_of_dvd g (by norm_num)
  rw [rawHash_mod, h16]
  have e : ∀ t, rawHash P q header (g % 2 ^ 32 - g % 16 + t) = rawHash P q header (g - g % 16 + t) := by
    intro t
    rw [← rawHash_mod P q header (g % 2 ^ 32 - g % 16 + t), ← rawHash_mod P q header (g - g % 16 + t)]
    congr 1
    have := Nat.mod_le g 16
    have h2 : g % 16 ≤ g % 2 ^ 32 := by rw [← h16]; exact Nat.mod_le _ _
    omega
  simp only [e]

theorem groupHash_length_twist (P : Prims) (ht : q.twist = true) (header : List Byte) (g : Nat) : (groupHash P q header g).length = 64 := by
  unfold groupHash
  rw [if_pos ht]
  simp only [List.length_mapIdx]
  rw [flatMap_length_const _ 4 (fun a => by simp)]
  simp

theorem rawHash_plain (P : Prims) (ht : q.twist = true) (hd : q.digest ≤ 64) (header : List Byte) (g : Nat) :
    rawHash (plainPrims P q header) (untwisted q) header g = (groupHash P q header g).take q.digest := by
  show ((groupHash P q header (leValue ((header ++ leEncode 4 g).drop header.length)) ++ List.replicate q.digest 0).take q.digest) = _
  rw [List.drop_left, leValue_eq, leNat_leEncode, show (256 : Nat) ^ 4 = 2 ^ 32 by norm_num, groupHash_mod,
    List.take_append_of_le_length (by rw [groupHash_length_twist P ht]; exact hd)]

theorem chunk_plain (P : Prims) (ht : q.twist = true) (hd : q.digest ≤ 64) (hp : 0 < q.per) (header : List Byte) :
    chunk (plainPrims P q header) (untwisted q) header = chunk P q header := by
  funext i r
  unfold chunk leaf
  have e : groupHash (plainPrims P q header) (untwisted q) header (i / (untwisted q).per) = (groupHash P q header (i / q.per)).take q.digest := by
    rw [← rawHash_plain P ht hd]
    rfl
  rw [e]
  have hlt : i % q.per < q.per := Nat.mod_lt _ hp
  have hfit : i % q.per * q.nb + q.nb ≤ q.digest := by
    have : (i % q.per + 1) * q.nb ≤ q.per * q.nb := Nat.mul_le_mul_right _ hlt
    rw [Nat.add_mul, Nat.one_mul] at this
    exact this
  show beValue ((((groupHash P q header (i / q.per)).take q.digest).drop (i % q.per * q.nb)).take q.nb) / _ / _ % _ = _
  rw [List.drop_take, List.take_take, Nat.min_eq_left (by omega)]
  rfl

/-! ## Sums of words -/

theorem leNat_mod (a : List Byte) (k : Nat) : leNat a % 256 ^ k = leNat (a.take k) := by
  have h := leNat_append (a.take k) (a.drop k)
  rw [List.take_append_drop] at h
  have hl := leNat_lt (a.take k)
  rw [List.length_take] at hl h
  by_cases hk : k ≤ a.length
  · rw [Nat.min_eq_left hk] at hl h
    rw [h, Nat.add_mul_mod_self_left, Nat.mod_eq_of_lt hl]
  · have hk : a.length ≤ k := by omega
    rw [List.take_of_length_le hk] at hl ⊢
    rw [Nat.mod_eq_of_lt (Nat.lt_of_lt_of_le (leNat_lt a) (Nat.pow_le_pow_right (by omega) hk))]

/-- the low bytes of a word of a digest do not depend on what follows the digest -/
theorem leWord32_low (ts ex : List Byte) (l b : Nat) (hb : b < 4) (hl : 4 * l + b < ts.length) :
    (leWord32 (ts ++ ex) l).toNat % 256 ^ (b + 1) = (leWord32 ts l).toNat % 256 ^ (b + 1) := by
  have hd : (256 : Nat) ^ (b + 1) ∣ 2 ^ 32 := by
    rw [pow256]
    exact Nat.pow_dvd_pow 2 (by omega)
  unfold leWord32
  rw [BitVec.toNat_ofNat, BitVec.toNat_ofNat, Nat.mod_mod_of_dvd _ hd, Nat.mod_mod_of_dvd _ hd, leValue_eq, leValue_eq, leNat_mod, leNat_mod,
    List.take_take, List.take_take, Nat.min_eq_left (show b + 1 ≤ 4 by omega)]
  congr 1
  rw [List.drop_append_of_le_length (by omega), List.take_append_of_le_length (by simp; omega)]

theorem laneLoop_wide (tmp : List Byte) (ht : 64 ≤ tmp.length) (acc : List U32) (ha : acc.length = 16) :
    forRange 0 16 acc (laneStep tmp) = .ok (acc.mapIdx fun i x => x + leWord32 tmp i) := by
  rw [forRange_update (f := laneStep tmp) (fun i x => x + leWord32 tmp i) 16 acc (by omega)]
  · congr 1
    apply List.ext_getElem (by simp)
    intro i h1 h2
    have : i < 16 := by simpa [ha] using h1
    simp [this]
  · intro i m x hi hl hm _
    simp only [laneStep]
    rw [slc_ok _ _ _ (by omega) (by omega), ok_bind, getU32, if_pos (by simp; omega), ok_bind, idx, hm, ok_bind,
      upd_ok _ _ _ (by omega)]
    congr 3
    rw [leWord32, leValue_eq]
    congr 2
    rw [List.drop_take, List.take_take, Nat.mul_comm i 4, show min 4 ((i + 1) * 4 - 4 * i) = 4 by omega]
    rfl

/-- sum of the words `l` of the digests `s, …, s + m - 1` -/
def laneSum (P : Prims) (q : Params) (header : List Byte) (s m l : Nat) : Nat :=
  ((List.range m).map fun t => (leWord32 (rawHash P q header (s + t)) l).toNat).sum

/-- words whose bytes below the size of the digest are those of the lane sums -/
def Near (P : Prims) (q : Params) (header : List Byte) (s m : Nat) (ms : List U32) : Prop :=
  ms.length = 16 ∧ ∀ l (x : U32), ms[l]? = some x → ∀ b < 4, 4 * l + b < q.digest → x.toNat % 256 ^ (b + 1) = laneSum P q header s m l % 256 ^ (b + 1)

theorem near_zero (P : Prims) (q : Params) (header : List Byte) (s : Nat) : Near P q header s 0 (List.replicate 16 0) := by
  refine ⟨by simp, ?_⟩
  intro l x hx b _ _
  obtain ⟨hl, rfl⟩ := List.getElem?_eq_some_iff.1 hx
  rw [List.getElem_replicate]
  simp [laneSum]

theorem near_step (P : Prims) (q : Params) (header : List Byte) (s m : Nat) {ms : List U32} (hn : Near P q header s m ms)
    (hl : (rawHash P q header (s + m)).length = q.digest) (ex : List Byte) :
    Near P q header s (m + 1) (ms.mapIdx fun i x => x + leWord32 (rawHash P q header (s + m) ++ ex) i) := by
  refine ⟨by simpa using hn.1, ?_⟩
  intro l y hy b hb hd
  rw [List.getElem?_mapIdx] at hy
  cases hx : ms[l]? with
  | none => rw [hx] at hy; cases hy
  | some x =>
    rw [hx] at hy
    obtain rfl := Option.some.inj hy
    have h1 := hn.2 l x hx b hb hd
    have h2 := leWord32_low (rawHash P q header (s + m)) ex l b hb (by omega)
    have hdv : (256 : Nat) ^ (b + 1) ∣ 2 ^ 32 := by
      rw [pow256]
      exact Nat.pow_dvd_pow 2 (by omega)
    have hs : laneSum P q header s (m + 1) l = laneSum P q header s m l + (leWord32 (rawHash P q header (s + m)) l).toNat := by
      unfold laneSum
      rw [List.range_succ]
      simp
    rw [BitVec.toNat_add, Nat.mod_mod_of_dvd _ hdv, hs, Nat.add_mod, h1, h2, ← Nat.add_mod]

theorem maskLoop_wide (hash : List Byte) (hl : hash.length = 64) (D : Nat) (hD : D ≤ 64) :
    forRange 0 (D / 16) hash maskStep = .ok (hash.mapIdx fun i b => if i % 16 = 15 ∧ i < 16 * (D / 16) then b &&& 0xF8 else b) := by
  obtain ⟨out, e, h1, h2⟩ := forRange_inv (f := maskStep)
    (fun t o => o.length = 64 ∧ ∀ i, o[i]? = (hash[i]?).map fun b => if i % 16 = 15 ∧ i < 16 * t then b &&& 0xF8 else b)
    0 (D / 16) hash (by omega) ⟨hl, by intro i; simp⟩ (by
      rintro t o _ ht ⟨h1, h2⟩
      have hi : 15 + 16 * t < hash.length := by omega
      have ho : o[15 + 16 * t]? = some hash[15 + 16 * t] := by
        rw [h2, List.getElem?_eq_getElem hi]
        simp
      refine ⟨o.set (15 + 16 * t) (hash[15 + 16 * t] &&& 0xF8), ?_, by simpa using h1, ?_⟩
      · simp only [maskStep]
        rw [idx, ho, ok_bind, upd_ok _ _ _ (by omega)]
      · intro i
        by_cases hit : i = 15 + 16 * t
        · subst hit
          rw [List.getElem?_set_self (by omega), List.getElem?_eq_getElem hi]
          simp only [Option.map_some]
          rw [if_pos (by omega)]
        · rw [List.getElem?_set_ne (by omega), h2 i]
          cases hash[i]? with
          | none => rfl
          | some b =>
            simp only [Option.map_some]
            by_cases hc : i % 16 = 15 ∧ i < 16 * t
            · rw [if_pos hc, if_pos (by omega)]
            · rw [if_neg hc, if_neg (by omega)])
  rw [e]
  congr 1
  apply List.ext_getElem?
  intro i
  rw [h2, List.getElem?_mapIdx]

theorem flatMap_four (f : U32 → List Byte) (hf : ∀ x, (f x).length = 4) : ∀ (ms : List U32) (l b : Nat), b < 4 →
    (ms.flatMap f)[4 * l + b]? = (ms[l]?).bind fun x => (f x)[b]?
  | [], _, _, _ => by simp
  | x :: ms, 0, b, hb => by
    rw [List.flatMap_cons, List.getElem?_append_left (by rw [hf]; omega)]
    simp
  | x :: ms, l + 1, b, hb => by
    rw [List.flatMap_cons, List.getElem?_append_right (by rw [hf]; omega), hf, show 4 * (l + 1) + b - 4 = 4 * l + b by omega, flatMap_four f hf ms l b hb]
    simp

/-- the bytes that leaves are taken from -/
theorem near_bytes (P : Prims) (ht : q.twist = true) (hD : q.digest ≤ 64) (header : List Byte) (g : Nat) {ms : List U32}
    (hn : Near P q header (g - g % 16) (g % 16 + 1) ms) :
    ((ms.flatMap (bytesOf .little 4)).mapIdx fun i b => if i % 16 = 15 ∧ i < 16 * (q.digest / 16) then b &&& 0xF8 else b).take q.digest =
      (groupHash P q header g).take q.digest := by
  apply List.ext_getElem?
  intro j
  by_cases hj : j < q.digest
  · rw [List.getElem?_take_of_lt hj, List.getElem?_take_of_lt hj, List.getElem?_mapIdx]
    unfold groupHash
    rw [if_pos ht]
    simp only
    rw [List.getElem?_mapIdx]
    have hmask : (j % 16 = 15 ∧ j < 16 * (q.digest / 16)) ↔ j % 16 = 15 := by omega
    simp only [hmask]
    congr 1
    obtain ⟨l, b, hb, rfl⟩ : ∃ l b, b < 4 ∧ j = 4 * l + b := ⟨j / 4, j % 4, Nat.mod_lt _ (by omega), by omega⟩
    have hl : l < 16 := by omega
    have e1 : ((List.range 16).flatMap fun l => leEncode 4 (((List.range (g % 16 + 1)).map fun t => (leWord32 (rawHash P q header (g - g % 16 + t)) l).toNat).sum % 2 ^ 32)) =
        ((List.range 16).map fun l => BitVec.ofNat 32 (laneSum P q header (g - g % 16) (g % 16 + 1) l)).flatMap (bytesOf .little 4) := by
      rw [List.flatMap_map, List.flatMap_def, List.flatMap_def]
      congr 1
      apply List.map_congr_left
      intro l _
      simp only [bytesOf]
      rw [← leEncode_eq_leBytes, BitVec.toNat_ofNat]
      rfl
    rw [e1, flatMap_four _ (fun x => bytesOf_length .little 4 x) _ _ _ hb, flatMap_four _ (fun x => bytesOf_length .little 4 x) _ _ _ hb]
    have hx : ms[l]? = some (ms[l]'(by rw [hn.1]; exact hl)) := List.getElem?_eq_getElem _
    have key := hn.2 l _ hx b hb hj
    rw [hx, List.getElem?_map, List.getElem?_range hl]
    simp only [Option.map_some, Option.bind_some, bytesOf]
    rw [← leEncode_eq_leBytes, ← leEncode_eq_leBytes, List.getElem?_eq_getElem (by simpa using hb), List.getElem?_eq_getElem (by simpa using hb),
      leEncode_getElem, leEncode_getElem]
    congr 1
    apply BitVec.eq_of_toNat_eq
    rw [BitVec.toNat_ofNat, BitVec.toNat_ofNat, BitVec.toNat_ofNat]
    have hdv : (256 : Nat) ^ (b + 1) ∣ 2 ^ 32 := by
      rw [pow256]
      exact Nat.pow_dvd_pow 2 (by omega)
    have byte : ∀ v : Nat, v / 256 ^ b % 2 ^ 8 = v % 256 ^ (b + 1) / 256 ^ b := by
      intro v
      rw [Nat.pow_succ 256 b, Nat.mod_mul_right_div_self, show (2 : Nat) ^ 8 = 256 by norm_num]
    rw [byte, byte, key, Nat.mod_mod_of_dvd _ hdv]
  · rw [List.getElem?_take_eq_none (by omega), List.getElem?_take_eq_none (by omega)]

end Verif.Equihash
