import Verif.Proof.Expand
import Verif.Spec.Equihash

/-! # Equihash: sizes, group hashes and leaves -/

set_option autoImplicit false

namespace Verif.Equihash

open Go Spec Spec.Equihash Convutil Crypto

variable {q : Params}

theorem wf_k (h : q.WF) : q.k < 32 := by
  have h1 := h.small
  have h2 := h.c_lo
  have : 2 ^ q.k ≤ 2 ^ q.k * (q.c + 1) := Nat.le_mul_of_pos_right _ (by omega)
  exact (Nat.pow_lt_pow_iff_right (a := 2) (by omega)).1 (by omega)

theorem wf_n (h : q.WF) : 8 ≤ q.n := by
  have h1 := h.div
  have h2 := h.c_lo
  have : q.c ≤ (q.k + 1) * q.c := Nat.le_mul_of_pos_left _ (by omega)
  omega

theorem wf_k1 (h : q.WF) : (q.k + 1) ≤ 64 := by
  have h1 := h.div
  have h2 := h.c_lo
  have h3 := h.n_hi
  have : (q.k + 1) * 8 ≤ (q.k + 1) * q.c := Nat.mul_le_mul_left _ h2
  omega

theorem cbl_eq (h : q.WF) : collisionBitLength q.n q.k = .ok q.c := by
  have := wf_k h
  rw [collisionBitLength, divN, show u32 (q.k + 1) = q.k + 1 from Nat.mod_eq_of_lt (by omega), if_neg (by omega)]
  rfl

/-- collision byte length -/
abbrev cw (q : Params) : Nat := (q.c + 7) / 8

theorem cByte_eq (h : q.WF) : collisionByteLength q.n q.k = .ok (cw q) := by
  have := h.c_hi
  rw [collisionByteLength, cbl_eq h, ok_bind, show u32 (q.c + 7) = q.c + 7 from Nat.mod_eq_of_lt (by omega)]
  rfl

theorem per_eq (h : q.WF) : indicesPerHashOutput q.n = .ok q.per := by
  have := wf_n h
  rw [indicesPerHashOutput, divN, if_neg (by omega)]; rfl

theorem per_pos (h : q.WF) : 0 < q.per := Nat.div_pos h.n_hi (by have := wf_n h; omega)

theorem nb_pos (h : q.WF) : 0 < q.nb := by have := wf_n h; unfold Params.nb; omega

theorem nb_eq (h : q.WF) : u32 (q.n + 7) / 8 = q.nb := by
  have := h.n_hi
  rw [show u32 (q.n + 7) = q.n + 7 from Nat.mod_eq_of_lt (by omega)]; rfl

theorem hashOutput_eq (h : q.WF) : hashOutput q.n = .ok q.digest := by
  have := h.digest_le
  rw [hashOutput, per_eq h, ok_bind, nb_eq h]
  rw [show u32 (q.per * q.nb) = q.digest from Nat.mod_eq_of_lt (by unfold Params.digest at this; omega)]
  rfl

theorem digest_pos (h : q.WF) : 0 < q.digest := Nat.mul_pos (per_pos h) (nb_pos h)

/-- personal ‖ LE32 n ‖ LE32 k -/
def pstate (q : Params) : List Byte := q.personal ++ leEncode 4 q.n ++ leEncode 4 q.k

theorem copy_zero (a : List Byte) (m : Nat) : copyAt (List.replicate (a.length + m) 0) 0 a = .ok (a ++ List.replicate m 0) := by
  rw [copyAt_ok _ _ _ (by simp)]
  simp

theorem put_le (a : List Byte) (m M : Nat) (hM : M = 4 + m) (v : U32) :
    putU32 .little (a ++ List.replicate M 0) a.length v = .ok (a ++ leEncode 4 v.toNat ++ List.replicate m 0) := by
  subst hM
  rw [putU32, if_neg (by simp), if_neg (by simp)]
  simp [bytesOf, leEncode_eq_leBytes]

theorem pstate_eq (h : q.WF) :
    (do
      let personalState := List.replicate (q.personal.length + 8) (0 : Byte)
      let personalState ← copyAt personalState 0 q.personal
      let personalState ← putU32 .little personalState q.personal.length (BitVec.ofNat 32 q.n)
      putU32 .little personalState (q.personal.length + 4) (BitVec.ofNat 32 q.k)) = .ok (pstate q) := by
  have hn := h.n_hi
  have hk := wf_k h
  simp only
  rw [copy_zero, ok_bind, put_le q.personal 4 8 rfl, ok_bind]
  have e : q.personal.length + 4 = (q.personal ++ leEncode 4 (BitVec.ofNat 32 q.n).toNat).length := by simp
  rw [e, put_le _ 0 4 rfl]
  simp only [BitVec.toNat_ofNat, Nat.mod_eq_of_lt (show q.n < 2 ^ 32 by omega), Nat.mod_eq_of_lt (show q.k < 2 ^ 32 by omega),
    List.replicate_zero, List.append_nil]
  rfl

theorem blakeOff_eq (P : Prims) (h : q.WF) (header : List Byte) (g : U32) :
    hashBlakeWithOffset P header (pstate q) g q.digest = .ok (rawHash P q header g.toNat) := by
  simp only [hashBlakeWithOffset]
  rw [copy_zero, ok_bind, put_le header 0 4 rfl, ok_bind, List.replicate_zero, List.append_nil]
  have h1 := h.digest_le
  have h2 := digest_pos h
  have h3 := h.personal_le
  have h4 : q.digest ≠ 0 := by omega
  have h5 : (pstate q).length ≤ 16 := by simp [pstate]; omega
  simp only [blake2b]
  rw [Nat.mod_eq_of_lt (show q.digest < 256 by omega), if_neg h4, if_neg (by omega)]
  rfl

theorem rawHash_length (P : Prims) (h : q.WF) (header : List Byte) (g : Nat) : (rawHash P q header g).length = q.digest :=
  P.blake2bRaw_length _ _ _ (digest_pos h) h.digest_le

/-! ### the twisted group hash -/

theorem laneLoop_eq (tmp : List Byte) (ht : tmp.length = 64) (acc : List U32) (ha : acc.length = 16) :
    forRange 0 16 acc (laneStep tmp) = .ok (acc.mapIdx fun i x => x + leWord32 tmp i) := by
  rw [forRange_update (f := laneStep tmp) (fun i x => x + leWord32 tmp i) 16 acc (by omega)]
  · congr 1
    apply List.ext_getElem (by simp)
    intro i h1 h2
    have : i < 16 := by simpa [ha] using h1
    simp [this]
  · intro i m x hi hl hm _
    simp only [laneStep]
    rw [slc_ok _ _ _ (by omega) (by omega), ok_bind, getU32, if_pos (by simp; omega), ok_bind, idx, hm, ok_bind,
      upd_ok _ _ _ (by omega)]
    congr 3
    rw [leWord32, leValue_eq]
    congr 2
    rw [List.drop_take, List.take_take, Nat.mul_comm i 4, show min 4 ((i + 1) * 4 - 4 * i) = 4 by omega]
    rfl

/-- lane sums over the offsets `s, s+1, …, s+m-1` -/
def lanes (P : Prims) (q : Params) (header : List Byte) (s m : Nat) : List U32 :=
  (List.range 16).map fun l =>
    BitVec.ofNat 32 ((List.range m).map fun t => (leWord32 (rawHash P q header (s + t)) l).toNat).sum

theorem twist_loop (P : Prims) (h : q.WF) (h64 : q.digest = 64) (header : List Byte) (g : U32) (hg : g.toNat < 2 ^ 32 - 1) (s : Nat) :
    ∀ (d m fuel : Nat), s + m + d = g.toNat + 1 → d + 1 ≤ fuel →
      forever fuel (BitVec.ofNat 32 (s + m), lanes P q header s m) (twistStep P header (pstate q) g q.digest) =
        .ok (lanes P q header s (g.toNat + 1 - s)) := by
  intro d
  induction d with
  | zero =>
    intro m fuel hm hf
    obtain ⟨f, rfl⟩ : ∃ f, fuel = f + 1 := ⟨fuel - 1, by omega⟩
    have hle : ¬ (BitVec.ofNat 32 (s + m) ≤ g) := by
      rw [BitVec.le_def, BitVec.toNat_ofNat, Nat.mod_eq_of_lt (by omega)]; omega
    rw [forever_ret (b := lanes P q header s m)]
    · rw [show g.toNat + 1 - s = m by omega]
    · simp only [twistStep]
      rw [if_neg hle]; rfl
  | succ d ih =>
    intro m fuel hm hf
    obtain ⟨f, rfl⟩ : ∃ f, fuel = f + 1 := ⟨fuel - 1, by omega⟩
    have htn : (BitVec.ofNat 32 (s + m)).toNat = s + m := by rw [BitVec.toNat_ofNat, Nat.mod_eq_of_lt (by omega)]
    have hle : BitVec.ofNat 32 (s + m) ≤ g := by rw [BitVec.le_def, htn]; omega
    rw [forever_cont (s' := (BitVec.ofNat 32 (s + (m + 1)), lanes P q header s (m + 1)))]
    · exact ih (m + 1) f (by omega) (by omega)
    · simp only [twistStep]
      rw [if_pos hle, blakeOff_eq P h, ok_bind, htn,
        laneLoop_eq _ (by rw [rawHash_length P h, h64]) _ (by simp [lanes]), ok_bind]
      simp only [pure_eq_ok]
      congr 3
      · apply BitVec.eq_of_toNat_eq
        rw [BitVec.toNat_add, htn, BitVec.toNat_ofNat]
        rfl
      · apply List.ext_getElem (by simp [lanes])
        intro i h1 h2
        have hs : ∀ f : Nat → Nat, ((List.range (m + 1)).map f).sum = ((List.range m).map f).sum + f m := by
          intro f; rw [List.range_succ]; simp
        simp only [lanes, List.getElem_mapIdx, List.getElem_map, List.getElem_range, hs]
        rw [BitVec.ofNat_add, BitVec.ofNat_toNat, BitVec.setWidth_eq]

theorem start_eq (g : U32) : (g &&& 0xFFFFFFF0) = BitVec.ofNat 32 (g.toNat - g.toNat % 16) := by
  have h16 : g.toNat - g.toNat % 16 = 2 ^ 4 * (g.toNat / 2 ^ 4) := by
    have := Nat.div_add_mod g.toNat 16; omega
  rw [h16]
  apply BitVec.eq_of_getLsbD_eq
  intro i hi
  have hm : (0xFFFFFFF0 : U32) = ~~~(BitVec.ofNat 32 (2 ^ 4 - 1)) := by decide
  rw [hm, BitVec.getLsbD_and, BitVec.getLsbD_not, BitVec.getLsbD_ofNat, BitVec.getLsbD_ofNat, Nat.testBit_two_pow_sub_one,
    Nat.testBit_two_pow_mul, Nat.testBit_div_two_pow]
  by_cases h4 : i < 4
  · simp [h4, hi]
  · simp only [hi, h4, decide_true, decide_false, Bool.and_false, Bool.not_false, Bool.and_true, Bool.true_and]
    have : 4 ≤ i := by omega
    simp [this, BitVec.getLsbD, Nat.sub_add_cancel this]

theorem maskLoop_eq (hash : List Byte) (hl : hash.length = 64) :
    forRange 0 (64 / 16) hash maskStep = .ok (hash.mapIdx fun i b => if i % 16 = 15 then b &&& 0xF8 else b) := by
  obtain ⟨out, e, h1, h2⟩ := forRange_inv (f := maskStep)
    (fun t o => o.length = 64 ∧ ∀ i, o[i]? = (hash[i]?).map fun b => if i % 16 = 15 ∧ i < 16 * t then b &&& 0xF8 else b)
    0 4 hash (by omega) ⟨hl, by intro i; simp⟩ (by
      rintro t o _ ht ⟨h1, h2⟩
      have hi : 15 + 16 * t < hash.length := by omega
      have ho : o[15 + 16 * t]? = some hash[15 + 16 * t] := by
        rw [h2, List.getElem?_eq_getElem hi]
        simp
      refine ⟨o.set (15 + 16 * t) (hash[15 + 16 * t] &&& 0xF8), ?_, by simpa using h1, ?_⟩
      · simp only [maskStep]
        rw [idx, ho, ok_bind, upd_ok _ _ _ (by omega)]
      · intro i
        by_cases hit : i = 15 + 16 * t
        · subst hit
          rw [List.getElem?_set_self (by omega), List.getElem?_eq_getElem hi]
          simp only [Option.map_some]
          rw [if_pos (by omega)]
        · rw [List.getElem?_set_ne (by omega), h2 i]
          cases hash[i]? with
          | none => rfl
          | some b =>
            simp only [Option.map_some]
            by_cases hc : i % 16 = 15 ∧ i < 16 * t
            · rw [if_pos hc, if_pos (by omega)]
            · rw [if_neg hc, if_neg (by omega)])
  rw [show (64 : Nat) / 16 = 4 from rfl, e]
  congr 1
  apply List.ext_getElem?
  intro i
  rw [h2, List.getElem?_mapIdx]
  by_cases hi : i < 64
  · simp only [show i < 16 * 4 from hi, and_true]
  · rw [List.getElem?_eq_none (by omega)]; rfl

theorem generateHash_eq (P : Prims) (h : q.WF) (header : List Byte) (g : U32) (hg : g.toNat < 2 ^ 32 - 1) (fuel : Nat) (hf : 17 ≤ fuel) :
    generateHash P fuel header (pstate q) g q.digest q.twist = .ok (groupHash P q header g.toNat) := by
  unfold generateHash groupHash
  cases htw : q.twist with
  | false => simp only [Bool.not_false, if_true]; exact blakeOff_eq P h header g
  | true =>
    have h64 := h.twisted htw
    simp only [Bool.not_true, Bool.false_eq_true, if_false, if_true]
    have hmod : g.toNat % 16 < 16 := Nat.mod_lt _ (by omega)
    have hle := Nat.mod_le g.toNat 16
    have key := twist_loop P h h64 header g hg (g.toNat - g.toNat % 16) (g.toNat % 16 + 1) 0 fuel (by omega) (by omega)
    rw [Nat.add_zero, ← start_eq] at key
    have h0 : lanes P q header (g.toNat - g.toNat % 16) 0 = List.replicate 16 (0 : U32) := by
      apply List.ext_getElem (by simp [lanes])
      intro i h1 h2
      rw [List.getElem_replicate]
      simp only [lanes, List.getElem_map]
      rfl
    rw [h0] at key
    rw [key, ok_bind, show g.toNat + 1 - (g.toNat - g.toNat % 16) = g.toNat % 16 + 1 by omega, uint32ArrayToBytes_eq, ok_bind, h64]
    have hfl : ((lanes P q header (g.toNat - g.toNat % 16) (g.toNat % 16 + 1)).flatMap (bytesOf .little 4)).length = 64 := by
      rw [flatMap_length_const _ 4 (fun a => bytesOf_length .little 4 a)]; simp [lanes]
    rw [maskLoop_eq _ hfl]
    congr 2
    rw [lanes, List.flatMap_map]
    rw [List.flatMap_def, List.flatMap_def]
    congr 1
    apply List.map_congr_left
    intro l _
    simp only [bytesOf]
    rw [← leEncode_eq_leBytes, BitVec.toNat_ofNat]

theorem groupHash_length (P : Prims) (h : q.WF) (header : List Byte) (g : Nat) : (groupHash P q header g).length = q.digest := by
  unfold groupHash
  cases htw : q.twist with
  | false => simpa using rawHash_length P h header g
  | true =>
    simp only [if_true, List.length_mapIdx]
    rw [flatMap_length_const _ 4 (fun a => by simp), h.twisted htw]; simp

end Verif.Equihash
