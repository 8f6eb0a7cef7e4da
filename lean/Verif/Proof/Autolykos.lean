import Verif.Go.Prelude
import Verif.Go.Update
import Verif.Go.Bytes
import Verif.Model.Autolykos
import Verif.Spec.Autolykos
import Verif.Proof.SpecBytes
import Verif.Proof.Convutil

/-! # Autolykos2: the code computes the specification -/

set_option autoImplicit false

namespace Verif.Autolykos

open Go Spec Spec.Autolykos

/-! ## big.Int.Bytes -/

theorem minimalBytes_length (v : Nat) : (minimalBytes v).length = if v = 0 then 0 else v.log2 / 8 + 1 := by
  induction v using Nat.strongRecOn with
  | _ v ih =>
    rw [minimalBytes]
    by_cases h : v = 0
    · simp [h]
    · rw [if_neg h, if_neg h, List.length_append, ih (v / 256) (by omega)]
      by_cases h2 : v / 256 = 0
      · rw [if_pos h2]
        have : v.log2 < 8 := (Nat.log2_lt h).mpr (by omega)
        simp; omega
      · rw [if_neg h2]
        have h8 : v.log2 = (v / 256).log2 + 8 := by
          have h1 : 256 ≤ v := by omega
          refine (Nat.log2_eq_iff h).mpr ⟨?_, ?_⟩
          · have := Nat.log2_self_le h2
            rw [Nat.pow_add]
            omega
          · have := Nat.lt_log2_self (n := v / 256)
            rw [show (v / 256).log2 + 8 + 1 = ((v / 256).log2 + 1) + 8 by omega, Nat.pow_add]
            omega
        simp; omega

theorem minimalBytes_eq (v : Nat) : minimalBytes v = beEncode (minimalBytes v).length v := by
  induction v using Nat.strongRecOn with
  | _ v ih =>
    by_cases h : v = 0
    · subst h; rw [minimalBytes, if_pos rfl]; rfl
    · have e : minimalBytes v = minimalBytes (v / 256) ++ [BitVec.ofNat 8 v] := by
        rw [minimalBytes, if_neg h]
      rw [e, List.length_append]
      conv => lhs; rw [ih (v / 256) (by omega)]
      simp [beEncode, leEncode]

theorem bigBytes_eq (v : Nat) : bigBytes v = minimalBytes v := by
  rw [minimalBytes_eq, minimalBytes_length]
  unfold bigBytes
  simp only []
  apply List.ext_getElem (by simp)
  intro i h1 h2
  rw [beEncode_getElem]
  simp only [List.getElem_map, List.getElem_range, Nat.shiftRight_eq_div_pow]
  rw [pow256]

theorem beValue_minimal (v : Nat) : beValue (minimalBytes v) = v := by
  induction v using Nat.strongRecOn with
  | _ v ih =>
    rw [minimalBytes]
    by_cases h : v = 0
    · simp [h, beValue, leValue]
    · rw [if_neg h, beValue_eq, beNat_concat, ← beValue_eq, ih _ (by omega), BitVec.toNat_ofNat]
      omega

theorem minimal_head (v : Nat) : (minimalBytes v).head? ≠ some 0 := by
  induction v using Nat.strongRecOn with
  | _ v ih =>
    rw [minimalBytes]
    by_cases h : v = 0
    · simp [h]
    · rw [if_neg h]
      by_cases h2 : v / 256 = 0
      · rw [h2, minimalBytes, if_pos rfl]
        intro e
        have e' : BitVec.ofNat 8 v = 0#8 := Option.some.inj e
        have := congrArg BitVec.toNat e'
        simp at this
        omega
      · have := ih (v / 256) (by omega)
        have hne : minimalBytes (v / 256) ≠ [] := by
          rw [minimalBytes, if_neg h2]; simp
        obtain ⟨c, l, hc⟩ := List.exists_cons_of_ne_nil hne
        rw [hc] at this ⊢
        exact this

/-! ## the table size -/

theorem growN_add (a b n : Nat) : growN (a + b) n = growN a (growN b n) := by
  induction a with
  | zero => simp [growN]
  | succ a ih => rw [Nat.succ_add, growN, ih, growN]

/-- the 71 values -/
theorem growN_table : ((List.range 72).all fun k => decide (growN k (2 ^ 26) < 2 ^ 32) &&
    (decide (k = 71) || decide (growN k (2 ^ 26) < growN (k + 1) (2 ^ 26)))) = true ∧
    growN 71 (2 ^ 26) = 2143944600 := by decide +kernel

theorem growN_lt (k : Nat) (h : k ≤ 71) : growN k (2 ^ 26) < 2 ^ 32 := by
  have := List.all_eq_true.mp growN_table.1 k (List.mem_range.mpr (by omega))
  simp only [Bool.and_eq_true, decide_eq_true_eq] at this
  exact this.1

theorem growN_step (k : Nat) (h : k < 71) : growN k (2 ^ 26) < growN (k + 1) (2 ^ 26) := by
  have := List.all_eq_true.mp growN_table.1 k (List.mem_range.mpr (by omega))
  simp only [Bool.and_eq_true, Bool.or_eq_true, decide_eq_true_eq] at this
  omega

theorem growN_mono (a b : Nat) (h : a ≤ b) (hb : b ≤ 71) : growN a (2 ^ 26) ≤ growN b (2 ^ 26) := by
  induction b with
  | zero => rw [Nat.le_zero.mp h]
  | succ b ih =>
    by_cases e : a = b + 1
    · rw [e]
    · exact Nat.le_of_lt (Nat.lt_of_le_of_lt (ih (by omega) (by omega)) (growN_step b (by omega)))

theorem growN_ge (k : Nat) (hk : k ≤ 71) : 2 ^ 26 ≤ growN k (2 ^ 26) := growN_mono 0 k (by omega) hk

theorem tableSize_steps (h : Nat) : ∃ k ≤ 71, tableSize (2 ^ 26) h = growN k (2 ^ 26) := by
  unfold tableSize
  by_cases h1 : h < 614400
  · exact ⟨0, by omega, by rw [if_pos h1]; rfl⟩
  · exact ⟨(min h 4198400 - 614400) / 51200 + 1, by omega, by rw [if_neg h1]⟩

theorem nStep_eq (k i : Nat) (hk : k < 71) : nStep i (BitVec.ofNat 32 (growN k (2 ^ 26))) = .ok (BitVec.ofNat 32 (growN (k + 1) (2 ^ 26))) := by
  unfold nStep
  refine congrArg Except.ok ?_
  have h1 := growN_lt k (by omega)
  have h2 := growN_lt (k + 1) (by omega)
  apply BitVec.eq_of_toNat_eq
  rw [growN, grow] at *
  rw [BitVec.toNat_mul, BitVec.toNat_udiv, BitVec.toNat_ofNat, BitVec.toNat_ofNat, Nat.mod_eq_of_lt h1]
  rfl

theorem calcN_eq (height : U64) : calcN ((1 : U32) <<< 26) height = .ok (BitVec.ofNat 32 (tableSize (2 ^ 26) height.toNat)) := by
  have hM : nIncreasementHeightMax.toNat = 4198400 := rfl
  have hS : increaseStart.toNat = 614400 := rfl
  have hP : increasePeriodForN.toNat = 51200 := rfl
  unfold calcN tableSize
  by_cases h1 : height > nIncreasementHeightMax
  · have h1' : 4198400 < height.toNat := by rw [← hM]; exact h1
    rw [if_pos h1, if_neg (by omega), Nat.min_eq_right (by omega), show (4198400 - 614400) / 51200 + 1 = 71 from rfl, growN_table.2]
    rfl
  · have h1' : height.toNat ≤ 4198400 := by rw [← hM]; exact Nat.not_lt.mp h1
    rw [if_neg h1]
    by_cases h2 : height ≥ increaseStart
    · have h2' : 614400 ≤ height.toNat := by rw [← hS]; exact h2
      have hit : ((height - increaseStart) / increasePeriodForN + 1).toNat = (height.toNat - 614400) / 51200 + 1 := by
        rw [BitVec.toNat_add, BitVec.toNat_udiv, BitVec.toNat_sub_of_le h2, hS, hP, show (1 : U64).toNat = 1 from rfl]
        omega
      rw [if_pos h2, if_neg (by omega), Nat.min_eq_left h1', hit]
      obtain ⟨n, hn⟩ : ∃ n, n = (height.toNat - 614400) / 51200 + 1 := ⟨_, rfl⟩
      rw [← hn]
      obtain ⟨m, e, h⟩ := forRange_inv (f := nStep) (fun i m => m = BitVec.ofNat 32 (growN i (2 ^ 26))) 0 n ((1 : U32) <<< 26) (by omega) rfl (by
        rintro i m _ hi rfl
        exact ⟨_, nStep_eq i i (by omega), rfl⟩)
      rw [e, h]
    · have h2' : height.toNat < 614400 := by rw [← hS]; exact Nat.not_le.mp h2
      rw [if_neg h2, if_pos h2']
      rfl

/-! ## the digest -/

theorem beEncode8 (v : U64) : beEncode 8 v.toNat = bytesOf .big 8 v := by
  rw [beEncode, leEncode_eq_leBytes]; rfl

theorem beEncode4 (v : U32) : beEncode 4 v.toNat = bytesOf .big 4 v := by
  rw [beEncode, leEncode_eq_leBytes]; rfl

theorem beEncode_mod (m v : Nat) : beEncode m (v % 256 ^ m) = beEncode m v := by
  have h : ∀ (m v : Nat), leEncode m (v % 256 ^ m) = leEncode m v := by
    intro m v
    apply leNat_inj _ _ (by simp)
    rw [leNat_leEncode, leNat_leEncode, Nat.mod_mod]
  rw [beEncode, beEncode, h]

theorem generateM_eq : generateM 1024 = .ok bigM := by
  have hlen : ∀ l : List Nat, (l.flatMap (beEncode 8)).length = 8 * l.length := fun l =>
    flatMap_length_const _ 8 (fun a => beEncode_length 8 a) l
  obtain ⟨buf, h, hb⟩ := forRange_inv (f := mStep)
    (fun i b => b = (List.range i).flatMap (beEncode 8) ++ List.replicate ((1024 - i) * 8) 0)
    0 1024 (List.replicate (1024 * 8) 0) (by omega) (by rw [List.range_zero, List.flatMap_nil, List.nil_append]) (by
      intro i b _ hi hb
      have hl : b.length = 1024 * 8 := by
        rw [hb, List.length_append, hlen, List.length_range, List.length_replicate]; omega
      unfold mStep
      rw [slc_ok _ _ _ (by omega) (by omega), ok_bind, putU64, if_neg (by omega), if_neg (by omega)]
      refine ⟨_, rfl, ?_⟩
      have h8 : i * 8 = ((List.range i).flatMap (beEncode 8)).length := by
        rw [hlen, List.length_range]; omega
      have e1 : b.take (i * 8) = (List.range i).flatMap (beEncode 8) := by
        rw [hb, h8, List.take_left']; rfl
      have e2 : b.drop (i * 8 + 8) = List.replicate ((1024 - (i + 1)) * 8) 0 := by
        rw [hb, h8, ← List.drop_drop, List.drop_left']
        · rw [List.drop_replicate]; congr 1; omega
        · rfl
      rw [e1, e2, ← beEncode8, BitVec.toNat_ofNat, Nat.mod_eq_of_lt (by omega), List.range_succ, List.flatMap_append]
      rw [List.flatMap_cons, List.flatMap_nil, List.append_nil])
  rw [generateM, h, hb, Nat.sub_self, Nat.zero_mul, List.replicate_zero, List.append_nil]
  rfl

/-- the indexes as the code computes them -/
theorem genIndexes_eq (P : Prims) (seed : List Byte) (k n : U32) (hk : k.toNat ≤ 61) (hn : n ≠ 0) :
    genIndexes P seed k n = .ok ((List.range k.toNat).map fun j =>
      BitVec.ofNat 32 (beValue (((P.blake2b256 seed ++ P.blake2b256 seed).drop j).take 4) % n.toNat)) := by
  unfold genIndexes
  simp only []
  have hl : (P.blake2b256 seed ++ P.blake2b256 seed).length = 64 := by rw [List.length_append, P.blake2b256_length]
  apply forRange_fill _ k.toNat _ (by simp)
  intro i m hi hm _
  obtain ⟨E, hE⟩ : ∃ E, E = P.blake2b256 seed ++ P.blake2b256 seed := ⟨_, rfl⟩
  rw [← hE] at hl ⊢
  unfold indexStep
  rw [slc_ok _ _ _ (by omega) (by omega), ok_bind, getU32, if_pos (by simp; omega), ok_bind, umod, if_neg hn, ok_bind,
    upd_ok _ _ _ (by omega)]
  refine congrArg (fun t => Except.ok (m.set i t)) ?_
  have e0 : ((E.take (i + 4)).drop i).take 4 = (E.drop i).take 4 := by
    rw [List.drop_take, List.take_take]
    congr 1
    omega
  have hlt : beNat ((E.drop i).take 4) < 2 ^ 32 := by
    have := beNat_lt ((E.drop i).take 4)
    rw [show ((E.drop i).take 4).length = 4 by simp; omega] at this
    exact this
  have hn0 : 0 < n.toNat := by
    rcases Nat.eq_zero_or_pos n.toNat with h | h
    · exact absurd (BitVec.eq_of_toNat_eq h) hn
    · exact h
  rw [e0, beValue_eq]
  apply BitVec.eq_of_toNat_eq
  rw [BitVec.toNat_umod, BitVec.toNat_ofNat, BitVec.toNat_ofNat]
  show beNat _ % 2 ^ 32 % n.toNat = _
  rw [Nat.mod_eq_of_lt hlt, Nat.mod_eq_of_lt (Nat.lt_of_le_of_lt (Nat.mod_le _ _) hlt)]

theorem element_slice (P : Prims) (h i : Nat) (h32 : List Byte) (hh : h32 = beEncode 4 h) (ib : List Byte) (hi : ib = beEncode 4 i) :
    slc (P.blake2b256 (concatBytes ib (concatBytes h32 bigM))) 1 32 = .ok (element P.blake2b256 h i) := by
  have hl := P.blake2b256_length (concatBytes ib (concatBytes h32 bigM))
  rw [slc_ok _ _ _ (by omega) (by omega), List.take_of_length_le (by omega), element, ← hh, ← hi]
  rfl

theorem compute_eq (P : Prims) (k nBase : U32) (msg : List Byte) (nonce height : U64) (n : U32) (hN : calcN nBase height = .ok n)
    (hn : n ≠ 0) (hk : k.toNat ≤ 61) :
    compute P k nBase msg nonce height = .ok (digest P.blake2b256 k.toNat n.toNat height.toNat msg (beEncode 8 nonce.toNat)) := by
  have hn0 : 0 < n.toNat := by
    rcases Nat.eq_zero_or_pos n.toNat with h | h
    · exact absurd (BitVec.eq_of_toNat_eq h) hn
    · exact h
  have hh : bytesOf .big 4 (height.setWidth 32 : U32) = beEncode 4 height.toNat := by
    rw [← beEncode4, BitVec.toNat_setWidth, show (2 : Nat) ^ 32 = 256 ^ 4 by norm_num, beEncode_mod]
  have hbn : (n.setWidth 64 : U64).toNat = n.toNat := by
    rw [BitVec.toNat_setWidth]
    exact Nat.mod_eq_of_lt (Nat.lt_trans n.isLt (by norm_num))
  unfold compute
  rw [generateM_eq, ok_bind, Convutil.uint32ToBytes_eq, ok_bind, Convutil.uint64ToBytes_eq, ok_bind, hN, ok_bind]
  simp only []
  rw [hh, ← beEncode8, hbn]
  obtain ⟨nb, hnb⟩ : ∃ nb, nb = beEncode 8 nonce.toNat := ⟨_, rfl⟩
  rw [← hnb]
  have hl := P.blake2b256_length (concatBytes msg nb)
  have hfirst : beNat (((P.blake2b256 (concatBytes msg nb)).take 32).drop 24) % n.toNat = firstIndex P.blake2b256 n.toNat msg nb := by
    rw [List.take_of_length_le (by omega), firstIndex, beValue_eq]; rfl
  rw [slc_ok _ _ _ (by omega) (by omega), ok_bind, bigMod, if_neg (by omega), pure_eq_ok, ok_bind, hfirst, Convutil.uint32ToBytes_eq, ok_bind]
  have hlt : firstIndex P.blake2b256 n.toNat msg nb < 2 ^ 32 := Nat.lt_trans (Nat.mod_lt _ hn0) n.isLt
  have hi : bytesOf .big 4 ((BitVec.ofNat 64 (firstIndex P.blake2b256 n.toNat msg nb) : U64).setWidth 32 : U32) =
      beEncode 4 (firstIndex P.blake2b256 n.toNat msg nb) := by
    rw [← beEncode4, BitVec.toNat_setWidth, BitVec.toNat_ofNat, Nat.mod_eq_of_lt (Nat.lt_trans hlt (by norm_num)), Nat.mod_eq_of_lt hlt]
  rw [element_slice P height.toNat _ _ rfl _ hi, ok_bind, genIndexes_eq P _ k n hk hn, ok_bind]
  obtain ⟨I, hI⟩ : ∃ I, I = index P.blake2b256 n.toNat height.toNat msg nb := ⟨_, rfl⟩
  have hIdx : ((List.range k.toNat).map fun j => BitVec.ofNat 32 (beValue
      (((P.blake2b256 (concatBytes (element P.blake2b256 height.toNat (firstIndex P.blake2b256 n.toNat msg nb)) (concatBytes msg nb)) ++
        P.blake2b256 (concatBytes (element P.blake2b256 height.toNat (firstIndex P.blake2b256 n.toNat msg nb)) (concatBytes msg nb))).drop j).take 4) % n.toNat)) =
      (List.range k.toNat).map fun j => (BitVec.ofNat 32 (I j) : U32) := by
    rw [hI]; rfl
  rw [hIdx, List.length_map, List.length_range]
  have hIlt : ∀ j, I j < 2 ^ 32 := fun j => by rw [hI]; exact Nat.lt_trans (Nat.mod_lt _ hn0) n.isLt
  obtain ⟨s, e, hs⟩ := forRange_inv
    (f := sumStep P (beEncode 4 height.toNat) bigM ((List.range k.toNat).map fun j => (BitVec.ofNat 32 (I j) : U32)))
    (fun i s => s = ((List.range i).map fun j => beValue (element P.blake2b256 height.toNat (I j))).sum)
    0 k.toNat 0 (by omega) rfl (by
      rintro i s _ hi rfl
      unfold sumStep
      have hb : bytesOf .big 4 (BitVec.ofNat 32 (I i) : U32) = beEncode 4 (I i) := by
        rw [← beEncode4, BitVec.toNat_ofNat, Nat.mod_eq_of_lt (hIlt i)]
      rw [idx_ok _ _ (by simpa using hi), ok_bind, List.getElem_map, List.getElem_range, Convutil.uint32ToBytes_eq, ok_bind]
      simp only []
      rw [P.blake2b256_length, element_slice P height.toNat _ _ rfl _ hb, ok_bind]
      refine ⟨_, rfl, ?_⟩
      rw [List.range_succ, List.map_append, List.sum_append, ← beValue_eq]
      simp)
  rw [e, ok_bind, hs, bigBytes_eq, digest, sum, ← hI]
  rfl

end Verif.Autolykos
