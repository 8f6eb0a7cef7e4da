import Verif.Model.Kawpow
import Verif.Proof.ProgpowHash
import Verif.Proof.Keccak
import Verif.Proof.Generate

/-! # The Keccak frames of KAWPOW, FiroPoW and ProgPoW 0.9.4 -/

set_option autoImplicit false

namespace Verif.Progpow

open Go Crypto
open Spec (leWord32)
open Spec.Progpow (absorbSeed absorbFinal)

theorem getWord (b : List Byte) (i : Nat) (h : 4 * i + 4 ≤ b.length) :
    (slc b (i * 4) (i * 4 + 4) >>= getU32 .little) = .ok (leWord32 b i) := by
  rw [slc_ok _ _ _ (by omega) (by omega), ok_bind, getU32, if_pos (by simp; omega), leWord32, Spec.leValue_eq]
  refine congrArg Except.ok (congrArg (BitVec.ofNat 32) ?_)
  show leNat _ = leNat _
  refine congrArg leNat ?_
  rw [List.take_of_length_le (by simp; omega), List.drop_take, Nat.mul_comm i 4, show 4 * i + 4 - 4 * i = 4 by omega]

theorem words_ok (b : List Byte) (hb : 32 ≤ b.length) (l : List U32) (hl : l.length = 25) :
    forRange 0 8 l (hashWordStep b) = .ok ((List.range 8).map (leWord32 b) ++ l.drop 8) := by
  rw [forRange_update (f := hashWordStep b) (fun i _ => leWord32 b i) 8 l (by omega)]
  · refine congrArg Except.ok ?_
    apply List.ext_getElem (by simp; omega)
    intro i h1 h2
    rw [List.getElem_mapIdx, List.getElem_append]
    by_cases h : i < 8
    · rw [if_pos h, dif_pos (by simpa using h), List.getElem_map, List.getElem_range]
    · rw [if_neg h, dif_neg (by simpa using h), List.getElem_drop]
      simp only [List.length_map, List.length_range]
      congr 1; omega
  · intro i m x hi hm _ _
    unfold hashWordStep
    rw [← bind_assoc, getWord b i (by omega)]
    simp only [ok_bind]
    rw [upd_ok _ _ _ (by omega)]

/-- the words of a list of 25, for reading and writing at fixed places -/
theorem mixWords_ok (seed : List U32) (hs : seed.length = 25) (b : List Byte) (hb : 32 ≤ b.length) :
    forRange 0 8 (List.replicate 25 (0 : U32)) (mixWordStep seed b) =
      .ok (seed.take 8 ++ (List.range 8).map (leWord32 b) ++ List.replicate 9 0) := by
  obtain ⟨s, e, h⟩ := forRange_inv (f := mixWordStep seed b)
    (fun i s => s.length = 25 ∧ ∀ j, s[j]? = if j < i then seed[j]? else if 8 ≤ j ∧ j < 8 + i then some (leWord32 b (j - 8)) else
      (List.replicate 25 (0 : U32))[j]?) 0 8 (List.replicate 25 (0 : U32)) (by omega)
    ⟨by simp, by intro j; rw [if_neg (by omega), if_neg (by omega)]⟩ (by
      rintro i s _ hi ⟨h1, h2⟩
      refine ⟨(s.set i seed[i]).set (i + 8) (leWord32 b i), ?_, by simpa using h1, ?_⟩
      · unfold mixWordStep
        rw [idx_ok _ _ (by omega)]
        simp only [ok_bind]
        rw [upd_ok _ _ _ (by omega)]
        simp only [ok_bind]
        rw [← bind_assoc, getWord b i (by omega)]
        simp only [ok_bind]
        rw [upd_ok _ _ _ (by simp; omega)]
      · intro j
        by_cases ha : j = i + 8
        · subst ha
          rw [List.getElem?_set_self (by simp; omega), if_neg (by omega), if_pos (by omega), Nat.add_sub_cancel]
        · rw [List.getElem?_set_ne (by omega)]
          by_cases hb' : j = i
          · subst hb'
            rw [List.getElem?_set_self (by omega), if_pos (by omega), List.getElem?_eq_getElem]
          · rw [List.getElem?_set_ne (by omega), h2 j]
            by_cases h3 : j < i
            · rw [if_pos h3, if_pos (by omega)]
            · rw [if_neg h3, if_neg (show ¬ j < i + 1 by omega)]
              by_cases h4 : 8 ≤ j ∧ j < 8 + i
              · rw [if_pos h4, if_pos (by omega)]
              · rw [if_neg h4, if_neg (by omega)])
  rw [e]
  refine congrArg Except.ok ?_
  apply List.ext_getElem?
  intro j
  rw [h.2 j]
  by_cases h1 : j < 8
  · rw [if_pos h1, List.append_assoc, List.getElem?_append_left (by simp; omega), List.getElem?_take_of_lt h1]
  · rw [if_neg h1]
    by_cases h2 : j < 16
    · rw [if_pos (by omega), List.append_assoc, List.getElem?_append_right (by simp; omega), List.getElem?_append_left (by simp; omega)]
      simp [hs, show j - 8 < 8 by omega]
    · rw [if_neg (by omega), List.getElem?_append_right (by simp; omega)]
      simp only [List.getElem?_replicate, List.length_append, List.length_take, List.length_map, List.length_range]
      rw [hs]
      by_cases h3 : j < 25
      · rw [if_pos h3, if_pos (by omega)]
      · rw [if_neg h3, if_neg (by omega)]

theorem seedHead_ok (s : List U32) (hs : s.length = 25) :
    seedHead s = .ok (BitVec.ofNat 64 ((s.getD 0 0).toNat + 2 ^ 32 * (s.getD 1 0).toNat)) ∧
      (s.getD 0 0).toNat + 2 ^ 32 * (s.getD 1 0).toNat < 2 ^ 64 := by
  have h0 := (s.getD 0 0).isLt
  have h1 := (s.getD 1 0).isLt
  refine ⟨?_, by omega⟩
  unfold seedHead
  rw [idx_ok _ _ (by omega), idx_ok _ _ (by omega)]
  simp only [ok_bind, pure_eq_ok]
  refine congrArg Except.ok ?_
  have e0 : s.getD 0 0 = s[0] := by simp [List.getD_eq_getElem?_getD, List.getElem?_eq_getElem (show 0 < s.length by omega)]
  have e1 : s.getD 1 0 = s[1] := by simp [List.getD_eq_getElem?_getD, List.getElem?_eq_getElem (show 1 < s.length by omega)]
  rw [e0, e1] at *
  apply BitVec.eq_of_toNat_eq
  simp only [BitVec.toNat_add, BitVec.toNat_shiftLeft, BitVec.toNat_setWidth, BitVec.toNat_ofNat, Nat.shiftLeft_eq]
  omega

/-- the permuted seed state and the seed of the mix -/
theorem head_ok (l : List U32) (hl : l.length = 25) :
    (keccakF800 l >>= fun seed => seedHead seed >>= fun head => pure (seed, head)) =
      .ok (Spec.Keccak.f800 l, BitVec.ofNat 64 (((Spec.Keccak.f800 l).getD 0 0).toNat + 2 ^ 32 * ((Spec.Keccak.f800 l).getD 1 0).toNat)) := by
  rw [keccakF800_eq l hl, ok_bind, (seedHead_ok _ (f800_length l)).1]
  rfl

/-- the digest -/
theorem tail_ok (l : List U32) (hl : l.length = 25) :
    (keccakF800 l >>= fun state => slc state 0 8 >>= fun head => Convutil.uint32ArrayToBytes head .little) =
      .ok (Spec.Ethash.bytes ((Spec.Keccak.f800 l).take 8)) := by
  have h := f800_length l
  rw [keccakF800_eq l hl, ok_bind, slc_ok _ _ _ (by omega) (by omega), ok_bind, List.drop_zero, Convutil.uint32ArrayToBytes_eq,
    Dag.bytes_eq]
  rfl

/-- the seed state and mix seed of a frame -/
def seedOf (hash : List Byte) (nonce : U64) (pad : List U32) : List U32 × U64 :=
  let s := Spec.Keccak.f800 (absorbSeed hash nonce.toNat pad)
  (s, BitVec.ofNat 64 ((s.getD 0 0).toNat + 2 ^ 32 * (s.getD 1 0).toNat))

theorem kawpow_pad1 : Spec.Progpow.kawpow.pad1 = ravencoinKawpow := by decide +kernel

theorem kawpow_pad2 : Spec.Progpow.kawpow.pad2 = ravencoinKawpow.take 9 := by decide +kernel

theorem pad_ok (pre : List U32) (n k : Nat) (hn : pre.length = n) (hk : k ≤ 15) :
    forRange n (n + k) (pre ++ List.replicate k 0) (padStep n) = .ok (pre ++ ravencoinKawpow.take k) := by
  have h15 : ravencoinKawpow.length = 15 := rfl
  subst hn
  obtain ⟨s, e, h⟩ := forRange_inv (f := padStep pre.length)
    (fun i s => s = pre ++ (ravencoinKawpow.take (i - pre.length) ++ List.replicate (pre.length + k - i) 0)) pre.length (pre.length + k)
    (pre ++ List.replicate k 0) (by omega) (by simp) (by
      rintro i s h1 h2 rfl
      refine ⟨_, ?_, rfl⟩
      obtain ⟨j, rfl⟩ : ∃ j, i = pre.length + j := ⟨i - pre.length, by omega⟩
      unfold padStep
      rw [idx_ok _ _ (by omega)]
      simp only [ok_bind]
      rw [upd_ok _ _ _ (by simp [h15]; omega), List.set_append_right _ _ (by omega)]
      refine congrArg (fun x => Except.ok (pre ++ x)) ?_
      simp only [Nat.add_sub_cancel_left]
      obtain ⟨m, hm⟩ : ∃ m, pre.length + k - (pre.length + j) = m + 1 := ⟨k - j - 1, by omega⟩
      rw [List.set_append_right _ _ (by simp [h15]), hm, show pre.length + k - (pre.length + j + 1) = m by omega,
        show pre.length + j + 1 - pre.length = j + 1 by omega, List.replicate_succ]
      simp [h15, show min j 15 = j by omega]
      rw [List.take_succ_eq_append_getElem (by omega), List.append_assoc]
      rfl)
  rw [e, h]
  simp

theorem firopow_fill2 (pre : List U32) (hn : pre.length = 16) :
    (upd (pre ++ List.replicate 9 0) 17 0x00000001 >>= fun s => upd s 24 0x80008081) = .ok (pre ++ Spec.Progpow.firopow.pad2) := by
  rw [upd_ok _ _ _ (by simp [hn]), ok_bind, upd_ok _ _ _ (by simp [hn]), List.set_append_right _ _ (by omega),
    List.set_append_right _ _ (by omega), hn]
  rfl

section
variable (f : Nat → U32) (a b : U32)

theorem set8 : upd ((List.range 8).map f ++ (List.replicate 25 (0 : U32)).drop 8) 8 a =
    .ok ((List.range 8).map f ++ [a] ++ List.replicate 16 0) := rfl

theorem set9 : upd ((List.range 8).map f ++ [a] ++ List.replicate 16 0) 9 b =
    .ok ((List.range 8).map f ++ [a, b] ++ List.replicate 15 0) := rfl

theorem kawpow_fill : forRange 10 25 ((List.range 8).map f ++ [a, b] ++ List.replicate 15 0) (padStep 10) =
    .ok ((List.range 8).map f ++ [a, b] ++ ravencoinKawpow) :=
  pad_ok _ 10 15 (by simp) (by omega)

theorem firopow_fill : (upd ((List.range 8).map f ++ [a, b] ++ List.replicate 15 0) 10 0x00000001 >>= fun s => upd s 18 0x80008081) =
    .ok ((List.range 8).map f ++ [a, b] ++ Spec.Progpow.firopow.pad1) := rfl

end

section
variable (hash : List Byte) (hh : 32 ≤ hash.length) (nonce : U64)
include hh

theorem kawpowInitialize_ok : kawpowInitialize hash nonce = .ok (seedOf hash nonce Spec.Progpow.kawpow.pad1) := by
  rw [kawpow_pad1]
  unfold kawpowInitialize
  rw [words_ok hash hh _ (by simp), ofNat_shift, ofNat_low, ok_bind, set8, ok_bind, set9, ok_bind, kawpow_fill, ok_bind,
    head_ok _ (by simp [ravencoinKawpow])]
  rfl

theorem firopowInitialize_ok : firopowInitialize hash nonce = .ok (seedOf hash nonce Spec.Progpow.firopow.pad1) := by
  unfold firopowInitialize
  rw [words_ok hash hh _ (by simp), ofNat_shift, ofNat_low, ok_bind, set8, ok_bind, set9, ok_bind, ← bind_assoc, firopow_fill, ok_bind,
    head_ok _ (by simp [Spec.Progpow.firopow])]
  rfl

theorem progpow094Initialize_ok : progpow094Initialize hash nonce = .ok (seedOf hash nonce Spec.Progpow.progpow094.pad1) := by
  unfold progpow094Initialize
  rw [words_ok hash hh _ (by simp), ofNat_shift, ofNat_low, ok_bind, set8, ok_bind, set9, ok_bind, head_ok _ (by simp)]
  rfl
end

section
variable (s m : List U32) (hs : s.length = 25) (hm : m.length = 8)
include hs hm

theorem absorb_len (pad : List U32) : (absorbFinal s m pad).length = 16 + pad.length := by
  simp [absorbFinal, hs, hm]; omega

theorem final_pre (b : List Byte) (hb : b = bytesLE m) :
    forRange 0 8 (List.replicate 25 (0 : U32)) (mixWordStep s b) = .ok (absorbFinal s m (List.replicate 9 0)) := by
  have hl := bytesLE_length m
  rw [mixWords_ok s hs b (by rw [hb, hl, hm])]
  have : (List.range 8).map (leWord32 b) = m := by
    have h1 := Dag.wordView_bytesLE m
    rw [← Dag.words_eq, Spec.Ethash.words, hl, hm] at h1
    rw [hb]; exact h1
  rw [this]
  rfl

theorem kawpowFinalize_ok :
    kawpowFinalize s (bytesLE m) = .ok (Spec.Ethash.bytes ((Spec.Keccak.f800 (absorbFinal s m Spec.Progpow.kawpow.pad2)).take 8)) := by
  unfold kawpowFinalize
  have hp := pad_ok (s.take 8 ++ m) 16 9 (by simp [hs, hm]) (by omega)
  rw [final_pre s m hs hm _ rfl, ok_bind, kawpow_pad2, absorbFinal, hp, ok_bind]
  exact tail_ok _ (by simp [hs, hm, ravencoinKawpow])

theorem firopowFinalize_ok :
    firopowFinalize s (bytesLE m) = .ok (Spec.Ethash.bytes ((Spec.Keccak.f800 (absorbFinal s m Spec.Progpow.firopow.pad2)).take 8)) := by
  unfold firopowFinalize
  rw [final_pre s m hs hm _ rfl, ok_bind, absorbFinal, ← bind_assoc, firopow_fill2 _ (by simp [hs, hm]), ok_bind]
  exact tail_ok _ (by simp [hs, hm, Spec.Progpow.firopow])

theorem progpow094Finalize_ok :
    progpow094Finalize s (bytesLE m) =
      .ok (Spec.Ethash.bytes ((Spec.Keccak.f800 (absorbFinal s m Spec.Progpow.progpow094.pad2)).take 8)) := by
  unfold progpow094Finalize
  rw [final_pre s m hs hm _ rfl, ok_bind]
  exact tail_ok _ (by rw [absorb_len s m hs hm]; rfl)

end

/-! ## The whole functions -/

theorem digest_length (p : Spec.Progpow.Params) (mix : List (List U32)) : (Spec.Progpow.digest p mix).length = 8 := by
  simp [Spec.Progpow.digest]

theorem mixHash_length (p : Spec.Progpow.Params) (prog words items : Nat) (dag : Nat → List U32) (l1 : Nat → U32) (seed : Nat) :
    (Spec.Progpow.mixHash p prog words items dag l1 seed).length = 8 := digest_length _ _

theorem kawpowCfg_valid : kawpowCfg.Valid 4 := by constructor <;> decide

theorem firopowCfg_valid : firopowCfg.Valid 4 := by constructor <;> decide

theorem progpow094Cfg_valid : progpow094Cfg.Valid 4 := by constructor <;> decide

theorem seedOf_head (hash : List Byte) (nonce : U64) (pad : List U32) :
    (seedOf hash nonce pad).2.toNat = ((seedOf hash nonce pad).1.getD 0 0).toNat + 2 ^ 32 * ((seedOf hash nonce pad).1.getD 1 0).toNat := by
  have h := (seedHead_ok _ (f800_length (absorbSeed hash nonce.toNat pad))).2
  show (BitVec.ofNat 64 _).toNat = _
  rw [BitVec.toNat_ofNat]
  exact Nat.mod_eq_of_lt h

section
variable (hash : List Byte) (hh : 32 ≤ hash.length) (height nonce datasetSize : U64) (hn : numItems datasetSize ≠ 0) (lookup : Lookup)
  (dag : Nat → List U32) (hlk : Serves lookup (numItems datasetSize) 64 dag) (l1 : List U32) (hl1 : 4096 ≤ l1.length)
include hh hn hlk hl1

theorem kawpow_ok : kawpow hash height nonce datasetSize lookup l1 =
    .ok (Spec.Progpow.full Spec.Progpow.kawpow hash height.toNat nonce.toNat (numItems datasetSize) dag fun i => l1.getD i 0) := by
  unfold kawpow
  rw [kawpowInitialize_ok hash hh nonce, ok_bind]
  show (do
    let mixHash ← Progpow.hash kawpowCfg height (seedOf hash nonce Spec.Progpow.kawpow.pad1).2 datasetSize lookup l1
    let digest ← kawpowFinalize (seedOf hash nonce Spec.Progpow.kawpow.pad1).1 mixHash
    pure (mixHash, digest)) = _
  rw [hash_ok kawpowCfg_valid height _ datasetSize hn lookup dag hlk l1 hl1, ok_bind, seedOf_head]
  have := kawpowFinalize_ok (seedOf hash nonce Spec.Progpow.kawpow.pad1).1 (Spec.Progpow.mixHash kawpowCfg.params
    (height.toNat / kawpowCfg.periodLength.toNat) 4 (numItems datasetSize) dag (fun i => l1.getD i 0)
    (((seedOf hash nonce Spec.Progpow.kawpow.pad1).1.getD 0 0).toNat + 2 ^ 32 * ((seedOf hash nonce Spec.Progpow.kawpow.pad1).1.getD 1 0).toNat))
    (f800_length _) (mixHash_length _ _ _ _ _ _ _)
  rw [show bytesOf (w := 32) .little 4 = leBytes 4 from rfl, ← bytesLE, this, ← Dag.bytes_eq]
  rfl

theorem firopow_ok : firopow hash height nonce datasetSize lookup l1 =
    .ok (Spec.Progpow.full Spec.Progpow.firopow hash height.toNat nonce.toNat (numItems datasetSize) dag fun i => l1.getD i 0) := by
  unfold firopow
  rw [firopowInitialize_ok hash hh nonce, ok_bind]
  show (do
    let mixHash ← Progpow.hash firopowCfg height (seedOf hash nonce Spec.Progpow.firopow.pad1).2 datasetSize lookup l1
    let digest ← firopowFinalize (seedOf hash nonce Spec.Progpow.firopow.pad1).1 mixHash
    pure (mixHash, digest)) = _
  rw [hash_ok firopowCfg_valid height _ datasetSize hn lookup dag hlk l1 hl1, ok_bind, seedOf_head]
  have := firopowFinalize_ok (seedOf hash nonce Spec.Progpow.firopow.pad1).1 (Spec.Progpow.mixHash firopowCfg.params
    (height.toNat / firopowCfg.periodLength.toNat) 4 (numItems datasetSize) dag (fun i => l1.getD i 0)
    (((seedOf hash nonce Spec.Progpow.firopow.pad1).1.getD 0 0).toNat + 2 ^ 32 * ((seedOf hash nonce Spec.Progpow.firopow.pad1).1.getD 1 0).toNat))
    (f800_length _) (mixHash_length _ _ _ _ _ _ _)
  rw [show bytesOf (w := 32) .little 4 = leBytes 4 from rfl, ← bytesLE, this, ← Dag.bytes_eq]
  rfl

theorem progpow094_ok : progpow094 hash height nonce datasetSize lookup l1 =
    .ok (Spec.Progpow.full Spec.Progpow.progpow094 hash height.toNat nonce.toNat (numItems datasetSize) dag fun i => l1.getD i 0) := by
  unfold progpow094
  rw [progpow094Initialize_ok hash hh nonce, ok_bind]
  show (do
    let mixHash ← Progpow.hash progpow094Cfg height (seedOf hash nonce Spec.Progpow.progpow094.pad1).2 datasetSize lookup l1
    let digest ← progpow094Finalize (seedOf hash nonce Spec.Progpow.progpow094.pad1).1 mixHash
    pure (mixHash, digest)) = _
  rw [hash_ok progpow094Cfg_valid height _ datasetSize hn lookup dag hlk l1 hl1, ok_bind, seedOf_head]
  have := progpow094Finalize_ok (seedOf hash nonce Spec.Progpow.progpow094.pad1).1 (Spec.Progpow.mixHash progpow094Cfg.params
    (height.toNat / progpow094Cfg.periodLength.toNat) 4 (numItems datasetSize) dag (fun i => l1.getD i 0)
    (((seedOf hash nonce Spec.Progpow.progpow094.pad1).1.getD 0 0).toNat + 2 ^ 32 * ((seedOf hash nonce Spec.Progpow.progpow094.pad1).1.getD 1 0).toNat))
    (f800_length _) (mixHash_length _ _ _ _ _ _ _)
  rw [show bytesOf (w := 32) .little 4 = leBytes 4 from rfl, ← bytesLE, this, ← Dag.bytes_eq]
  rfl

end

end Verif.Progpow
