import Verif.Proof.SpecBytes
import Verif.Proof.Convutil
import Verif.Model.Equihash

/-! # `expandArray` unpacks big-endian bit groups -/

set_option autoImplicit false

namespace Verif.Equihash

open Go Spec

theorem maskW_eq (b : Nat) : ((1 : U32) <<< b) - 1 = BitVec.ofNat 32 (2 ^ b - 1) := by
  apply BitVec.eq_of_toNat_eq
  simp only [BitVec.toNat_sub, BitVec.toNat_shiftLeft, BitVec.toNat_ofNat]
  have hp : 0 < 2 ^ b := Nat.two_pow_pos _
  have h1 : (1 : U32).toNat = 1 := rfl
  simp only [h1, Nat.shiftLeft_eq, Nat.one_mul]
  rcases Nat.lt_or_ge b 32 with h | h
  · have : 2 ^ b < 2 ^ 32 := Nat.pow_lt_pow_right (by omega) h
    omega
  · obtain ⟨k, rfl⟩ : ∃ k, b = 32 + k := ⟨b - 32, by omega⟩
    have hk : 0 < 2 ^ k := Nat.two_pow_pos _
    have e : 2 ^ (32 + k) = 2 ^ 32 * 2 ^ k := Nat.pow_add ..
    rw [e]
    omega

theorem acc_step (a : Nat) (x : Byte) :
    ((BitVec.ofNat 32 a) <<< 8) ||| x.setWidth 32 = BitVec.ofNat 32 (a * 256 + x.toNat) := by
  apply BitVec.eq_of_getLsbD_eq
  intro t ht
  rw [BitVec.getLsbD_or, BitVec.getLsbD_shiftLeft, BitVec.getLsbD_setWidth, BitVec.getLsbD_ofNat, BitVec.getLsbD_ofNat]
  rw [show a * 256 + x.toNat = 2 ^ 8 * a + x.toNat by omega, Nat.testBit_two_pow_mul_add _ x.isLt]
  by_cases h8 : t < 8
  · simp [ht, h8, BitVec.getLsbD]
  · have : x.getLsbD t = false := BitVec.getLsbD_of_ge _ _ (by omega)
    have h1 : t - 8 < 32 := by omega
    simp [ht, h8, this, h1]

/-- one output byte -/
theorem expandByte_val (N b r sh : Nat) (hb : r + b ≤ 32) :
    (((BitVec.ofNat 32 N) >>> (r + sh)) &&& (((((1 : U32) <<< b) - 1) >>> sh) &&& 0xFF)).setWidth 8
      = BitVec.ofNat 8 ((N / 2 ^ r % 2 ^ b) / 2 ^ sh) := by
  apply BitVec.eq_of_getLsbD_eq
  intro t ht
  have hff : (0xFF : U32) = BitVec.ofNat 32 (2 ^ 8 - 1) := rfl
  rw [maskW_eq, BitVec.getLsbD_setWidth, BitVec.getLsbD_and, BitVec.getLsbD_and, BitVec.getLsbD_ushiftRight,
    BitVec.getLsbD_ushiftRight, hff]
  simp only [BitVec.getLsbD_ofNat, Nat.testBit_two_pow_sub_one, Nat.testBit_div_two_pow, Nat.testBit_mod_two_pow]
  have h32 : t < 32 := by omega
  simp only [ht, h32, decide_true, Bool.true_and, Bool.and_true]
  have hadd : t + sh + r = r + sh + t := by omega
  have hadd2 : t + sh = sh + t := by omega
  rw [hadd2, show sh + t + r = r + sh + t by omega]
  by_cases hlt : sh + t < b
  · simp [hlt, show r + sh + t < 32 by omega, show sh + t < 32 by omega]
  · simp [hlt]

/-- one group: `pad` zero bytes and the value in `⌈b/8⌉` big-endian bytes -/
def groupBytes (pad b v : Nat) : List Byte := List.replicate pad 0 ++ beEncode ((b + 7) / 8) v

theorem groupBytes_length (pad b v : Nat) : (groupBytes pad b v).length = (b + 7) / 8 + pad := by
  simp [groupBytes]; omega

theorem expandGroup (N b r pad : Nat) (hrb : r + b ≤ 32) (pre rest : List Byte) 
    (hlen : pre.length + ((b + 7) / 8 + pad) + rest.length < 2 ^ 32) :
    forRange pad ((b + 7) / 8 + pad) (pre ++ List.replicate ((b + 7) / 8 + pad) 0 ++ rest)
      (expandByte (((1 : U32) <<< b) - 1) ((b + 7) / 8 + pad) r (BitVec.ofNat 32 N) pre.length)
      = .ok (pre ++ groupBytes pad b (N / 2 ^ r % 2 ^ b) ++ rest) := by
  obtain ⟨m, hm⟩ : ∃ m, m = (b + 7) / 8 := ⟨_, rfl⟩
  obtain ⟨v, hv⟩ : ∃ v, v = N / 2 ^ r % 2 ^ b := ⟨_, rfl⟩
  rw [groupBytes, ← hm, ← hv]
  rw [← hm] at hlen
  obtain ⟨out, e, ho⟩ := forRange_inv (f := expandByte (((1 : U32) <<< b) - 1) (m + pad) r (BitVec.ofNat 32 N) pre.length)
    (fun x out => out = (pre ++ (List.replicate pad 0 ++ (beEncode m v).take (x - pad))) ++ (List.replicate (m + pad - x) 0 ++ rest))
    pad (m + pad) (pre ++ List.replicate (m + pad) 0 ++ rest) (by omega)
    (by
      have : List.replicate (m + pad) (0 : Byte) = List.replicate pad 0 ++ List.replicate m 0 := by
        rw [Nat.add_comm, List.replicate_append_replicate]
      rw [this]; simp only [Nat.sub_self, List.take_zero, List.append_nil, List.append_assoc, Nat.add_sub_cancel])
    (by
      intro x out h1 h2 ho
      refine ⟨_, ?_, rfl⟩
      have hol : out.length = pre.length + (m + pad) + rest.length := by
        rw [ho]; simp; omega
      simp only [expandByte]
      rw [show u32 (pre.length + x) = pre.length + x from Nat.mod_eq_of_lt (by omega)]
      rw [upd_ok _ _ _ (by omega), expandByte_val N b r _ hrb, ← hv]
      congr 1
      have hpl : (pre ++ (List.replicate pad (0 : Byte) ++ (beEncode m v).take (x - pad))).length = pre.length + x := by
        simp; omega
      rw [ho, List.set_append_right _ _ (by omega), hpl, Nat.sub_self]
      obtain ⟨d, hd⟩ : ∃ d, m + pad - x = d + 1 := ⟨m + pad - x - 1, by omega⟩
      rw [hd, List.replicate_succ, List.cons_append, List.set_cons_zero]
      rw [show m + pad - (x + 1) = d by omega, show x + 1 - pad = (x - pad) + 1 by omega, List.take_add_one,
        List.getElem?_eq_getElem (by simp; omega), beEncode_getElem]
      have e2 : m - 1 - (x - pad) = m + pad - x - 1 := by omega
      rw [e2, pow256, hd]
      simp)
  rw [e, ho]
  have : (beEncode m v).take (m + pad - pad) = beEncode m v := by
    rw [List.take_of_length_le (by simp)]
  rw [this]
  simp

theorem rem_bound (b i : Nat) (hg : b + 8 - Nat.gcd 8 b ≤ 32) (hlt : 8 * i % b < 8) : 8 * i % b + b ≤ 32 := by
  have h1 : Nat.gcd 8 b ∣ 8 * i % b := by
    rw [Nat.dvd_mod_iff (Nat.gcd_dvd_right 8 b)]
    exact Dvd.dvd.mul_right (Nat.gcd_dvd_left 8 b) i
  have h2 : Nat.gcd 8 b ∣ 8 - 8 * i % b := Nat.dvd_sub (Nat.gcd_dvd_left 8 b) h1
  have h3 := Nat.le_of_dvd (by omega) h2
  omega

section
variable (input : List Byte) (b pad : Nat)

/-- the specified output: one `groupBytes` per complete group -/
def unpacked : List Byte := (List.range (8 * input.length / b)).flatMap fun g => groupBytes pad b (bitGroup input b g)

/-- The main loop. -/
theorem expand_loop (hb : 8 ≤ b) (hg : b + 8 - Nat.gcd 8 b ≤ 32) (outLen : Nat) (ho : outLen < 2 ^ 32)
    (hfit : (8 * input.length / b) * ((b + 7) / 8 + pad) ≤ outLen) :
    ∃ s, forRange 0 input.length ⟨0, 0, 0, List.replicate outLen 0⟩
        (expandStep input b pad ((b + 7) / 8 + pad) (((1 : U32) <<< b) - 1)) = .ok s ∧
      s.output = unpacked input b pad ++ List.replicate (outLen - (8 * input.length / b) * ((b + 7) / 8 + pad)) 0 := by
  obtain ⟨W, hW⟩ : ∃ W, W = (b + 7) / 8 + pad := ⟨_, rfl⟩
  rw [← hW] at hfit ⊢
  obtain ⟨enc, henc⟩ : ∃ enc : Nat → List Byte, enc = fun g => groupBytes pad b (bitGroup input b g) := ⟨_, rfl⟩
  have hencl : ∀ g, (enc g).length = W := by intro g; rw [henc, hW]; exact groupBytes_length _ _ _
  have hflat : ∀ l : List Nat, (l.flatMap enc).length = W * l.length := flatMap_length_const enc W hencl
  obtain ⟨s, e, hs⟩ := forRange_inv (f := expandStep input b pad W (((1 : U32) <<< b) - 1))
    (fun i s => s.accBits = 8 * i % b ∧ s.accValue = BitVec.ofNat 32 (beNat (input.take i)) ∧ s.j = (8 * i / b) * W ∧
      s.output = (List.range (8 * i / b)).flatMap enc ++ List.replicate (outLen - (8 * i / b) * W) 0)
    0 input.length ⟨0, 0, 0, List.replicate outLen 0⟩ (by omega)
    ⟨by simp, by simp [beNat], by simp, by simp⟩
    (by
      rintro i ⟨ab, av, j, out⟩ _ hi ⟨h1, h2, h3, h4⟩
      simp only at h1 h2 h3 h4
      have hmod : 8 * i % b < b := Nat.mod_lt _ (by omega)
      have hdm := Nat.div_add_mod (8 * i) b
      have hb32 : b ≤ 32 := by have := Nat.gcd_le_left b (show 0 < 8 by omega); omega
      simp only [expandStep]
      rw [idx_ok _ _ hi, ok_bind, h1, h2, acc_step]
      have hN : beNat (input.take (i + 1)) = beNat (input.take i) * 256 + input[i].toNat := by
        rw [List.take_add_one, List.getElem?_eq_getElem hi]
        exact beNat_concat _ _
      rw [← hN]
      have hu : u32 (8 * i % b + 8) = 8 * i % b + 8 := Nat.mod_eq_of_lt (by omega)
      rw [hu]
      by_cases hc : b ≤ 8 * i % b + 8
      · have hdiv : 8 * (i + 1) / b = 8 * i / b + 1 := by
          apply Nat.div_eq_of_lt_le
          · rw [show (8 * i / b + 1) * b = b * (8 * i / b) + b by ring]; omega
          · rw [show (8 * i / b + 1 + 1) * b = b * (8 * i / b) + 2 * b by ring]; omega
        have hmd : 8 * (i + 1) % b = 8 * i % b + 8 - b := by
          have h := Nat.div_add_mod (8 * (i + 1)) b
          rw [hdiv, Nat.mul_add] at h
          omega
        have hr8 : 8 * (i + 1) % b < 8 := by omega
        have hrb := rem_bound b (i + 1) hg hr8
        have hle : (8 * i / b + 1) * W ≤ outLen := by
          refine Nat.le_trans ?_ hfit
          apply Nat.mul_le_mul_right
          rw [← hdiv]
          exact Nat.div_le_div_right (by omega)
        rw [if_pos hc, ← hmd]
        have hprel : ((List.range (8 * i / b)).flatMap enc).length = 8 * i / b * W := by
          rw [hflat, List.length_range, Nat.mul_comm]
        have hsplit : out = (List.range (8 * i / b)).flatMap enc ++ List.replicate W 0 ++
            List.replicate (outLen - (8 * i / b + 1) * W) 0 := by
          rw [h4, List.append_assoc, List.replicate_append_replicate]
          congr 2
          rw [Nat.add_mul] at hle ⊢; omega
        have hgrp := expandGroup (beNat (input.take (i + 1))) b (8 * (i + 1) % b) pad hrb
          ((List.range (8 * i / b)).flatMap enc) (List.replicate (outLen - (8 * i / b + 1) * W) 0) (by
            rw [hprel, List.length_replicate, ← hW]
            rw [Nat.add_mul] at hle ⊢; omega)
        rw [← hW, hprel] at hgrp
        rw [hsplit, h3, hgrp]
        refine ⟨_, rfl, rfl, rfl, ?_, ?_⟩
        · simp only
          rw [hdiv, Nat.add_mul, Nat.one_mul]
          apply Nat.mod_eq_of_lt
          rw [Nat.add_mul] at hle; omega
        · simp only
          rw [hdiv, List.range_succ, List.flatMap_append]
          congr 2
          simp only [List.flatMap_cons, List.flatMap_nil, List.append_nil]
          rw [henc]
          simp only
          congr 1
          rw [bitGroup, beValue_eq, beNat_take _ _ (by omega), Nat.div_div_eq_div_mul, ← Nat.pow_add]
          congr 3
          have h := Nat.div_add_mod (8 * (i + 1)) b
          rw [hdiv, Nat.mul_comm] at h
          omega
      · have hdiv : 8 * (i + 1) / b = 8 * i / b := by
          apply Nat.div_eq_of_lt_le
          · rw [show 8 * i / b * b = b * (8 * i / b) by ring]; omega
          · rw [show (8 * i / b + 1) * b = b * (8 * i / b) + b by ring]; omega
        have hmd : 8 * (i + 1) % b = 8 * i % b + 8 := by
          have h := Nat.div_add_mod (8 * (i + 1)) b
          rw [hdiv] at h
          omega
        rw [if_neg hc]
        refine ⟨_, rfl, ?_, rfl, ?_, ?_⟩
        · simp only; omega
        · simp only; rw [hdiv, h3]
        · simp only; rw [hdiv, h4])
  refine ⟨s, e, ?_⟩
  rw [hs.2.2.2, unpacked, ← henc]

/-- `expandArray`, when sizes stay below 2^32 and the 32-bit accumulator suffices -/
theorem expandArray_eq (hb : 8 ≤ b) (hg : b + 8 - Nat.gcd 8 b ≤ 32) (hsz : 8 * ((b + 7) / 8 + pad) * input.length < 2 ^ 32)
    (hpad : pad ≤ 4) (hl : input.length < 2 ^ 32) :
    expandArray input b pad = .ok (.ok (
      if 8 * ((b + 7) / 8 + pad) * input.length / b = input.length then input
      else unpacked input b pad ++
        List.replicate (8 * ((b + 7) / 8 + pad) * input.length / b - (8 * input.length / b) * ((b + 7) / 8 + pad)) 0)) := by
  have hb32 : b ≤ 32 := by have := Nat.gcd_le_left b (show 0 < 8 by omega); omega
  have e1 : u32 input.length = input.length := Nat.mod_eq_of_lt hl
  have e2 : u32 (b + 7) = b + 7 := Nat.mod_eq_of_lt (by omega)
  have e3 : u32 ((b + 7) / 8 + pad) = (b + 7) / 8 + pad := Nat.mod_eq_of_lt (by omega)
  have e4 : u32 (8 * ((b + 7) / 8 + pad)) = 8 * ((b + 7) / 8 + pad) := Nat.mod_eq_of_lt (by omega)
  have e5 : u32 (8 * ((b + 7) / 8 + pad) * input.length) = 8 * ((b + 7) / 8 + pad) * input.length := Nat.mod_eq_of_lt hsz
  unfold expandArray
  rw [if_neg (by omega), if_neg (by omega)]
  simp only [e1, e2, e3, e4, e5]
  by_cases hid : 8 * ((b + 7) / 8 + pad) * input.length / b = input.length
  · rw [if_pos hid, if_pos hid]; rfl
  · rw [if_neg hid, if_neg hid]
    have hfit : (8 * input.length / b) * ((b + 7) / 8 + pad) ≤ 8 * ((b + 7) / 8 + pad) * input.length / b := by
      rw [Nat.le_div_iff_mul_le (by omega)]
      calc (8 * input.length / b) * ((b + 7) / 8 + pad) * b = (8 * input.length / b * b) * ((b + 7) / 8 + pad) := by ring
        _ ≤ (8 * input.length) * ((b + 7) / 8 + pad) := Nat.mul_le_mul_right _ (Nat.div_mul_le_self _ _)
        _ = _ := by ring
    obtain ⟨s, e, hs⟩ := expand_loop input b pad hb hg _
      (Nat.lt_of_le_of_lt (Nat.div_le_self _ _) hsz) hfit
    rw [e, ok_bind, hs]
    rfl

end

end Verif.Equihash
