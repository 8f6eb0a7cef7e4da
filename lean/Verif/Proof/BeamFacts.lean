import Verif.Proof.BeamVerify
import Verif.Proof.Packing

/-! # BeamHash III: the index encoding is a bijection -/

set_option autoImplicit false

namespace Verif.Beam

open Go Spec Spec.Beam Packing

theorem group_eq (a : List Byte) (j : Nat) : bitGroupLE a 25 j = leNat a / (2 ^ 25) ^ j % 2 ^ 25 := by
  rw [bitGroupLE, leValue_eq, ← Nat.pow_mul, Nat.mul_comm]

theorem pow100 : 256 ^ 100 = (2 ^ 25) ^ 32 := by norm_num

theorem take_inj (a b : List Byte) (ha : a.length = 104) (hb : b.length = 104) (hi : indices a = indices b) : a.take 100 = b.take 100 := by
  have h1 : (a.take 100).length = 100 := by simp; omega
  have h2 : (b.take 100).length = 100 := by simp; omega
  apply leNat_inj _ _ (by omega)
  apply digits_inj (2 ^ 25) (by omega) 32
  · have := leNat_lt (a.take 100); rwa [h1, pow100] at this
  · have := leNat_lt (b.take 100); rwa [h2, pow100] at this
  · intro g hg
    rw [← group_eq, ← group_eq]
    have := congrArg (fun l => l[32 - 1 - g]?) hi
    simp only [indices, List.getElem?_map] at this
    rw [List.getElem?_range (show 32 - 1 - g < 32 by omega)] at this
    exact Option.some.inj this

theorem soln_inj (a b : List Byte) (ha : a.length = 104) (hb : b.length = 104) (hi : indices a = indices b) (hn : a.drop 100 = b.drop 100) :
    a = b := by
  rw [← List.take_append_drop 100 a, ← List.take_append_drop 100 b, hn, take_inj a b ha hb hi]

theorem soln_surj (ixs : List Nat) (hl : ixs.length = 32) (hlt : ∀ i ∈ ixs, i < 2 ^ 25) (nonce : List Byte) (hn : nonce.length = 4) :
    ∃ soln : List Byte, soln.length = 104 ∧ indices soln = ixs ∧ soln.drop 100 = nonce := by
  have hrl : ixs.reverse.length = 32 := by simpa using hl
  have hr : ∀ i ∈ ixs.reverse, i < 2 ^ 25 := fun i hi => hlt i (by simpa using hi)
  have hp := pack_lt (2 ^ 25) ixs.reverse hr
  rw [hrl] at hp
  have hel : (leEncode 100 (pack (2 ^ 25) ixs.reverse)).length = 100 := by simp
  refine ⟨leEncode 100 (pack (2 ^ 25) ixs.reverse) ++ nonce, by simp [hn], ?_, by rw [List.drop_left' hel]⟩
  apply List.ext_getElem?
  intro j
  by_cases hj : j < 32
  · rw [List.getElem?_eq_getElem (show j < ixs.length by omega)]
    simp only [indices, List.getElem?_map]
    rw [List.getElem?_range hj]
    simp only [Option.map_some, Option.some.injEq]
    rw [List.take_left' hel, group_eq, leNat_leEncode, pow100, Nat.mod_eq_of_lt hp]
    have := pack_digit (2 ^ 25) ixs.reverse hr (32 - 1 - j) (by omega)
    have he : ixs.reverse.length - 1 - (32 - 1 - j) = j := by omega
    rw [he, List.getElem_reverse] at this
    rw [this]
    congr 1
    omega
  · rw [List.getElem?_eq_none (by rw [indices, List.length_map, List.length_range]; omega), List.getElem?_eq_none (by omega)]

end Verif.Beam
