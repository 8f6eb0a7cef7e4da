import Verif.Proof.ShakeStates
import Verif.Proof.CShake
import Verif.Go.Update
import Verif.Model.EaglesongConst

/-! # Proofs about Model/EaglesongGen.lean -/

set_option autoImplicit false

namespace Verif.Hasher

open Go Spec.Sponge Spec.KeccakF

/-- word `i` of a series of bytes, the lowest byte first -/
def leWordAt (o : Nat → Byte) (i : Nat) : U32 :=
  BitVec.ofNat 32 ((o (4 * i)).toNat + 256 * (o (4 * i + 1)).toNat + 65536 * (o (4 * i + 2)).toNat + 16777216 * (o (4 * i + 3)).toNat)

theorem constantStep_eq (o : Nat → Byte) (n i : Nat) (hi : i < n) (m : List U32) (hm : m.length = n) (hx : m[i]? = some 0) :
    constantStep ((List.range (n * 4)).map o) i m = .ok (m.set i (leWordAt o i)) := by
  have hb : ∀ k, k < 4 → idx ((List.range (n * 4)).map o) (i * 4 + k) = .ok (o (4 * i + k)) := by
    intro k hk
    rw [idx_ok _ _ (by simp; omega)]
    simp [Nat.mul_comm]
  unfold constantStep
  rw [idx_ok _ _ (by omega), hb 0 (by decide), hb 1 (by decide), hb 2 (by decide), hb 3 (by decide)]
  have hx' : m[i]'(by omega) = 0 := by
    rw [List.getElem?_eq_getElem (by omega)] at hx
    exact Option.some.inj hx
  rw [hx']
  change upd m i _ = _
  rw [upd_ok _ _ _ (by omega)]
  congr 2
  apply BitVec.eq_of_toNat_eq
  unfold leWordAt
  simp only [BitVec.toNat_add, BitVec.toNat_mul, BitVec.toNat_setWidth, BitVec.toNat_ofNat, Nat.add_zero, show (0 : U32).toNat = 0 from rfl, show (1 : U32).toNat = 1 from rfl,
    show (256 : U32).toNat = 256 from rfl, show (65536 : U32).toNat = 65536 from rfl, show (16777216 : U32).toNat = 16777216 from rfl]
  omega

theorem generate_eq (f : List Byte → List Byte) (hf : ∀ x : List Byte, x.length = 200 → (f x).length = 200) (n : Nat) :
    generateInjectionConstants f n = .ok ((List.range (n * 16)).map (leWordAt (output f 136 0x1f seedPhrase))) := by
  have e : shakeSum256 f (n * 16 * 4) seedPhrase = .ok (digest f 136 0x1f (n * 16 * 4) seedPhrase) :=
    once_eq ⟨f, 136, 0x1f, 64⟩ ⟨Nat.succ_pos 135, (by decide : 136 ≤ 200), hf⟩ seedPhrase _
  unfold generateInjectionConstants
  dsimp only
  rw [e]
  change forRange 0 (n * 16) (List.replicate (n * 16) 0) (constantStep (digest f 136 0x1f (n * 16 * 4) seedPhrase)) = _
  obtain ⟨m, h1, h2, h3, _⟩ := forRange_inv (f := constantStep (digest f 136 0x1f (n * 16 * 4) seedPhrase))
    (fun i m => m.length = n * 16 ∧ (∀ j, j < i → m[j]? = some (leWordAt (output f 136 0x1f seedPhrase) j)) ∧ ∀ j, i ≤ j → j < n * 16 → m[j]? = some 0)
    0 (n * 16) (List.replicate (n * 16) 0) (Nat.zero_le _)
    ⟨List.length_replicate, fun j hj => absurd hj (Nat.not_lt_zero j), fun j _ hj => by rw [List.getElem?_replicate, if_pos hj]⟩ (by
      rintro i m _ hi ⟨h1, h2, h3⟩
      refine ⟨_, constantStep_eq _ (n * 16) i hi m h1 (h3 i (Nat.le_refl i) hi), by rw [List.length_set]; exact h1, ?_, ?_⟩
      · intro j hj
        by_cases h : j = i
        · subst h
          rw [List.getElem?_set_self (by omega)]
        · rw [List.getElem?_set_ne (by omega)]
          exact h2 j (by omega)
      · intro j hj hj2
        rw [List.getElem?_set_ne (by omega)]
        exact h3 j (by omega) hj2)
  rw [h1]
  congr 1
  apply List.ext_getElem?
  intro j
  by_cases hj : j < n * 16
  · rw [h3 j hj, List.getElem?_map, List.getElem?_range hj]
    rfl
  · rw [List.getElem?_eq_none (by omega), List.getElem?_eq_none (by simp; omega)]

theorem keccakF_length (x : List Byte) : (keccakF x).length = 200 := by
  unfold keccakF bytes
  rw [List.length_map, List.length_range]

theorem phrase_absorb : absorb keccakF 136 (seedPhrase ++ padding 136 0x1f seedPhrase.length) = outState 0 := by
  have hl : (seedPhrase ++ padding 136 0x1f seedPhrase.length).length / 136 = 3 := by decide +kernel
  have hb : blocks 136 (seedPhrase ++ padding 136 0x1f seedPhrase.length) = [phraseBlock 0, phraseBlock 1, phraseBlock 2] := by
    unfold blocks
    rw [hl]
    rfl
  unfold absorb
  rw [hb, List.foldl_cons, List.foldl_cons, List.foldl_cons, List.foldl_nil, absorb0, absorb1, absorb2]

theorem outState_iterate (k : Nat) (hk : k ≤ 20) : keccakF^[k] (outState 0) = outState k := by
  induction k with
  | zero => rfl
  | succ k ih =>
    rw [Function.iterate_succ_apply', ih (by omega)]
    match k, hk with
    | 0, _ => exact squeeze0
    | 1, _ => exact squeeze1
    | 2, _ => exact squeeze2
    | 3, _ => exact squeeze3
    | 4, _ => exact squeeze4
    | 5, _ => exact squeeze5
    | 6, _ => exact squeeze6
    | 7, _ => exact squeeze7
    | 8, _ => exact squeeze8
    | 9, _ => exact squeeze9
    | 10, _ => exact squeeze10
    | 11, _ => exact squeeze11
    | 12, _ => exact squeeze12
    | 13, _ => exact squeeze13
    | 14, _ => exact squeeze14
    | 15, _ => exact squeeze15
    | 16, _ => exact squeeze16
    | 17, _ => exact squeeze17
    | 18, _ => exact squeeze18
    | 19, _ => exact squeeze19
    | k + 20, h => omega

theorem unpack_getD (n i : Nat) (hi : i < 200) : (unpack n).getD i 0 = BitVec.ofNat 8 (n / 256 ^ i) := by
  unfold unpack
  rw [List.getD_eq_getElem?_getD, List.getElem?_map, List.getElem?_range hi]
  rfl

theorem output_eq (i : Nat) (hi : i < 2752) : output keccakF 136 0x1f seedPhrase i = BitVec.ofNat 8 (outStates.getD (i / 136) 0 / 256 ^ (i % 136)) := by
  unfold output stream
  rw [phrase_absorb, outState_iterate _ (by omega)]
  exact unpack_getD _ _ (by omega)

theorem table_eq : (List.range 688).map (leWordAt fun i => BitVec.ofNat 8 (outStates.getD (i / 136) 0 / 256 ^ (i % 136))) = Eaglesong.injectionConstants := by
  decide +kernel

theorem words_eq : (List.range 688).map (leWordAt (output keccakF 136 0x1f seedPhrase)) = Eaglesong.injectionConstants := by
  rw [← table_eq]
  apply List.map_congr_left
  intro i hi
  have := List.mem_range.mp hi
  unfold leWordAt
  rw [output_eq _ (by omega), output_eq _ (by omega), output_eq _ (by omega), output_eq _ (by omega)]

end Verif.Hasher
