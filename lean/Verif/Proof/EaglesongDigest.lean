import Verif.Proof.Eaglesong

/-! # Eaglesong: absorbing and squeezing -/

set_option autoImplicit false

namespace Verif.Eaglesong

open Go Spec Spec.Eaglesong

theorem beValue_snoc (l : List Byte) (b : Byte) : beValue (l ++ [b]) = b.toNat + 256 * beValue l := by
  simp [beValue, leValue]

theorem shift_in (v : Nat) (b : Byte) : (BitVec.ofNat 32 v <<< 8) ^^^ b.setWidth 32 = BitVec.ofNat 32 (b.toNat + 256 * v) := by
  apply BitVec.eq_of_getLsbD_eq
  intro i hi
  rw [BitVec.getLsbD_xor, BitVec.getLsbD_shiftLeft, BitVec.getLsbD_setWidth, BitVec.getLsbD_ofNat, BitVec.getLsbD_ofNat,
    show b.toNat + 256 * v = 2 ^ 8 * v + b.toNat by omega, Nat.testBit_two_pow_mul_add _ b.isLt]
  by_cases h : i < 8
  · simp [h, hi, BitVec.getLsbD]
  · simp [h, hi, show i - 8 < 32 by omega, BitVec.getLsbD_of_ge b i (by omega)]

/-- the word assembled by the code -/
theorem word_loop (input : List Byte) (delim : Byte) (base : Nat) :
    forRange 0 4 (0 : U32) (byteStep input delim base) =
      .ok (BitVec.ofNat 32 (beValue (((input ++ [delim]).drop base).take 4))) := by
  obtain ⟨m, e, h⟩ := forRange_inv (f := byteStep input delim base)
    (fun k x => x = BitVec.ofNat 32 (beValue (((input ++ [delim]).drop base).take k))) 0 4 (0 : U32) (by omega) rfl (by
      rintro k x _ hk rfl
      unfold byteStep
      have take_end : ∀ (P : List Byte) (h : base + k < P.length), (P.drop base).take (k + 1) = (P.drop base).take k ++ [P[base + k]] := by
        intro P h
        rw [List.take_add_one, List.getElem?_drop, List.getElem?_eq_getElem h]; rfl
      by_cases h1 : base + k < input.length
      · rw [if_pos h1, idx_ok _ _ h1, ok_bind]
        refine ⟨_, rfl, ?_⟩
        rw [take_end _ (by simp; omega), beValue_snoc, shift_in, List.getElem_append_left h1]
      · rw [if_neg h1]
        by_cases h2 : base + k = input.length
        · rw [if_pos h2]
          refine ⟨_, rfl, ?_⟩
          rw [take_end _ (by simp; omega), beValue_snoc, shift_in, List.getElem_append_right (by omega)]
          simp
        · rw [if_neg h2]
          refine ⟨_, rfl, ?_⟩
          rw [List.take_of_length_le (i := k) (by simp; omega), List.take_of_length_le (by simp; omega)])
  rw [e, h]

theorem absorb_length (rounds : Nat) (delim : Byte) (input : List Byte) (i : Nat) (s : List U32) :
    (absorb rounds delim input i s).length = 16 := permutation_length _ _ (by simp)

theorem absorbed_length (rounds : Nat) (delim : Byte) (input : List Byte) (n : Nat) :
    (absorbed rounds delim input n).length = 16 := by
  cases n with
  | zero => simp [absorbed]
  | succ n => exact absorb_length _ _ _ _ _

theorem block_eq (rounds : Nat) (hr : rounds ≤ 43) (delim : Byte) (input : List Byte) (i : Nat) (s : List U32) (hs : s.length = 16) :
    blockStep rounds 256 delim input i s = .ok (absorb rounds delim input i s) := by
  unfold blockStep
  rw [show 256 / 32 = 8 from rfl, forRange_update (fun j x => x ^^^ messageWord delim input (8 * i + j)) 8 s (by omega), ok_bind,
    permute_eq rounds hr _ (by simpa using hs)]
  · unfold absorb
    refine congrArg (fun t => Except.ok (permutation rounds t)) ?_
    apply List.ext_getElem (by simp [hs])
    intro j h1 h2
    have hj : j < s.length := by simpa using h1
    simp only [List.getElem_mapIdx, List.getElem_map, List.getElem_range, word_get s j hj]
  · intro j m x hj hm h1 _
    have hx : m[j]'(by omega) = x := by
      rw [List.getElem?_eq_getElem (by omega)] at h1
      exact Option.some.inj h1
    unfold absorbStep
    rw [word_loop, ok_bind, idx_ok _ _ (by omega), ok_bind, upd_ok _ _ _ (by omega), hx, messageWord,
      show i * 256 / 8 + j * 4 = 4 * (8 * i + j) by omega]

theorem absorb_loop (rounds : Nat) (hr : rounds ≤ 43) (delim : Byte) (input : List Byte) (n : Nat) :
    forRange 0 n (List.replicate 16 (0 : U32)) (blockStep rounds 256 delim input) = .ok (absorbed rounds delim input n) := by
  obtain ⟨m, e, h⟩ := forRange_inv (f := blockStep rounds 256 delim input) (fun i m => m = absorbed rounds delim input i) 0 n
    (List.replicate 16 (0 : U32)) (by omega) rfl (by
    rintro i m _ hi rfl
    exact ⟨_, block_eq rounds hr delim input i _ (absorbed_length _ _ _ i), rfl⟩)
  rw [e, h]

/-- byte `p` of the output -/
def outByte (s : List U32) (p : Nat) : Byte := BitVec.ofNat 8 ((word s (p / 4)).toNat >>> (8 * (p % 4)))

theorem encode_word (s : List U32) (j : Nat) :
    leEncode 4 (word s j).toNat = [outByte s (4 * j), outByte s (4 * j + 1), outByte s (4 * j + 2), outByte s (4 * j + 3)] := by
  simp only [leEncode, outByte, show 4 * j / 4 = j by omega, show (4 * j + 1) / 4 = j by omega, show (4 * j + 2) / 4 = j by omega,
    show (4 * j + 3) / 4 = j by omega, show 4 * j % 4 = 0 by omega, show (4 * j + 1) % 4 = 1 by omega, show (4 * j + 2) % 4 = 2 by omega,
    show (4 * j + 3) % 4 = 3 by omega, Nat.shiftRight_eq_div_pow, Nat.div_div_eq_div_mul]
  norm_num

theorem squeeze_eq (s : List U32) : ((List.range 8).flatMap fun j => leEncode 4 (word s j).toNat) = (List.range 32).map (outByte s) := by
  simp only [encode_word]
  simp only [List.range, List.range.loop, List.flatMap_cons, List.flatMap_nil, List.map_cons, List.map_nil]
  rfl

theorem digest_eq (rounds : Nat) (delim : Byte) (input : List Byte) :
    digest rounds delim input = (List.range 32).map (outByte (absorbed rounds delim input (blocks input))) := squeeze_eq _

theorem digest_length (rounds : Nat) (delim : Byte) (input : List Byte) : (digest rounds delim input).length = 32 := by
  rw [digest_eq]; simp

theorem out_byte (x : U32) (k : Nat) : ((x >>> (8 * k)) &&& 0xff).setWidth 8 = BitVec.ofNat 8 (x.toNat >>> (8 * k)) := by
  apply BitVec.eq_of_toNat_eq
  rw [BitVec.toNat_setWidth, BitVec.toNat_and, show (0xff : U32).toNat = 2 ^ 8 - 1 from rfl, Nat.and_two_pow_sub_one_eq_mod,
    BitVec.toNat_ushiftRight, BitVec.toNat_ofNat, Nat.mod_mod]

theorem outWord_eq (s : List U32) (hs : s.length = 16) (j : Nat) (hj : j < 8) (out : List Byte) (ho : out.length = 32)
    (hp : ∀ p < 4 * j, out[p]? = some (outByte s p)) :
    ∃ o, outWordStep 256 s 0 j out = .ok o ∧ o.length = 32 ∧ ∀ p < 4 * (j + 1), o[p]? = some (outByte s p) := by
  unfold outWordStep
  rw [idx_ok _ _ (by omega), ok_bind]
  obtain ⟨m, e, h1, h2⟩ := forRange_inv (f := outByteStep (s[j]'(by omega)) (0 * 256 / 8 + j * 4))
    (fun k o => o.length = 32 ∧ ∀ p < 4 * j + k, o[p]? = some (outByte s p)) 0 4 out (by omega) ⟨ho, hp⟩ (by
      rintro k o _ hk ⟨hl, hall⟩
      unfold outByteStep
      rw [upd_ok _ _ _ (by omega)]
      refine ⟨_, rfl, by simpa using hl, ?_⟩
      intro p hp'
      by_cases h : 0 * 256 / 8 + j * 4 + k = p
      · rw [h, List.getElem?_set_self (by omega), out_byte, outByte, show p / 4 = j by omega, show p % 4 = k by omega, word_get s j (by omega)]
      · rw [List.getElem?_set_ne h, hall p (by omega)])
  exact ⟨m, e, h1, fun p hp' => h2 p (by omega)⟩

theorem squeeze_loop (rounds : Nat) (hr : rounds ≤ 43) (s : List U32) (hs : s.length = 16) :
    squeezeStep rounds 256 0 (List.replicate 32 (0 : Byte), s) = .ok ((List.range 32).map (outByte s), permutation rounds s) := by
  unfold squeezeStep
  obtain ⟨m, e, h1, h2⟩ := forRange_inv (f := outWordStep 256 s 0)
    (fun j o => o.length = 32 ∧ ∀ p < 4 * j, o[p]? = some (outByte s p)) 0 8 (List.replicate 32 (0 : Byte)) (by omega)
    ⟨by simp, by intros; omega⟩ (by
      rintro j o _ hj ⟨hl, hall⟩
      exact outWord_eq s hs j hj o hl hall)
  rw [show 256 / 32 = 8 from rfl, e, ok_bind, permute_eq rounds hr s hs, ok_bind]
  refine congrArg (fun t => Except.ok (t, permutation rounds s)) ?_
  apply List.ext_getElem (by simp [h1])
  intro p hp hp'
  have := h2 p (by omega)
  rw [List.getElem?_eq_getElem hp] at this
  simpa using Option.some.inj this

/-- an `int` that fits -/
theorem wrap_eq {x : Int} (h1 : -2 ^ 63 ≤ x) (h2 : x < 2 ^ 63) : wrap x = x := by
  unfold wrap
  omega

theorem eaglesong_eq (rounds : Int) (hr : rounds ≤ 43) (delim : Byte) (input : List Byte) (hl : input.length < 2 ^ 59) :
    eaglesong rounds 32 256 delim input = .ok (digest rounds.toNat delim input) := by
  unfold eaglesong
  simp only []
  have hb : ((wrap (((input.length : Int) + 1) * 8 + 256 - 1)).tdiv 256).toNat = blocks input := by
    rw [wrap_eq (by omega) (by omega)]
    unfold blocks
    rw [Int.tdiv_eq_ediv_of_nonneg (by omega)]
    omega
  have hr' : rounds.toNat ≤ 43 := by omega
  rw [if_neg (by omega), hb, show (256 : Int).toNat = 256 from rfl, absorb_loop rounds.toNat hr', ok_bind, if_neg (by omega), if_neg (by decide),
    show ((32 : Int).tdiv ((256 : Int).tdiv 8)).toNat = 0 + 1 from rfl, digest_eq]
  have := squeeze_loop rounds.toNat hr' _ (absorbed_length rounds.toNat delim input (blocks input))
  simp only [forRange, loop, show (32 : Int).toNat = 32 from rfl, this, ok_bind, Nat.sub_zero, Nat.zero_add]
  rfl

end Verif.Eaglesong
