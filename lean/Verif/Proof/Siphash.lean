import Verif.Go.Prelude
import Verif.Model.Siphash
import Verif.Spec.Siphash

set_option autoImplicit false

namespace Verif.Siphash

open Go Bits

def toSpec (h : SipHasher) : Spec.Sip.State := ⟨h.v0, h.v1, h.v2, h.v3⟩
def keySpec (k : Keys) : Spec.Sip.State := ⟨k.k0, k.k1, k.k2, k.k3⟩

theorem sipRound_spec (h : SipHasher) : toSpec (sipRound h) = Spec.Sip.round (toSpec h) := rfl

theorem xorLanes_spec (h : SipHasher) : xorLanes h = Spec.Sip.lanes (toSpec h) := rfl

theorem hash24_spec (h : SipHasher) (n : U64) : toSpec (hash24 h n) = Spec.Sip.compress 2 4 (toSpec h) n := by
  simp only [hash24, sipRound_spec, Spec.Sip.compress, Spec.Sip.rounds]
  rfl

theorem hash48_spec (h : SipHasher) (n : U64) : toSpec (hash48 h n) = Spec.Sip.compress 4 8 (toSpec h) n := by
  simp only [hash48, sipRound_spec, Spec.Sip.compress, Spec.Sip.rounds]
  rfl

/-- inverse of the round -/
def unround (v : Spec.Sip.State) : Spec.Sip.State :=
  -- undo the second half round: inputs (c, b, a, d)
  let s2 := v.v2.rotateRight 32
  let b := (v.v1 ^^^ s2).rotateRight 17
  let c := s2 - b
  let d := (v.v3 ^^^ v.v0).rotateRight 21
  let a := v.v0 - d
  -- undo the first half round
  let s0 := a.rotateRight 32
  let b0 := (b ^^^ s0).rotateRight 13
  let a0 := s0 - b0
  let d0 := (d ^^^ c).rotateRight 16
  let c0 := c - d0
  ⟨a0, b0, c0, d0⟩

theorem unround_round (v : Spec.Sip.State) : unround (Spec.Sip.round v) = v := by
  obtain ⟨v0, v1, v2, v3⟩ := v
  simp only [unround, Spec.Sip.round, Spec.Sip.halfRound, rotateRight_rotateLeft, BitVec.xor_assoc, BitVec.xor_self,
    BitVec.xor_zero, BitVec.add_sub_cancel]

theorem round_unround (v : Spec.Sip.State) : Spec.Sip.round (unround v) = v := by
  obtain ⟨v0, v1, v2, v3⟩ := v
  simp only [unround, Spec.Sip.round, Spec.Sip.halfRound, rotateLeft_rotateRight, BitVec.sub_add_cancel, BitVec.xor_assoc,
    BitVec.xor_self, BitVec.xor_zero]

theorem sipNode24_spec (m : U64) (k : Keys) (e s : U64) :
    sipNode24 m k e s = Spec.Sip.sip24 (keySpec k) (2 * e + s) &&& m := by
  simp only [sipNode24, xorLanes_spec, hash24_spec, Spec.Sip.sip24]; rfl

theorem sipNode24Legacy_spec (m : U64) (k : Keys) (e s : U64) :
    sipNode24Legacy m k e s = (Spec.Sip.sip24 (keySpec k) (2 * e + s)).rotateLeft 17 &&& m := by
  simp only [sipNode24Legacy, xorLanes_spec, hash24_spec, Spec.Sip.sip24]; rfl

theorem edge0_eq (e : U64) : e &&& ~~~(63 : U64) = BitVec.ofNat 64 (64 * (e.toNat / 64)) := by
  apply BitVec.eq_of_getLsbD_eq
  intro i hi
  have h1 : (63 : U64) = BitVec.ofNat 64 (2 ^ 6 - 1) := rfl
  rw [BitVec.getLsbD_and, BitVec.getLsbD_not, h1, BitVec.getLsbD_ofNat, BitVec.getLsbD_ofNat, Nat.testBit_two_pow_sub_one]
  rw [show 64 * (e.toNat / 64) = 2 ^ 6 * (e.toNat / 2 ^ 6) by norm_num, Nat.testBit_two_pow_mul, Nat.testBit_div_two_pow]
  by_cases h6 : i < 6
  · simp [h6, hi]
  · simp only [hi, h6, decide_true, decide_false, Bool.and_false, Bool.not_false, Bool.and_true, Bool.true_and]
    have : 6 ≤ i := by omega
    simp [this, BitVec.getLsbD, Nat.sub_add_cancel this]

theorem edgeIdx_eq (e : U64) : (e &&& (63 : U64)).toNat = e.toNat % 64 := by
  rw [BitVec.toNat_and]
  exact Nat.and_two_pow_sub_one_eq_mod _ 6

theorem sipBlock48_spec (k : Keys) (e : U64) : sipBlock48 k e = .ok (Spec.Sip.block48 (keySpec k) e) := by
  set e0 := BitVec.ofNat 64 (64 * (e.toNat / 64)) with he0
  set key := keySpec k
  obtain ⟨⟨h, block⟩, hr, hI⟩ := forRange_inv
    (f := fillStep e0)
    (fun i p => toSpec p.1 = Spec.Sip.chain key e0 i ∧ p.2.length = 64 ∧
      ∀ n, n < i → p.2[n]? = some (Spec.Sip.blockLane key e0 n))
    0 64 (newSipHasher k, List.replicate 64 (0 : U64)) (by omega) ⟨rfl, by simp, by intros; omega⟩ (by
      rintro j ⟨h, b⟩ _ hj ⟨h1, h2, h3⟩
      simp only at h1 h2 h3
      refine ⟨(hash48 h (e0 + BitVec.ofNat 64 j), b.set j (xorLanes (hash48 h (e0 + BitVec.ofNat 64 j)))), ?_, ?_, ?_, ?_⟩
      · simp only [fillStep]; rw [upd_ok _ _ _ (by omega)]; rfl
      · rw [hash48_spec, h1]; rfl
      · simpa using h2
      · intro n hn
        rcases Nat.lt_or_ge n j with hl | hl
        · rw [List.getElem?_set_ne (by omega)]; exact h3 n hl
        · rw [show n = j by omega, List.getElem?_set_self (by omega), xorLanes_spec, hash48_spec, h1]; rfl)
  obtain ⟨_, hlen, hbl⟩ := hI
  simp only at hlen hbl
  obtain ⟨B, hB⟩ : ∃ B, B = Spec.Sip.blockLane key e0 := ⟨_, rfl⟩
  rw [← hB] at hbl
  have hlast : idx block 63 = .ok (B 63) := by
    simp [idx, hbl 63 (by omega)]
  obtain ⟨block', hr', hI'⟩ := forRange_inv
    (f := lastStep (B 63))
    (fun i b => b.length = 64 ∧ ∀ n, n < 64 → b[n]? = some (if n < i then B n ^^^ B 63 else B n))
    0 63 block (by omega) ⟨hlen, fun n hn => by simpa using hbl n hn⟩ (by
      intro j b _ hj ⟨h1, h2⟩
      have hx : idx b j = .ok (B j) := by
        simp [idx, h2 j (by omega)]
      refine ⟨b.set j (B j ^^^ B 63), ?_, by simpa using h1, ?_⟩
      · simp only [lastStep, hx, ok_bind]; rw [upd_ok _ _ _ (by omega)]
      · intro n hn
        by_cases hnj : n = j
        · subst hnj
          rw [List.getElem?_set_self (by omega)]; simp
        · rw [List.getElem?_set_ne (by omega), h2 n hn]
          by_cases hl : n < j
          · simp [hl, Nat.lt_succ_of_lt hl]
          · simp [hl, show ¬ n < j + 1 by omega])
  unfold sipBlock48
  simp only [edge0_eq, edgeIdx_eq, ← he0]
  rw [hr]
  simp only [ok_bind, hlast, hr']
  have hi : e.toNat % 64 < 64 := Nat.mod_lt _ (by omega)
  rw [idx, hI'.2 _ hi, Spec.Sip.block48]
  simp only [← he0]
  rw [← hB]
  by_cases h63 : e.toNat % 64 = 63
  · simp [h63]
  · simp only [h63, if_false, show e.toNat % 64 < 63 by omega, if_true]

end Verif.Siphash
