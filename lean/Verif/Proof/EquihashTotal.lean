import Verif.Proof.EquihashVerify

/-! # When Equihash's `verify` returns: no assumption that the parameters make sense cryptographically -/

set_option autoImplicit false

namespace Verif.Equihash

open Go Convutil Crypto Spec.Equihash

/-! ### `expandArray` with any width from 8 to 32 -/

/-- bytes 0, 4, 8, … are below 128 -/
def TopLow (out : List Byte) : Prop := ∀ p v, p % 4 = 0 → out[p]? = some v → v.toNat < 128

theorem mask_top (b : Nat) (hb : b ≤ 31) (a : U32) : ((a &&& (((((1 : U32) <<< b) - 1) >>> 24) &&& 0xFF)).setWidth 8).toNat < 128 := by
  rw [BitVec.toNat_setWidth]
  refine Nat.lt_of_le_of_lt (Nat.mod_le _ _) ?_
  rw [BitVec.toNat_and]
  refine Nat.lt_of_le_of_lt Nat.and_le_right ?_
  rw [BitVec.toNat_and]
  refine Nat.lt_of_le_of_lt Nat.and_le_left ?_
  rw [maskW_eq, BitVec.toNat_ushiftRight, BitVec.toNat_ofNat, Nat.shiftRight_eq_div_pow]
  have h1 : 2 ^ b ≤ 2 ^ 31 := Nat.pow_le_pow_right (by omega) hb
  have h2 := Nat.mod_le (2 ^ b - 1) (2 ^ 32)
  have h3 : 0 < 2 ^ b := Nat.two_pow_pos b
  omega

theorem expandByte_total (b pad W r : Nat) (hpad : pad ≤ W) (acc : U32) (j : Nat) (out : List Byte) (ho : out.length < 2 ^ 32)
    (hj : j + W ≤ out.length) :
    ∃ o, forRange pad W out (expandByte (((1 : U32) <<< b) - 1) W r acc j) = .ok o ∧ o.length = out.length ∧
      (b ≤ 31 → W = 4 → j % 4 = 0 → TopLow out → TopLow o) := by
  obtain ⟨o, e, h1, h2⟩ := forRange_inv (f := expandByte (((1 : U32) <<< b) - 1) W r acc j)
    (fun _ o => o.length = out.length ∧ (b ≤ 31 → W = 4 → j % 4 = 0 → TopLow out → TopLow o)) pad W out hpad ⟨rfl, fun _ _ _ h => h⟩ (by
      rintro x o hx1 hx2 ⟨h1, h2⟩
      have hu : u32 (j + x) = j + x := Nat.mod_eq_of_lt (by omega)
      simp only [expandByte]
      rw [hu, upd_ok _ _ _ (by omega)]
      refine ⟨_, rfl, by rw [List.length_set, h1], ?_⟩
      intro hb hW hj4 hT p v hp hv
      by_cases hpx : p = j + x
      · subst hpx
        have hx0 : x = 0 := by omega
        subst hx0
        rw [List.getElem?_set_self (by omega)] at hv
        injection hv with hv
        rw [← hv, hW]
        exact mask_top b hb _
      · rw [List.getElem?_set_ne (fun e => hpx e.symm)] at hv
        exact h2 hb hW hj4 hT p v hp hv)
  exact ⟨o, e, h1, h2⟩

theorem expand_total (input : List Byte) (b pad : Nat) (hb : 8 ≤ b) (hb32 : b ≤ 32) (outLen : Nat) (ho : outLen < 2 ^ 32)
    (hfit : (8 * input.length / b) * ((b + 7) / 8 + pad) ≤ outLen) :
    ∃ s, forRange 0 input.length ⟨0, 0, 0, List.replicate outLen 0⟩
        (expandStep input b pad ((b + 7) / 8 + pad) (((1 : U32) <<< b) - 1)) = .ok s ∧
      s.output.length = outLen ∧ (b ≤ 31 → (b + 7) / 8 + pad = 4 → TopLow s.output) := by
  obtain ⟨W, hW⟩ : ∃ W, W = (b + 7) / 8 + pad := ⟨_, rfl⟩
  rw [← hW] at hfit ⊢
  obtain ⟨s, e, hs⟩ := forRange_inv (f := expandStep input b pad W (((1 : U32) <<< b) - 1))
    (fun i s => s.accBits = 8 * i % b ∧ s.j = (8 * i / b) * W ∧ s.output.length = outLen ∧ (b ≤ 31 → W = 4 → TopLow s.output))
    0 input.length ⟨0, 0, 0, List.replicate outLen 0⟩ (by omega)
    ⟨by simp, by simp, by simp, fun _ _ p v _ hv => by
      obtain ⟨_, rfl⟩ := List.getElem?_eq_some_iff.1 hv
      rw [List.getElem_replicate]
      decide⟩
    (by
      rintro i ⟨ab, av, j, out⟩ _ hi ⟨h1, h3, h4, h5⟩
      simp only at h1 h3 h4 h5
      have hmod : 8 * i % b < b := Nat.mod_lt _ (by omega)
      have hdm := Nat.div_add_mod (8 * i) b
      simp only [expandStep]
      rw [idx_ok _ _ hi, ok_bind, h1]
      have hu : u32 (8 * i % b + 8) = 8 * i % b + 8 := Nat.mod_eq_of_lt (by omega)
      rw [hu]
      by_cases hc : b ≤ 8 * i % b + 8
      · have hdiv : 8 * (i + 1) / b = 8 * i / b + 1 := by
          apply Nat.div_eq_of_lt_le
          · rw [show (8 * i / b + 1) * b = b * (8 * i / b) + b by ring]; omega
          · rw [show (8 * i / b + 1 + 1) * b = b * (8 * i / b) + 2 * b by ring]; omega
        have hmd : 8 * (i + 1) % b = 8 * i % b + 8 - b := by
          have h := Nat.div_add_mod (8 * (i + 1)) b
          rw [hdiv, Nat.mul_add] at h
          omega
        have hle : (8 * i / b + 1) * W ≤ outLen := by
          refine Nat.le_trans ?_ hfit
          apply Nat.mul_le_mul_right
          rw [← hdiv]
          exact Nat.div_le_div_right (by omega)
        rw [Nat.add_mul, Nat.one_mul] at hle
        rw [if_pos hc, h3]
        obtain ⟨o, e1, e2, e3⟩ := expandByte_total b pad W (8 * i % b + 8 - b) (by omega) (av <<< 8 ||| BitVec.setWidth 32 input[i])
          (8 * i / b * W) out (by omega) (by omega)
        rw [e1]
        refine ⟨_, rfl, by simp only; omega, ?_, by simp only; omega, fun hb31 hW4 => ?_⟩
        · simp only
          rw [hdiv, Nat.add_mul, Nat.one_mul]
          apply Nat.mod_eq_of_lt
          omega
        · refine e3 hb31 hW4 ?_ (h5 hb31 hW4)
          rw [hW4, Nat.mul_mod_left]
      · have hdiv : 8 * (i + 1) / b = 8 * i / b := by
          apply Nat.div_eq_of_lt_le
          · rw [show 8 * i / b * b = b * (8 * i / b) by ring]; omega
          · rw [show (8 * i / b + 1) * b = b * (8 * i / b) + b by ring]; omega
        have hmd : 8 * (i + 1) % b = 8 * i % b + 8 := by
          have h := Nat.div_add_mod (8 * (i + 1)) b
          rw [hdiv] at h
          omega
        rw [if_neg hc]
        refine ⟨_, rfl, ?_, ?_, h4, h5⟩
        · simp only; omega
        · simp only; rw [hdiv, h3])
  exact ⟨s, e, hs.2.2.1, hs.2.2.2⟩

theorem expandArray_total (input : List Byte) (b pad : Nat) (hb : 8 ≤ b) (hb32 : b ≤ 32) (hpad : pad ≤ 4)
    (hsz : 8 * ((b + 7) / 8 + pad) * input.length < 2 ^ 32) :
    ∃ out, expandArray input b pad = .ok (.ok out) ∧ out.length = 8 * ((b + 7) / 8 + pad) * input.length / b ∧
      (8 * ((b + 7) / 8 + pad) * input.length / b ≠ input.length → b ≤ 31 → (b + 7) / 8 + pad = 4 → TopLow out) := by
  have hl : input.length < 2 ^ 32 := by
    refine Nat.lt_of_le_of_lt ?_ hsz
    exact Nat.le_mul_of_pos_left _ (by omega)
  have e1 : u32 input.length = input.length := Nat.mod_eq_of_lt hl
  have e2 : u32 (b + 7) = b + 7 := Nat.mod_eq_of_lt (by omega)
  have e3 : u32 ((b + 7) / 8 + pad) = (b + 7) / 8 + pad := Nat.mod_eq_of_lt (by omega)
  have e4 : u32 (8 * ((b + 7) / 8 + pad)) = 8 * ((b + 7) / 8 + pad) := Nat.mod_eq_of_lt (by omega)
  have e5 : u32 (8 * ((b + 7) / 8 + pad) * input.length) = 8 * ((b + 7) / 8 + pad) * input.length := Nat.mod_eq_of_lt hsz
  unfold expandArray
  rw [if_neg (by omega), if_neg (by omega)]
  simp only [e1, e2, e3, e4, e5]
  by_cases hid : 8 * ((b + 7) / 8 + pad) * input.length / b = input.length
  · rw [if_pos hid]
    exact ⟨input, rfl, hid.symm, fun h => absurd hid h⟩
  · rw [if_neg hid]
    have hfit : (8 * input.length / b) * ((b + 7) / 8 + pad) ≤ 8 * ((b + 7) / 8 + pad) * input.length / b := by
      rw [Nat.le_div_iff_mul_le (by omega)]
      have := Nat.div_mul_le_self (8 * input.length) b
      calc (8 * input.length / b) * ((b + 7) / 8 + pad) * b = (8 * input.length / b * b) * ((b + 7) / 8 + pad) := by ring
        _ ≤ 8 * input.length * ((b + 7) / 8 + pad) := Nat.mul_le_mul_right _ this
        _ = _ := by ring
    obtain ⟨s, hs1, hs2, hs3⟩ := expand_total input b pad hb hb32 _ (Nat.lt_of_le_of_lt (Nat.div_le_self _ _) hsz) hfit
    rw [hs1, ok_bind]
    exact ⟨s.output, rfl, hs2, fun _ => hs3⟩

theorem words_low (out : List Byte) (h : TopLow out) : ∀ w ∈ words32 .big out, w.toNat < 2 ^ 31 := by
  intro w hw
  obtain ⟨i, hi, rfl⟩ := List.mem_map.1 hw
  rw [List.mem_range] at hi
  rw [BitVec.toNat_ofNat]
  refine Nat.lt_of_le_of_lt (Nat.mod_le _ _) ?_
  have hlt : 4 * i < out.length := by omega
  have e : (out.drop (4 * i)).take 4 = out[4 * i] :: (out.drop (4 * i + 1)).take 3 := by
    rw [List.drop_eq_getElem_cons hlt]
    rfl
  rw [e]
  have h1 := h (4 * i) out[4 * i] (by omega) (List.getElem?_eq_getElem hlt)
  show beNat _ < _
  rw [beNat_cons]
  have hl : ((out.drop (4 * i + 1)).take 3).length = 3 := by simp; omega
  have h2 := beNat_lt ((out.drop (4 * i + 1)).take 3)
  rw [hl] at h2 ⊢
  omega

/-! ### the group hash -/

theorem blakeOff_total (P : Prims) (header ps : List Byte) (hp : ps.length ≤ 16) (g : U32) (size : Nat) (h0 : 0 < size) (h64 : size ≤ 64) :
    ∃ t, hashBlakeWithOffset P header ps g size = .ok t ∧ t.length = size := by
  simp only [hashBlakeWithOffset]
  rw [copy_zero, ok_bind, put_le header 0 4 rfl, ok_bind]
  simp only [blake2b]
  have h1 : size ≠ 0 := by omega
  rw [Nat.mod_eq_of_lt (show size < 256 by omega), if_neg h1, if_neg (by omega)]
  exact ⟨_, rfl, P.blake2bRaw_length _ _ _ h0 h64⟩

/-- the twisted loop ends after at most 16 rounds unless its bound is 2^32 - 1 -/
theorem twist_total (P : Prims) (header ps : List Byte) (hp : ps.length ≤ 16) (g : U32) (hg : g.toNat < 2 ^ 32 - 1) :
    ∀ (d fuel : Nat) (s : U32) (acc : List U32), acc.length = 16 → s.toNat + d = g.toNat + 1 → d + 1 ≤ fuel →
      ∃ l, forever fuel (s, acc) (twistStep P header ps g 64) = .ok l ∧ l.length = 16 := by
  intro d
  induction d with
  | zero =>
    intro fuel s acc ha hs hf
    obtain ⟨f, rfl⟩ : ∃ f, fuel = f + 1 := ⟨fuel - 1, by omega⟩
    refine ⟨acc, forever_ret _ ?_, ha⟩
    simp only [twistStep]
    rw [if_neg (by rw [BitVec.le_def]; omega)]
    rfl
  | succ d ih =>
    intro fuel s acc ha hs hf
    obtain ⟨f, rfl⟩ : ∃ f, fuel = f + 1 := ⟨fuel - 1, by omega⟩
    obtain ⟨t, ht, htl⟩ := blakeOff_total P header ps hp s 64 (by omega) (by omega)
    obtain ⟨l, hl1, hl2⟩ := ih f (s + 1) (acc.mapIdx fun i x => x + Spec.leWord32 t i) (by simpa using ha)
      (by rw [BitVec.toNat_add, show (1 : U32).toNat = 1 from rfl, Nat.mod_eq_of_lt (by omega)]; omega) (by omega)
    refine ⟨l, ?_, hl2⟩
    rw [forever_cont (s' := (s + 1, acc.mapIdx fun i x => x + Spec.leWord32 t i))]
    · exact hl1
    · simp only [twistStep]
      rw [if_pos (by rw [BitVec.le_def]; omega), ht, ok_bind, laneLoop_eq t htl acc ha, ok_bind]
      rfl

theorem generateHash_total (P : Prims) (header ps : List Byte) (hp : ps.length ≤ 16) (g : U32) (size : Nat) (h0 : 0 < size) (h64 : size ≤ 64)
    (twist : Bool) (ht : twist = true → size = 64 ∧ g.toNat < 2 ^ 32 - 1) (fuel : Nat) (hf : 17 ≤ fuel) :
    ∃ l, generateHash P fuel header ps g size twist = .ok l ∧ l.length = size := by
  unfold generateHash
  cases htw : twist with
  | false =>
    simp only [Bool.not_false, if_true]
    exact blakeOff_total P header ps hp g size h0 h64
  | true =>
    obtain ⟨h, hg⟩ := ht htw
    subst h
    simp only [Bool.not_true, Bool.false_eq_true, if_false]
    have hmod : g.toNat % 16 < 16 := Nat.mod_lt _ (by omega)
    have hle := Nat.mod_le g.toNat 16
    obtain ⟨l, hl1, hl2⟩ := twist_total P header ps hp g hg (g.toNat % 16 + 1) fuel (g &&& 0xFFFFFFF0) (List.replicate 16 0) (by simp)
      (by rw [start_eq, BitVec.toNat_ofNat, Nat.mod_eq_of_lt (by omega)]; omega) (by omega)
    rw [hl1, ok_bind, uint32ArrayToBytes_eq, ok_bind]
    have hfl : (l.flatMap (bytesOf .little 4)).length = 64 := by
      rw [flatMap_length_const _ 4 (fun a => bytesOf_length .little 4 a), hl2]
    rw [maskLoop_eq _ hfl]
    exact ⟨_, rfl, by simpa using hfl⟩

/-! ### rows -/

variable {q : Spec.Equihash.Params}

theorem cbl_of (hk : q.k + 1 < 2 ^ 32) : collisionBitLength q.n q.k = .ok q.c := by
  have e : u32 (q.k + 1) = q.k + 1 := Nat.mod_eq_of_lt hk
  rw [collisionBitLength, e, divN, if_neg (by omega)]
  rfl

theorem fits_k (h : q.Fits) : q.k < 30 := by
  by_contra hc
  have h1 : 2 ^ 30 ≤ 2 ^ q.k := Nat.pow_le_pow_right (by omega) (by omega)
  have h2 : 2 ^ q.k * 1 ≤ 2 ^ q.k * (q.c + 1) := Nat.mul_le_mul_left _ (by omega)
  have := h.small
  omega

theorem fits_n (h : q.Fits) : 7 ≤ q.n := by
  have h1 := h.c_lo
  have := Nat.div_le_self q.n (q.k + 1)
  unfold Spec.Equihash.Params.c at h1
  omega

theorem fits_per (h : q.Fits) : 0 < q.per := Nat.div_pos h.n_hi (by have := fits_n h; omega)

theorem fits_nb (h : q.Fits) : 0 < q.nb ∧ q.nb ≤ 64 ∧ q.n ≤ 8 * q.nb := by
  have h1 := fits_n h
  have h2 := h.n_hi
  unfold Spec.Equihash.Params.nb
  omega

/-- the length of an unpacked leaf -/
def leafLen (q : Spec.Equihash.Params) : Nat := 8 * ((q.c + 7) / 8) * q.nb / q.c

theorem leafLen_ge (h : q.Fits) : (q.c + 7) / 8 * (q.k + 1) ≤ leafLen q := by
  have hc := h.c_lo
  unfold leafLen
  rw [Nat.le_div_iff_mul_le (by omega)]
  have h1 : q.c * (q.k + 1) ≤ 8 * q.nb := by
    have := Nat.div_mul_le_self q.n (q.k + 1)
    have h2 := (fits_nb h).2.2
    unfold Spec.Equihash.Params.c
    omega
  calc (q.c + 7) / 8 * (q.k + 1) * q.c = (q.c + 7) / 8 * (q.c * (q.k + 1)) := by ring
    _ ≤ (q.c + 7) / 8 * (8 * q.nb) := Nat.mul_le_mul_left _ h1
    _ = _ := by ring

theorem leafLen_lt (h : q.Fits) : leafLen q < 2 ^ 16 := by
  have hc := h.c_hi
  unfold leafLen
  have h1 : 8 * ((q.c + 7) / 8) * q.nb ≤ 8 * 4 * 64 := Nat.mul_le_mul (by omega) (fits_nb h).2.1
  have := Nat.div_le_self (8 * ((q.c + 7) / 8) * q.nb) q.c
  omega

theorem newNode_total (P : Prims) (h : q.Fits) (hk : q.k + 1 < 2 ^ 32) (ps header : List Byte) (hp : ps.length ≤ 16) (i : U32)
    (hi : q.twist = true → i.toNat < 2 ^ 31) (fuel : Nat) (hf : 17 ≤ fuel) :
    (∃ e, newNode P fuel q.n q.k ps q.twist header i = .ok (.error e)) ∨
    ∃ nd : Node, newNode P fuel q.n q.k ps q.twist header i = .ok (.ok nd) ∧ nd.hash.length = leafLen q ∧ nd.indices ≠ [] := by
  have hn := fits_n h
  have hn2 := h.n_hi
  obtain ⟨hb1, hb2, hb3⟩ := fits_nb h
  have hper := fits_per h
  have hdig : q.per * q.nb ≤ 64 := h.digest_le
  have e1 : indicesPerHashOutput q.n = .ok q.per := by
    rw [indicesPerHashOutput, divN, if_neg (by omega)]
    rfl
  have e2 : u32 (q.n + 7) / 8 = q.nb := by
    rw [show u32 (q.n + 7) = q.n + 7 from Nat.mod_eq_of_lt (by omega)]
    rfl
  have e3 : hashOutput q.n = .ok (q.per * q.nb) := by
    rw [hashOutput, e1, ok_bind, e2, show u32 (q.per * q.nb) = q.per * q.nb from Nat.mod_eq_of_lt (by omega)]
    rfl
  have hdl := Nat.div_le_self i.toNat q.per
  have hi32 := i.isLt
  obtain ⟨l, hl1, hl2⟩ := generateHash_total P header ps hp (BitVec.ofNat 32 (i.toNat / q.per)) (q.per * q.nb) (Nat.mul_pos hper hb1) hdig
    q.twist (fun ht => ⟨(h.twisted ht).1, by
      have := hi ht
      rw [BitVec.toNat_ofNat, Nat.mod_eq_of_lt (by omega)]
      omega⟩) fuel hf
  have hm : i.toNat % q.per < q.per := Nat.mod_lt _ hper
  have hm2 : (i.toNat % q.per + 1) * q.nb ≤ q.per * q.nb := Nat.mul_le_mul_right _ hm
  rw [Nat.add_mul, Nat.one_mul] at hm2
  have e4 : u32 (i.toNat % q.per * q.nb) = i.toNat % q.per * q.nb := Nat.mod_eq_of_lt (by omega)
  have e5 : u32 (i.toNat % q.per * q.nb + q.nb) = i.toNat % q.per * q.nb + q.nb := Nat.mod_eq_of_lt (by omega)
  unfold newNode
  rw [e1, ok_bind, divN, if_neg (by omega), ok_bind, e3, ok_bind, hl1, ok_bind]
  simp only
  rw [e2, e4, e5, slc_ok _ _ _ (by omega) (by omega), ok_bind, cbl_of hk, ok_bind]
  have hpl : ((l.take (i.toNat % q.per * q.nb + q.nb)).drop (i.toNat % q.per * q.nb)).length = q.nb := by
    rw [List.length_drop, List.length_take]
    omega
  obtain ⟨part, hpart⟩ : ∃ part, part = (l.take (i.toNat % q.per * q.nb + q.nb)).drop (i.toNat % q.per * q.nb) := ⟨_, rfl⟩
  rw [← hpart] at hpl ⊢
  have hclo := h.c_lo
  have hchi := h.c_hi
  by_cases h7 : q.c < 8
  · left
    rw [expandArray, if_pos h7]
    exact ⟨_, rfl⟩
  · right
    obtain ⟨out, ho1, ho2, _⟩ := expandArray_total part q.c 0 (by omega) (by omega) (by omega) (by
      rw [hpl]
      have h1 : 8 * ((q.c + 7) / 8 + 0) * q.nb ≤ 8 * 4 * 64 := Nat.mul_le_mul (by omega) hb2
      omega)
    rw [ho1, ok_bind]
    refine ⟨⟨out, [i]⟩, rfl, ?_, by simp⟩
    rw [ho2, hpl]
    rfl

/-- what a row is at the beginning of round `r` -/
def RowOk (q : Spec.Equihash.Params) (r : Nat) (a : Node) : Prop :=
  a.hash.length + (q.c + 7) / 8 * r = leafLen q ∧ a.indices ≠ []

theorem combine_total (h : q.Fits) (hk : q.k + 1 < 2 ^ 32) (r : Nat) (hr : r < q.k) (a b : Node) (ha : RowOk q r a) (hb : RowOk q r b) :
    (∃ e, combine q.n q.k a b = .ok (.error e)) ∨ ∃ nd, combine q.n q.k a b = .ok (.ok nd) ∧ RowOk q (r + 1) nd := by
  have hchi := h.c_hi
  have e1 : collisionByteLength q.n q.k = .ok ((q.c + 7) / 8) := by
    rw [collisionByteLength, cbl_of hk, ok_bind, show u32 (q.c + 7) = q.c + 7 from Nat.mod_eq_of_lt (by omega)]
    rfl
  have hge := leafLen_ge h
  have hlt := leafLen_lt h
  have hmul : (q.c + 7) / 8 * (r + 1) ≤ (q.c + 7) / 8 * (q.k + 1) := Nat.mul_le_mul_left _ (by omega)
  rw [Nat.mul_add, Nat.mul_one] at hmul
  obtain ⟨ha1, ha2⟩ := ha
  obtain ⟨hb1, hb2⟩ := hb
  obtain ⟨a0, A, hA⟩ := List.exists_cons_of_ne_nil ha2
  obtain ⟨b0, B, hB⟩ := List.exists_cons_of_ne_nil hb2
  have ia : idx a.indices 0 = .ok a0 := by rw [hA]; rfl
  have ib : idx b.indices 0 = .ok b0 := by rw [hB]; rfl
  have hv : ∃ o, validateSubtrees q.n q.k a b = .ok o := by
    unfold validateSubtrees
    rw [e1, ok_bind]
    rcases collide_loop a b ((q.c + 7) / 8) (by omega) (by omega) with ⟨_, e⟩ | ⟨_, e⟩
    · rw [e, ok_bind]
      simp only
      rw [ib, ok_bind, ia, ok_bind]
      by_cases h1 : b0 < a0
      · rw [if_pos h1]; exact ⟨_, rfl⟩
      · rw [if_neg h1]
        by_cases h2 : (a.indices.any fun i => b.indices.any fun j => i == j) = true
        · rw [if_pos h2]; exact ⟨_, rfl⟩
        · rw [if_neg h2]; exact ⟨_, rfl⟩
    · rw [e, ok_bind]
      exact ⟨_, rfl⟩
  obtain ⟨o, hv⟩ := hv
  unfold combine
  rw [hv, ok_bind]
  cases o with
  | some e => exact .inl ⟨e, rfl⟩
  | none =>
    right
    simp only
    rw [e1, ok_bind]
    unfold newNodeFromChildrenRef
    simp only
    rw [xorLoop_eq a b ((q.c + 7) / 8) (by omega) (by omega) (by omega), ok_bind, ia, ok_bind, ib, ok_bind]
    refine ⟨_, rfl, ?_, ?_⟩
    · simp only [List.length_drop, List.length_zipWith]
      rw [Nat.mul_add, Nat.mul_one]
      omega
    · simp only
      by_cases h1 : a0 < b0
      · rw [if_pos h1, hA]; simp
      · rw [if_neg h1, hB]; simp

end Verif.Equihash

namespace Verif.Pairing

open Go

variable {N E : Type}

theorem pairLoop_total (pair : N → N → Go (Except E N)) (I J : N → Prop)
    (h : ∀ a b, I a → I b → (∃ e, pair a b = .ok (.error e)) ∨ ∃ c, pair a b = .ok (.ok c) ∧ J c) (m : Nat) (rows : List N)
    (hl : rows.length = 2 * m) (hr : ∀ x ∈ rows, I x) :
    (∃ e, pairLoop pair rows = .ok (.ret e)) ∨ ∃ rows', pairLoop pair rows = .ok (.cont rows') ∧ rows'.length = m ∧ ∀ x ∈ rows', J x := by
  have := forRangeE_inv (f := pairStep pair rows) (fun t cur => cur.length = t ∧ ∀ x ∈ cur, J x) (fun _ => True) 0 m []
    (by omega) ⟨rfl, by simp⟩ (by
      rintro t cur _ ht ⟨h1, h2⟩
      simp only [pairStep]
      rw [idx_ok rows (2 * t) (by omega), ok_bind, idx_ok rows (2 * t + 1) (by omega), ok_bind]
      have l1 : 2 * t < rows.length := by omega
      have l2 : 2 * t + 1 < rows.length := by omega
      rcases h _ _ (hr _ (List.getElem_mem l1)) (hr _ (List.getElem_mem l2)) with ⟨e, he⟩ | ⟨c, hc, hJ⟩
      · right
        rw [he]
        exact ⟨e, rfl, trivial⟩
      · left
        rw [hc]
        refine ⟨_, rfl, by simp [h1], ?_⟩
        intro x hx
        rcases List.mem_append.1 hx with hx | hx
        · exact h2 x hx
        · rw [List.mem_singleton.1 hx]
          exact hJ)
  have hlen : (rows.length + 1) / 2 = m := by omega
  unfold pairLoop
  rw [hlen]
  rcases this with ⟨s, e, h1, h2⟩ | ⟨b, e, _⟩
  · exact .inr ⟨s, e, h1, h2⟩
  · exact .inl ⟨b, e⟩

theorem rounds_total (pair : Nat → N → N → Go (Except E N)) (I : Nat → N → Prop) (k : Nat)
    (h : ∀ s r, r < k → ∀ a b, I r a → I r b → (∃ e, pair s a b = .ok (.error e)) ∨ ∃ c, pair s a b = .ok (.ok c) ∧ I (r + 1) c) :
    ∀ (d r s fuel : Nat) (rows : List N), r + d = k → d + 1 ≤ fuel → rows.length = 2 ^ d → (∀ x ∈ rows, I r x) →
      (∃ e, rounds pair fuel s rows = .ok (.error e)) ∨ ∃ x, rounds pair fuel s rows = .ok (.ok [x]) := by
  intro d
  induction d with
  | zero =>
    intro r s fuel rows hrd hf hl hr
    obtain ⟨f, rfl⟩ : ∃ f, fuel = f + 1 := ⟨fuel - 1, by omega⟩
    obtain ⟨x, rfl⟩ := List.length_eq_one_iff.1 hl
    right
    refine ⟨x, ?_⟩
    unfold rounds
    exact forever_ret _ rfl
  | succ d ih =>
    intro r s fuel rows hrd hf hl hr
    obtain ⟨f, rfl⟩ : ∃ f, fuel = f + 1 := ⟨fuel - 1, by omega⟩
    have hp : 0 < 2 ^ d := Nat.two_pow_pos d
    rw [Nat.pow_succ] at hl
    unfold rounds
    rcases pairLoop_total (pair s) (I r) (I (r + 1)) (h s r (by omega)) (2 ^ d) rows (by omega) hr with ⟨e, he⟩ | ⟨rows', he, h1, h2⟩
    · left
      refine ⟨e, forever_ret _ ?_⟩
      simp only [roundStep]
      rw [if_pos (by omega), he]
      rfl
    · rw [forever_cont (s' := (s + 1, rows'))]
      · exact ih (r + 1) (s + 1) f rows' (by omega) (by omega) h1 h2
      · simp only [roundStep]
        rw [if_pos (by omega), he]
        rfl

end Verif.Pairing

namespace Verif.Equihash

open Go Convutil Crypto Spec.Equihash

variable {q : Spec.Equihash.Params}

/-! ### `verify` -/

/-- the statements of `verify` after the personalisation has been set up -/
def verifyTail (P : Prims) (fuel : Nat) (q : Spec.Equihash.Params) (header soln ps : List Byte) : Go (Bool × Option Err) := do
  match ← indicesFromMinimal q.n q.k soln with
  | .error e => pure (false, some e)
  | .ok indices => do
    match ← forRangeE 0 indices.length [] (rowStep P fuel q.n q.k ps q.twist header indices) with
    | .ret e => pure (false, some e)
    | .cont rows => do
      match ← Pairing.rounds (fun _ => combine q.n q.k) fuel 0 rows with
      | .error e => pure (false, some e)
      | .ok rows => do
        let top ← idx rows 0
        if top.hash.any (fun v => v != 0) then pure (false, none) else pure (true, none)

theorem verify_tail (P : Prims) (fuel : Nat) (hn : q.n < 2 ^ 32) (hk : q.k < 2 ^ 32) (header soln : List Byte) :
    verify P fuel q.n q.k q.personal header soln q.twist = verifyTail P fuel q header soln (pstate q) := by
  have e : q.personal.length + 4 = (q.personal ++ Spec.leEncode 4 (BitVec.ofNat 32 q.n).toNat).length := by simp
  unfold verify
  simp only
  rw [copy_zero, ok_bind, put_le q.personal 4 8 rfl, ok_bind, e, put_le _ 0 4 rfl, ok_bind]
  simp only [BitVec.toNat_ofNat, Nat.mod_eq_of_lt hn, Nat.mod_eq_of_lt hk, List.replicate_zero, List.append_nil]
  rfl

theorem pstate_length (q : Spec.Equihash.Params) : (pstate q).length = q.personal.length + 8 := by simp [pstate]

theorem asked_eq (q : Spec.Equihash.Params) : u32 (u32 (2 ^ q.k) * u32 (q.c + 1)) / 8 = q.askedLen := by
  unfold u32 Params.askedLen
  rw [← Nat.mul_mod]

theorem decode_total (hclo : 7 ≤ q.c) (hchi : q.c ≤ 31) (hbytes : 8 ∣ 2 ^ q.k * (q.c + 1)) (hsm : 2 ^ q.k * (q.c + 1) < 2 ^ 30)
    (hk : q.k + 1 < 2 ^ 32) (soln : List Byte) (hl : soln.length = q.askedLen) :
    ∃ ixs, indicesFromMinimal q.n q.k soln = .ok (.ok ixs) ∧ ixs.length = 2 ^ q.k ∧ (q.c ≤ 30 → ∀ i ∈ ixs, i.toNat < 2 ^ 31) := by
  obtain ⟨B, hB⟩ := hbytes
  have hal : q.askedLen = B := by
    unfold Params.askedLen
    rw [Nat.mod_eq_of_lt (by omega), hB, Nat.mul_div_cancel_left _ (by omega)]
  have hsl : 8 * soln.length = 2 ^ q.k * (q.c + 1) := by omega
  have e0 : u32 (q.c + 1) = q.c + 1 := Nat.mod_eq_of_lt (by omega)
  have e1 : u32 (q.c + 1 + 7) = q.c + 1 + 7 := Nat.mod_eq_of_lt (by omega)
  have e2 : u32 soln.length = soln.length := Nat.mod_eq_of_lt (by omega)
  have hW : (q.c + 1 + 7) / 8 + (4 - (q.c + 1 + 7) / 8) = 4 := by omega
  obtain ⟨out, ho1, ho2, ho3⟩ := expandArray_total soln (q.c + 1) (4 - (q.c + 1 + 7) / 8) (by omega) (by omega) (by omega)
    (by rw [hW]; omega)
  rw [hW] at ho2 ho3
  have hol : 8 * 4 * soln.length / (q.c + 1) = 4 * 2 ^ q.k := by
    rw [show 8 * 4 * soln.length = 4 * 2 ^ q.k * (q.c + 1) by rw [Nat.mul_assoc 4, ← hsl]; ring]
    exact Nat.mul_div_cancel _ (by omega)
  unfold indicesFromMinimal
  rw [cbl_of hk, ok_bind]
  simp only
  rw [asked_eq, e0, e1, e2, if_neg (by omega), if_neg (by omega), ho1, ok_bind]
  simp only
  rw [bytesToUint32Array_eq, ok_bind]
  refine ⟨_, rfl, by rw [words32_length, ho2, hol, Nat.mul_div_cancel_left _ (by omega)], fun hc => words_low out (ho3 ?_ (by omega) rfl)⟩
  rw [hol]
  intro he
  have hp : 0 < 2 ^ q.k := Nat.two_pow_pos _
  have : 2 ^ q.k * (q.c + 1) ≤ 2 ^ q.k * 31 := Nat.mul_le_mul_left _ (by omega)
  omega

/-- a solution of another length, or a collision length outside 7 … 31, is an error -/
theorem decode_error (hk : q.k + 1 < 2 ^ 32) (soln : List Byte) (h32 : soln.length < 2 ^ 32)
    (h : soln.length ≠ q.askedLen ∨ q.c < 7 ∨ 31 < q.c) (hn : q.n < 2 ^ 32) : ∃ e, indicesFromMinimal q.n q.k soln = .ok (.error e) := by
  have e2 : u32 soln.length = soln.length := Nat.mod_eq_of_lt h32
  have hc : q.c < 2 ^ 32 := Nat.lt_of_le_of_lt (Nat.div_le_self _ _) hn
  unfold indicesFromMinimal
  rw [cbl_of hk, ok_bind]
  simp only
  rw [asked_eq, e2]
  by_cases h1 : soln.length = q.askedLen
  · rw [if_neg (by simpa using h1)]
    by_cases h2 : 4 < u32 (u32 (q.c + 1) + 7) / 8
    · rw [if_pos h2]
      exact ⟨_, rfl⟩
    · rw [if_neg h2]
      unfold expandArray
      by_cases h3 : u32 (q.c + 1) < 8
      · rw [if_pos h3]
        exact ⟨_, rfl⟩
      · rw [if_neg h3]
        have h4 : 32 < u32 (q.c + 1) := by
          unfold u32 at h3 ⊢
          rcases h with h | h | h
          · exact absurd h1 h
          · omega
          · omega
        rw [if_pos h4]
        exact ⟨_, rfl⟩
  · rw [if_pos h1]
    exact ⟨_, rfl⟩

theorem verify_returns (P : Prims) (hn : q.n < 2 ^ 32) (hk : q.k + 1 < 2 ^ 32) (h : 7 ≤ q.c → q.c ≤ 31 → q.Fits) (header soln : List Byte)
    (h32 : soln.length < 2 ^ 32) (fuel : Nat) (hf : 64 ≤ fuel) :
    ∃ r, verify P fuel q.n q.k q.personal header soln q.twist = .ok r := by
  rw [verify_tail P fuel hn (by omega)]
  unfold verifyTail
  by_cases hbad : soln.length ≠ q.askedLen ∨ q.c < 7 ∨ 31 < q.c
  · obtain ⟨e, he⟩ := decode_error hk soln h32 hbad hn
    rw [he, ok_bind]
    exact ⟨_, rfl⟩
  · have hl : soln.length = q.askedLen := by
      by_contra hc
      exact hbad (.inl hc)
    have hF := h (by omega) (by omega)
    obtain ⟨ixs, hi1, hi2, hi3⟩ := decode_total hF.c_lo hF.c_hi hF.bytes hF.small hk soln hl
    have hps : (pstate q).length ≤ 16 := by
      rw [pstate_length]
      have := hF.personal_le
      omega
    rw [hi1, ok_bind]
    simp only
    have hrows := forRangeE_inv (f := rowStep P fuel q.n q.k (pstate q) q.twist header ixs)
      (fun i rows => rows.length = i ∧ ∀ x ∈ rows, RowOk q 0 x) (fun _ => True) 0 ixs.length [] (by omega) ⟨rfl, by simp⟩ (by
        rintro i rows _ hi ⟨h1, h2⟩
        simp only [rowStep]
        rw [idx_ok _ _ hi, ok_bind]
        rcases newNode_total P hF hk (pstate q) header hps ixs[i] (fun ht => hi3 (hF.twisted ht).2 _ (List.getElem_mem hi)) fuel (by omega) with
          ⟨e, he⟩ | ⟨nd, he, hnd1, hnd2⟩
        · right
          rw [he]
          exact ⟨e, rfl, trivial⟩
        · left
          rw [he]
          refine ⟨_, rfl, by simp [h1], ?_⟩
          intro x hx
          rcases List.mem_append.1 hx with hx | hx
          · exact h2 x hx
          · rw [List.mem_singleton.1 hx]
            exact ⟨hnd1, hnd2⟩)
    rcases hrows with ⟨rows, e, hr1, hr2⟩ | ⟨er, e, _⟩
    · rw [e, ok_bind]
      simp only
      rcases Pairing.rounds_total (fun _ => combine q.n q.k) (RowOk q) q.k (fun _ r hr a b ha hb => combine_total hF hk r hr a b ha hb) q.k 0 0 fuel rows
        (by omega) (by have := fits_k hF; omega) (by omega) hr2 with ⟨er, e⟩ | ⟨x, e⟩
      · rw [e, ok_bind]
        exact ⟨_, rfl⟩
      · rw [e, ok_bind]
        simp only [idx, List.getElem?_cons_zero, ok_bind]
        by_cases hx : (x.hash.any fun v => v != 0) = true
        · rw [if_pos hx]; exact ⟨_, rfl⟩
        · rw [if_neg hx]; exact ⟨_, rfl⟩
    · rw [e, ok_bind]
      exact ⟨_, rfl⟩

end Verif.Equihash
