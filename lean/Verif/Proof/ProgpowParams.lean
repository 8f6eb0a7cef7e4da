import Verif.Model.ProgpowInt
import Verif.Proof.ProgpowHash
import Verif.Go.Fail

/-! # `Hash` of ProgPoW with any configuration -/

set_option autoImplicit false

namespace Verif.Progpow

open Go Crypto

/-- what stays true of the generator of programs -/
structure StOk (R : Nat) (st : MixRngState) : Prop where
  size : st.size.toNat = R
  lsrc : st.srcSequence.length = R
  ldst : st.dstSequence.length = R
  src : ∀ x ∈ st.srcSequence, x.toNat < R
  dst : ∀ x ∈ st.dstSequence, x.toNat < R

theorem initMixRngState_st (seed : U64) (size : U32) : ∃ st, initMixRngState seed size = .ok st ∧ StOk size.toNat st := by
  obtain ⟨st, k, src, dst, e, _, hr, ps, pd⟩ := initMixRngState_ok seed size
  refine ⟨st, e, hr.size, ?_, ?_, ?_, ?_⟩
  · have := hr.lsrc; rw [← hr.src, List.length_map] at this; exact this
  · have := hr.ldst; rw [← hr.dst, List.length_map] at this; exact this
  · intro x hx
    have : x.toNat ∈ src := by rw [← hr.src]; exact List.mem_map.2 ⟨x, hx, rfl⟩
    exact List.mem_range.1 (ps.mem_iff.1 this)
  · intro x hx
    have : x.toNat ∈ dst := by rw [← hr.dst]; exact List.mem_map.2 ⟨x, hx, rfl⟩
    exact List.mem_range.1 (pd.mem_iff.1 this)

section
variable {R : Nat} {st : MixRngState}

theorem nextSrc_st (h : StOk R st) (hR : 0 < R) : ∃ v st', st.nextSrc = .ok (v, st') ∧ v.toNat < R ∧ StOk R st' := by
  have hlt : (st.srcCounter % st.size).toNat < st.srcSequence.length := by
    rw [BitVec.toNat_umod, h.size, h.lsrc]; exact Nat.mod_lt _ hR
  refine ⟨st.srcSequence[(st.srcCounter % st.size).toNat], { st with srcCounter := st.srcCounter + 1 }, ?_, h.src _ (List.getElem_mem _),
    h.size, h.lsrc, h.ldst, h.src, h.dst⟩
  unfold MixRngState.nextSrc
  rw [umod_ok _ _ (by rw [h.size]; omega), ok_bind, idx_ok _ _ hlt]
  rfl

theorem nextDst_st (h : StOk R st) (hR : 0 < R) : ∃ v st', st.nextDst = .ok (v, st') ∧ v.toNat < R ∧ StOk R st' := by
  have hlt : (st.dstCounter % st.size).toNat < st.dstSequence.length := by
    rw [BitVec.toNat_umod, h.size, h.ldst]; exact Nat.mod_lt _ hR
  refine ⟨st.dstSequence[(st.dstCounter % st.size).toNat], { st with dstCounter := st.dstCounter + 1 }, ?_, h.dst _ (List.getElem_mem _),
    h.size, h.lsrc, h.ldst, h.src, h.dst⟩
  unfold MixRngState.nextDst
  rw [umod_ok _ _ (by rw [h.size]; omega), ok_bind, idx_ok _ _ hlt]
  rfl

theorem nextRng_st (h : StOk R st) : StOk R st.nextRng.2 := ⟨h.size, h.lsrc, h.ldst, h.src, h.dst⟩

end

/-- two consecutive numbers have no common factor, so one of them has all 32 factors of two -/
theorem mul_pred_mod (R : Nat) (h2 : 2 ≤ R) (h32 : R < 2 ^ 32) : R * (R - 1) % 2 ^ 32 ≠ 0 := by
  intro h
  have hd : 2 ^ 32 ∣ R * (R - 1) := Nat.dvd_of_mod_eq_zero h
  rcases Nat.even_or_odd' R with ⟨k, hk | hk⟩
  · have hc : Nat.Coprime (2 ^ 32) (R - 1) := Nat.Coprime.pow_left 32 (by rw [Nat.Coprime, Nat.gcd_rec, show (R - 1) % 2 = 1 by omega]; exact Nat.gcd_one_left _)
    have := Nat.le_of_dvd (by omega) (hc.dvd_of_dvd_mul_right hd)
    omega
  · have hc : Nat.Coprime (2 ^ 32) R := Nat.Coprime.pow_left 32 (by rw [Nat.Coprime, Nat.gcd_rec, show R % 2 = 1 by omega]; exact Nat.gcd_one_left _)
    have := Nat.le_of_dvd (by omega) (hc.dvd_of_dvd_mul_left hd)
    omega

section
variable {cfg : Config}

/-- a loop over the lanes that changes one row at a time -/
theorem lanes_total {mix : List (List U32)} (hm : Rows cfg mix) {f : Nat → List (List U32) → Go (List (List U32))}
    (hf : ∀ l m, l < cfg.laneCount → Rows cfg m → ∃ m', f l m = .ok m' ∧ Rows cfg m') :
    ∃ m', forRange 0 cfg.laneCount mix f = .ok m' ∧ Rows cfg m' :=
  forRange_inv (fun _ m => Rows cfg m) 0 _ mix (Nat.zero_le _) hm fun l m _ hl h => hf l m hl h

theorem Rows.set {mix : List (List U32)} (h : Rows cfg mix) (l : Nat) (row : List U32) (hr : row.length = cfg.registerCount) :
    Rows cfg (mix.set l row) := by
  refine ⟨by rw [List.length_set]; exact h.1, fun x hx => ?_⟩
  rcases List.mem_or_eq_of_mem_set hx with h' | rfl
  · exact h.2 x h'
  · exact hr

theorem mergeAt_total {m : List (List U32)} (h : Rows cfg m) (l : Nat) (hl : l < cfg.laneCount) (dst data sel : U32)
    (hd : dst.toNat < cfg.registerCount) : ∃ m', mergeAt m l dst data sel = .ok m' ∧ Rows cfg m' := by
  have hlt : l < m.length := by rw [h.1]; exact hl
  have hr := h.2 _ (List.getElem_mem hlt)
  exact ⟨_, mergeAt_ok m l m[l] dst data sel (List.getElem?_eq_getElem hlt) (by rw [hr]; exact hd), h.set l _ (by rw [mergeReg_length, hr])⟩

theorem cacheLane_total (l1 : List U32) (src dst sel : U32) (hc : 4 ≤ cfg.cacheBytes.toNat) (hl1 : cfg.cacheBytes.toNat / 4 ≤ l1.length)
    (hs : src.toNat < cfg.registerCount) (hd : dst.toNat < cfg.registerCount) (l : Nat) (m : List (List U32)) (hl : l < cfg.laneCount)
    (h : Rows cfg m) : ∃ m', cacheLane cfg l1 src dst sel l m = .ok m' ∧ Rows cfg m' := by
  have hlt : l < m.length := by rw [h.1]; exact hl
  have hr := h.2 _ (List.getElem_mem hlt)
  exact ⟨_, cacheLane_ok cfg l1 src dst sel hc hl1 l m m[l] (List.getElem?_eq_getElem hlt) (by rw [hr]; exact hs) (by rw [hr]; exact hd),
    h.set l _ (by rw [exec_length, hr])⟩

theorem mathLane_total (src1 src2 sel1 dst sel2 : U32) (h1 : src1.toNat < cfg.registerCount) (h2 : src2.toNat < cfg.registerCount)
    (hd : dst.toNat < cfg.registerCount) (l : Nat) (m : List (List U32)) (hl : l < cfg.laneCount) (h : Rows cfg m) :
    ∃ m', mathLane src1 src2 sel1 dst sel2 l m = .ok m' ∧ Rows cfg m' := by
  have hlt : l < m.length := by rw [h.1]; exact hl
  have hr := h.2 _ (List.getElem_mem hlt)
  exact ⟨_, mathLane_ok cfg (fun _ => 0) src1 src2 sel1 dst sel2 l m m[l] (List.getElem?_eq_getElem hlt) (by rw [hr]; exact h1)
    (by rw [hr]; exact h2) (by rw [hr]; exact hd), h.set l _ (by rw [exec_length, hr])⟩

/-- the loop body's invariant -/
def OpOk (cfg : Config) (s : MixRngState × List (List U32)) : Prop := StOk cfg.registerCount s.1 ∧ Rows cfg s.2

variable (hR : 0 < cfg.registerCount) (hR32 : cfg.registerCount < 2 ^ 32)
include hR

theorem cacheOp_total (l1 : List U32) (hc : 4 ≤ cfg.cacheBytes.toNat) (hl1 : cfg.cacheBytes.toNat / 4 ≤ l1.length)
    (s : MixRngState × List (List U32)) (h : OpOk cfg s) : ∃ s', cacheOp cfg l1 s = .ok s' ∧ OpOk cfg s' := by
  obtain ⟨st, mix⟩ := s
  obtain ⟨src, st1, e1, hs, h1⟩ := nextSrc_st h.1 hR
  obtain ⟨dst, st2, e2, hd, h2⟩ := nextDst_st h1 hR
  obtain ⟨m', e3, h3⟩ := lanes_total h.2 (cacheLane_total l1 src dst st2.nextRng.1 hc hl1 hs hd)
  refine ⟨(st2.nextRng.2, m'), ?_, nextRng_st h2, h3⟩
  simp only [cacheOp]
  rw [e1, ok_bind]
  dsimp only
  rw [e2, ok_bind]
  dsimp only
  rw [e3]
  rfl

include hR32

theorem mathOp_total (h2 : 2 ≤ cfg.registerCount) (s : MixRngState × List (List U32)) (h : OpOk cfg s) :
    ∃ s', mathOp cfg s = .ok s' ∧ OpOk cfg s' := by
  obtain ⟨st, mix⟩ := s
  obtain ⟨R, hRd⟩ : ∃ R, R = cfg.registerCount := ⟨_, rfl⟩
  obtain ⟨regs, hregs⟩ : ∃ x : U32, x = BitVec.ofNat 32 cfg.registerCount := ⟨_, rfl⟩
  obtain ⟨prod, hprodd⟩ : ∃ x : U32, x = regs * BitVec.ofInt 32 ((cfg.registerCount : Int) - 1) := ⟨_, rfl⟩
  have hreg : regs.toNat = R := by rw [hregs, BitVec.toNat_ofNat]; omega
  have hreg1 : (BitVec.ofInt 32 ((cfg.registerCount : Int) - 1)).toNat = R - 1 := by
    rw [show ((cfg.registerCount : Int) - 1) = ((R - 1 : Nat) : Int) by omega, BitVec.ofInt_natCast, BitVec.toNat_ofNat]; omega
  have hprod : prod.toNat = R * (R - 1) % 2 ^ 32 := by rw [hprodd, BitVec.toNat_mul, hreg, hreg1]
  have hpos : R * (R - 1) % 2 ^ 32 ≠ 0 := mul_pred_mod R (by omega) (by omega)
  have hle : R * (R - 1) % 2 ^ 32 ≤ R * (R - 1) := Nat.mod_le _ _
  obtain ⟨sr, hsr⟩ : ∃ x : U32, x = st.nextRng.1 % prod := ⟨_, rfl⟩
  have hsr' : sr.toNat < R * (R - 1) := by
    rw [hsr, BitVec.toNat_umod, hprod]
    exact Nat.lt_of_lt_of_le (Nat.mod_lt _ (by omega)) hle
  have hdiv : sr.toNat / R < R - 1 := Nat.div_lt_of_lt_mul hsr'
  have hs1 : (sr % regs).toNat < cfg.registerCount := by rw [BitVec.toNat_umod, hreg, ← hRd]; exact Nat.mod_lt _ (by omega)
  have hs2 : (if sr / regs ≥ sr % regs then sr / regs + 1 else sr / regs).toNat < cfg.registerCount := by
    have hq : (sr / regs).toNat = sr.toNat / R := by rw [BitVec.toNat_udiv, hreg]
    by_cases hc : sr / regs ≥ sr % regs
    · rw [if_pos hc, BitVec.toNat_add, hq, show (1 : U32).toNat = 1 from rfl]; omega
    · rw [if_neg hc, hq]; omega
  have h1 := nextRng_st (nextRng_st h.1)
  obtain ⟨dst, st2, e2, hd, h3⟩ := nextDst_st h1 hR
  obtain ⟨m', e3, h4⟩ := lanes_total h.2 (mathLane_total (sr % regs) (if sr / regs ≥ sr % regs then sr / regs + 1 else sr / regs)
    st.nextRng.2.nextRng.1 dst st2.nextRng.1 hs1 hs2 hd)
  refine ⟨(st2.nextRng.2, m'), ?_, nextRng_st h3, h4⟩
  simp only [mathOp]
  rw [← hregs, ← hprodd, umod_ok _ _ (by rw [hprod]; exact hpos), ok_bind, ← hsr, umod_ok _ _ (by rw [hreg]; omega), ok_bind,
    udiv_ok _ _ (by rw [hreg]; omega), ok_bind, e2, ok_bind]
  dsimp only
  rw [e3]
  rfl

theorem opStep_total (l1 : List U32) (hl1 : cfg.cacheBytes.toNat / 4 ≤ l1.length)
    (hc : 0 < cfg.roundCacheAccesses → 4 ≤ cfg.cacheBytes.toNat) (hm : 0 < cfg.roundMathOperations → 2 ≤ cfg.registerCount) (i : Nat)
    (s : MixRngState × List (List U32)) (h : OpOk cfg s) : ∃ s', opStep cfg l1 i s = .ok s' ∧ OpOk cfg s' := by
  have h1 : ∃ s1, (if i < cfg.roundCacheAccesses then cacheOp cfg l1 s else pure s) = .ok s1 ∧ OpOk cfg s1 := by
    by_cases hi : i < cfg.roundCacheAccesses
    · rw [if_pos hi]; exact cacheOp_total hR l1 (hc (by omega)) hl1 s h
    · rw [if_neg hi]; exact ⟨s, rfl, h⟩
  obtain ⟨s1, e1, h1⟩ := h1
  have e2 : opStep cfg l1 i s = (if i < cfg.roundCacheAccesses then cacheOp cfg l1 s else pure s) >>=
      fun s => if i < cfg.roundMathOperations then mathOp cfg s else pure s := by
    rw [opStep]
    by_cases hi : i < cfg.roundCacheAccesses
    · rw [if_pos hi, if_pos hi]
    · rw [if_neg hi, if_neg hi]
  rw [e2, e1, ok_bind]
  by_cases hi : i < cfg.roundMathOperations
  · rw [if_pos hi]; exact mathOp_total hR hR32 (hm (by omega)) s1 h1
  · rw [if_neg hi]; exact ⟨s1, rfl, h1⟩

omit hR32 in
theorem draws_total (W : Nat) (st : MixRngState) (h : StOk cfg.registerCount st) :
    ∃ r, forRange 0 W (st, List.replicate W 0, List.replicate W 0) dagDraw = .ok r ∧
      r.2.1.length = W ∧ r.2.2.length = W ∧ ∀ x ∈ r.2.1, x.toNat < cfg.registerCount := by
  obtain ⟨r, e, _, h1, h2, h3⟩ := forRange_inv (f := dagDraw) (fun _ (r : MixRngState × List U32 × List U32) =>
    StOk cfg.registerCount r.1 ∧ r.2.1.length = W ∧ r.2.2.length = W ∧ ∀ x ∈ r.2.1, x.toNat < cfg.registerCount) 0 W
    (st, List.replicate W 0, List.replicate W 0) (Nat.zero_le _)
    ⟨h, List.length_replicate, List.length_replicate, fun x hx => by rw [List.eq_of_mem_replicate hx]; exact hR⟩ (by
      rintro i ⟨st, dsts, sels⟩ _ hi ⟨h1, h2, h3, h4⟩
      have hdst : ∃ v st', dagDst i st = .ok (v, st') ∧ v.toNat < cfg.registerCount ∧ StOk cfg.registerCount st' := by
        rw [dagDst]
        by_cases h0 : i = 0
        · rw [if_pos h0]; exact ⟨0, st, rfl, hR, h1⟩
        · rw [if_neg h0]; exact nextDst_st h1 hR
      obtain ⟨v, st', e1, hv, h5⟩ := hdst
      dsimp only at h2 h3
      refine ⟨(st'.nextRng.2, dsts.set i v, sels.set i st'.nextRng.1), ?_, nextRng_st h5, by dsimp only; rw [List.length_set]; exact h2,
        by dsimp only; rw [List.length_set]; exact h3, fun x hx => ?_⟩
      · simp only [dagDraw]
        rw [e1, ok_bind]
        dsimp only
        rw [upd_ok _ _ _ (by omega), ok_bind, upd_ok _ _ _ (by omega)]
        rfl
      · rcases List.mem_or_eq_of_mem_set hx with h' | rfl
        · exact h4 x h'
        · exact hv)
  exact ⟨r, e, h1, h2, h3⟩

omit hR hR32 in
theorem dagLane_total (hL : cfg.laneCount < 2 ^ 32) (r : U32) (W : Nat) (item dsts sels : List U32)
    (hi : cfg.laneCount * W ≤ item.length) (hi32 : item.length < 2 ^ 32) (h1 : dsts.length = W) (h2 : sels.length = W)
    (h3 : ∀ x ∈ dsts, x.toNat < cfg.registerCount) (l : Nat) (m : List (List U32)) (hl : l < cfg.laneCount) (h : Rows cfg m) :
    ∃ m', dagLane cfg r W item dsts sels l m = .ok m' ∧ Rows cfg m' := by
  have hlane : (BitVec.ofNat 32 cfg.laneCount).toNat = cfg.laneCount := by rw [BitVec.toNat_ofNat]; omega
  obtain ⟨q, hq⟩ : ∃ q : U32, q = (BitVec.ofNat 32 l ^^^ r) % BitVec.ofNat 32 cfg.laneCount := ⟨_, rfl⟩
  have hqlt : q.toNat < cfg.laneCount := by rw [hq, BitVec.toNat_umod, hlane]; exact Nat.mod_lt _ (by omega)
  have hqW : q.toNat * W + W ≤ cfg.laneCount * W := by
    have : (q.toNat + 1) * W ≤ cfg.laneCount * W := Nat.mul_le_mul_right _ hqlt
    rwa [Nat.add_mul, Nat.one_mul] at this
  have hstep : ∀ i m, 0 ≤ i → i < W → Rows cfg m →
      ∃ m', dagWord item dsts sels (q * BitVec.ofNat 32 W) l i m = .ok m' ∧ Rows cfg m' := by
    intro i m _ hiW hm
    have hW : (BitVec.ofNat 32 W).toNat = W := by
      have : 1 * W ≤ cfg.laneCount * W := Nat.mul_le_mul_right _ (by omega)
      rw [BitVec.toNat_ofNat]; omega
    have hoff : (q * BitVec.ofNat 32 W + BitVec.ofNat 32 i).toNat = q.toNat * W + i := by
      rw [BitVec.toNat_add, BitVec.toNat_mul, hW, BitVec.toNat_ofNat]
      omega
    rw [dagWord, hoff, idx_ok _ _ (by omega), ok_bind, idx_ok _ _ (by omega), ok_bind, idx_ok _ _ (by omega), ok_bind]
    exact mergeAt_total hm l hl _ _ _ (h3 _ (List.getElem_mem _))
  rw [dagLane, umod_ok _ _ (by rw [hlane]; omega), ok_bind, ← hq]
  exact forRange_inv (fun _ m => Rows cfg m) 0 W m (Nat.zero_le _) h hstep

/-- a lookup that answers every request, with items below 2^32 words -/
def Answers (lookup : Lookup) : Prop := ∀ i, ∃ item, lookup i = .ok item ∧ item.length < 2 ^ 32

theorem round_total (hL : cfg.laneCount < 2 ^ 32) (hL0 : 0 < cfg.laneCount) (l1 : List U32) (hl1 : cfg.cacheBytes.toNat / 4 ≤ l1.length)
    (hc : 0 < cfg.roundCacheAccesses → 4 ≤ cfg.cacheBytes.toNat) (hm : 0 < cfg.roundMathOperations → 2 ≤ cfg.registerCount)
    (number : U64) (r : U32) (mix : List (List U32)) (h : Rows cfg mix) (datasetSize : U64) (hn : numItems datasetSize ≠ 0) (lookup : Lookup)
    (hlk : Answers lookup) : ∃ mix', round cfg number r mix datasetSize lookup l1 = .ok mix' ∧ Rows cfg mix' := by
  have hlane : (BitVec.ofNat 32 cfg.laneCount).toNat = cfg.laneCount := by rw [BitVec.toNat_ofNat]; omega
  have hreg : (BitVec.ofNat 32 cfg.registerCount).toNat = cfg.registerCount := by rw [BitVec.toNat_ofNat]; omega
  have hnz : ((datasetSize / (2 * 128)).setWidth 32 : U32).toNat ≠ 0 := by
    rw [BitVec.toNat_setWidth, BitVec.toNat_udiv, show ((2 * 128 : U64)).toNat = 256 from rfl]
    exact hn
  obtain ⟨st, e1, hst⟩ := initMixRngState_st number (BitVec.ofNat 32 cfg.registerCount)
  rw [hreg] at hst
  have hq : (r % BitVec.ofNat 32 cfg.laneCount).toNat < mix.length := by
    rw [BitVec.toNat_umod, hlane, h.1]; exact Nat.mod_lt _ hL0
  have hrow := h.2 _ (List.getElem_mem hq)
  obtain ⟨item, e2, hi⟩ := hlk (mix[(r % BitVec.ofNat 32 cfg.laneCount).toNat][0] % (datasetSize / (2 * 128)).setWidth 32)
  obtain ⟨⟨st2, mix2⟩, e3, hst2, hmix2⟩ := forRange_inv (f := opStep cfg l1) (fun _ s => OpOk cfg s) 0
    (max cfg.roundCacheAccesses cfg.roundMathOperations) (st, mix) (Nat.zero_le _) ⟨hst, h⟩
    fun i s _ _ hs => opStep_total hR hR32 l1 hl1 hc hm i s hs
  obtain ⟨⟨st3, dsts, sels⟩, e4, h1, h2, h3⟩ := draws_total hR (item.length / cfg.laneCount) st2 hst2
  obtain ⟨mix3, e5, h5⟩ := lanes_total hmix2 (dagLane_total hL r (item.length / cfg.laneCount) item dsts sels
    (Nat.mul_div_le _ _) hi h1 h2 h3)
  refine ⟨mix3, ?_, h5⟩
  unfold round
  rw [e1, ok_bind]
  dsimp only
  rw [umod_ok _ _ (by rw [hlane]; omega), ok_bind, idx_ok _ _ hq, ok_bind, idx_ok _ _ (by omega), ok_bind, umod_ok _ _ hnz, ok_bind, e2, ok_bind,
    if_neg (by omega)]
  rw [e3, ok_bind]
  dsimp only
  rw [e4, ok_bind]
  exact e5

omit hR hR32 in
/-- the end of `Hash` -/
theorem finish_total (mix : List (List U32)) (hm : Rows cfg mix) : ∃ b, (do
    let laneHash ← forRange 0 cfg.laneCount (List.replicate cfg.laneCount 0) (laneHashStep cfg mix)
    let mixHash ← forRange 0 cfg.laneCount (List.replicate 8 fnvOffsetBasis) (mixHashStep laneHash)
    Convutil.uint32ArrayToBytes mixHash .little : Go (List Byte)) = .ok b ∧ b.length = 32 := by
  rw [forRange_fill (fun l => (mix.getD l []).foldl Spec.Progpow.fnv1a Spec.Progpow.fnvBasis) cfg.laneCount _ (by simp)]
  · simp only [ok_bind]
    rw [reduce_ok _ _ (by simp)]
    simp only [ok_bind]
    rw [Convutil.uint32ArrayToBytes_eq]
    refine ⟨_, rfl, ?_⟩
    rw [flatMap_length_const _ 4 (fun _ => by simp [bytesOf]), List.length_map, List.length_range]
  · intro l m hl hml _
    have hlm : l < mix.length := by rw [hm.1]; exact hl
    unfold laneHashStep
    rw [idx_ok _ _ hlm]
    simp only [ok_bind]
    rw [laneHashReg_ok _ _ (hm.2 _ (List.getElem_mem _))]
    simp only [ok_bind]
    rw [upd_ok _ _ _ (by omega), List.getD_eq_getElem?_getD, List.getElem?_eq_getElem hlm]
    rfl

end

section
variable (cfg : Config) (height seed datasetSize : U64) (lookup : Lookup) (l1 : List U32)

/-- `Hash` when its rounds leave the shape of the mix as it is -/
theorem hash_total (hp : cfg.periodLength ≠ 0)
    (hr : ∀ i mix, i < cfg.roundCount → Rows cfg mix → ∃ mix', hashRound cfg (height / cfg.periodLength) datasetSize lookup l1 i mix = .ok mix' ∧
      Rows cfg mix') : ∃ b, hash cfg height seed datasetSize lookup l1 = .ok b ∧ b.length = 32 := by
  obtain ⟨mix, e, hm⟩ := forRange_inv (f := hashRound cfg (height / cfg.periodLength) datasetSize lookup l1) (fun _ m => Rows cfg m) 0
    cfg.roundCount (Spec.Progpow.fillMix cfg.params seed.toNat) (Nat.zero_le _) (fillMix_rows cfg _) fun i m _ hi h => hr i m hi h
  obtain ⟨b, e2, hb⟩ := finish_total mix hm
  refine ⟨b, ?_, hb⟩
  unfold hash
  rw [initMix_ok, ok_bind, udiv, if_neg hp, ok_bind, e, ok_bind]
  exact e2

/-- `Hash` when its first round fails -/
theorem hash_fails (hp : cfg.periodLength ≠ 0) (hr0 : 0 < cfg.roundCount) (e : Stop)
    (hr : ∀ mix, Rows cfg mix → round cfg (height / cfg.periodLength) 0 mix datasetSize lookup l1 = .error e) :
    hash cfg height seed datasetSize lookup l1 = .error e := by
  unfold hash
  rw [initMix_ok, ok_bind, udiv, if_neg hp, ok_bind,
    forRange_err_at (f := hashRound cfg (height / cfg.periodLength) datasetSize lookup l1) (fun _ m => Rows cfg m) cfg.roundCount 0 hr0 _ e
      (fillMix_rows cfg _) (fun i m hi => absurd hi (by omega)) fun m hm => hr m hm]
  rfl

theorem hash_period (hp : cfg.periodLength = 0) : hash cfg height seed datasetSize lookup l1 = .error (.panic .divZero) := by
  unfold hash
  rw [initMix_ok, ok_bind, udiv, if_pos hp]
  rfl

variable (number : U64) (mix : List (List U32)) (h : Rows cfg mix)
include h

omit h in
theorem round_lanes (hL : cfg.laneCount = 0) : round cfg number 0 mix datasetSize lookup l1 = .error (.panic .divZero) := by
  obtain ⟨st, e1, _⟩ := initMixRngState_st number (BitVec.ofNat 32 cfg.registerCount)
  unfold round
  rw [e1, ok_bind, hL]
  rfl

variable (hL : cfg.laneCount < 2 ^ 32) (hL0 : 0 < cfg.laneCount)
include hL hL0

theorem round_regs (hR : cfg.registerCount = 0) : round cfg number 0 mix datasetSize lookup l1 = .error (.panic .index) := by
  have hlane : (BitVec.ofNat 32 cfg.laneCount).toNat = cfg.laneCount := by rw [BitVec.toNat_ofNat]; omega
  obtain ⟨st, e1, _⟩ := initMixRngState_st number (BitVec.ofNat 32 cfg.registerCount)
  have hq : ((0 : U32) % BitVec.ofNat 32 cfg.laneCount).toNat < mix.length := by
    rw [BitVec.toNat_umod, hlane, h.1]; exact Nat.mod_lt _ hL0
  have hrow := h.2 _ (List.getElem_mem hq)
  unfold round
  rw [e1, ok_bind]
  dsimp only
  rw [umod_ok _ _ (by rw [hlane]; omega), ok_bind, idx_ok _ _ hq, ok_bind, List.length_eq_zero_iff.1 (hrow.trans hR)]
  rfl

variable (hR : 0 < cfg.registerCount) (hR32 : cfg.registerCount < 2 ^ 32)
include hR hR32

theorem round_items (hn : numItems datasetSize = 0) : round cfg number 0 mix datasetSize lookup l1 = .error (.panic .divZero) := by
  have hlane : (BitVec.ofNat 32 cfg.laneCount).toNat = cfg.laneCount := by rw [BitVec.toNat_ofNat]; omega
  obtain ⟨st, e1, _⟩ := initMixRngState_st number (BitVec.ofNat 32 cfg.registerCount)
  have hq : ((0 : U32) % BitVec.ofNat 32 cfg.laneCount).toNat < mix.length := by
    rw [BitVec.toNat_umod, hlane, h.1]; exact Nat.mod_lt _ hL0
  have hrow := h.2 _ (List.getElem_mem hq)
  have hz : ((datasetSize / (2 * 128)).setWidth 32 : U32) = 0 := by
    apply BitVec.eq_of_toNat_eq
    rw [BitVec.toNat_setWidth, BitVec.toNat_udiv, show ((2 * 128 : U64)).toNat = 256 from rfl]
    exact hn
  unfold round
  rw [e1, ok_bind]
  dsimp only
  rw [umod_ok _ _ (by rw [hlane]; omega), ok_bind, idx_ok _ _ hq, ok_bind, idx_ok _ _ (by omega), ok_bind, umod, if_pos hz]
  rfl

/-- a round whose first operation fails -/
theorem round_op (hn : numItems datasetSize ≠ 0) (hlk : Answers lookup) (hops : 0 < max cfg.roundCacheAccesses cfg.roundMathOperations)
    (e : Stop) (hop : ∀ st, StOk cfg.registerCount st → opStep cfg l1 0 (st, mix) = .error e) :
    round cfg number 0 mix datasetSize lookup l1 = .error e := by
  have hlane : (BitVec.ofNat 32 cfg.laneCount).toNat = cfg.laneCount := by rw [BitVec.toNat_ofNat]; omega
  have hreg : (BitVec.ofNat 32 cfg.registerCount).toNat = cfg.registerCount := by rw [BitVec.toNat_ofNat]; omega
  have hnz : ((datasetSize / (2 * 128)).setWidth 32 : U32).toNat ≠ 0 := by
    rw [BitVec.toNat_setWidth, BitVec.toNat_udiv, show ((2 * 128 : U64)).toNat = 256 from rfl]
    exact hn
  obtain ⟨st, e1, hst⟩ := initMixRngState_st number (BitVec.ofNat 32 cfg.registerCount)
  rw [hreg] at hst
  have hq : ((0 : U32) % BitVec.ofNat 32 cfg.laneCount).toNat < mix.length := by
    rw [BitVec.toNat_umod, hlane, h.1]; exact Nat.mod_lt _ hL0
  have hrow := h.2 _ (List.getElem_mem hq)
  obtain ⟨item, e2, hi⟩ := hlk (mix[((0 : U32) % BitVec.ofNat 32 cfg.laneCount).toNat][0] % (datasetSize / (2 * 128)).setWidth 32)
  unfold round
  rw [e1, ok_bind]
  dsimp only
  rw [umod_ok _ _ (by rw [hlane]; omega), ok_bind, idx_ok _ _ hq, ok_bind, idx_ok _ _ (by omega), ok_bind, umod_ok _ _ hnz, ok_bind, e2, ok_bind,
    if_neg (by omega)]
  rw [forRange_err_at (f := opStep cfg l1) (fun _ s => s = (st, mix)) _ 0 hops _ e rfl (fun i m hi => absurd hi (by omega))
    fun m hm => by rw [hm]; exact hop st hst]
  rfl

omit hL hR32 in
theorem op_cache (hc0 : 0 < cfg.roundCacheAccesses) (hc : cfg.cacheBytes.toNat < 4) (st : MixRngState) (hst : StOk cfg.registerCount st) :
    opStep cfg l1 0 (st, mix) = .error (.panic .divZero) := by
  obtain ⟨src, st1, e1, hs, h1⟩ := nextSrc_st hst hR
  obtain ⟨dst, st2, e2, hd, h2⟩ := nextDst_st h1 hR
  have hz : cfg.cacheBytes / 4 = 0 := by
    apply BitVec.eq_of_toNat_eq
    rw [BitVec.toNat_udiv]
    show cfg.cacheBytes.toNat / 4 = 0
    omega
  have hlt : 0 < mix.length := by rw [h.1]; exact hL0
  have hrow := h.2 _ (List.getElem_mem hlt)
  rw [opStep, if_pos hc0]
  simp only [cacheOp]
  rw [e1, ok_bind]
  dsimp only
  rw [e2, ok_bind]
  dsimp only
  rw [forRange_err_at (f := cacheLane cfg l1 src dst st2.nextRng.1) (fun _ m => m = mix) _ 0 hL0 _ (.panic .divZero) rfl
    (fun i m hi => absurd hi (by omega)) fun m hm => by
      rw [hm, cacheLane, idx_ok _ _ hlt, ok_bind, idx_ok _ _ (by rw [hrow]; exact hs), ok_bind, umod, if_pos hz]
      rfl]
  rfl

omit hL hL0 hR hR32 in
theorem op_math (hm0 : 0 < cfg.roundMathOperations) (hR1 : cfg.registerCount = 1)
    (hl1 : cfg.cacheBytes.toNat / 4 ≤ l1.length) (hc : 0 < cfg.roundCacheAccesses → 4 ≤ cfg.cacheBytes.toNat)
    (st : MixRngState) (hst : StOk cfg.registerCount st) : opStep cfg l1 0 (st, mix) = .error (.panic .divZero) := by
  have hmath : ∀ s, mathOp cfg s = .error (.panic .divZero) := by
    rintro ⟨st, mix⟩
    simp only [mathOp]
    rw [hR1]
    rfl
  rw [opStep]
  by_cases hi : 0 < cfg.roundCacheAccesses
  · obtain ⟨s1, e1, _⟩ := cacheOp_total (by omega) l1 (hc hi) hl1 (st, mix) ⟨hst, h⟩
    rw [if_pos hi, e1, ok_bind]
    show (if 0 < cfg.roundMathOperations then _ else _) = _
    rw [if_pos hm0]
    exact hmath _
  · rw [if_neg hi]
    show (if 0 < cfg.roundMathOperations then _ else _) = _
    rw [if_pos hm0]
    exact hmath _

end

end Verif.Progpow
