import Verif.Proof.ProgpowSeq
import Verif.Proof.Convutil

/-! # The ProgPoW mix is the lane-parallel computation -/

set_option autoImplicit false

namespace Verif.Progpow

open Go Crypto
open Spec.Progpow (Gen Params Instr mergeReg exec load genCache genMath genStep genSteps genLoads nthSrc nthDst)

/-- the parameters of a configuration -/
def Config.params (cfg : Config) : Params :=
  { lanes := cfg.laneCount, regs := cfg.registerCount, cacheWords := cfg.cacheBytes.toNat / 4, rounds := cfg.roundCount,
    cntCache := cfg.roundCacheAccesses, cntMath := cfg.roundMathOperations }

/-- every lane has the right number of registers -/
def Rows (cfg : Config) (mix : List (List U32)) : Prop :=
  mix.length = cfg.laneCount ∧ ∀ row ∈ mix, row.length = cfg.registerCount

theorem mergeReg_length (lane : List U32) (d : Nat) (x : U32) (s : Nat) : (mergeReg lane d x s).length = lane.length := by
  simp [mergeReg]

theorem exec_length (p : Params) (l1 : Nat → U32) (lane : List U32) (i : Instr) : (exec p l1 lane i).length = lane.length := by
  cases i <;> simp [exec, mergeReg]

theorem foldl_exec_length (p : Params) (l1 : Nat → U32) (is : List Instr) (lane : List U32) :
    (is.foldl (exec p l1) lane).length = lane.length := by
  induction is generalizing lane with
  | nil => rfl
  | cons i is ih => rw [List.foldl_cons, ih, exec_length]

theorem load_length (ds : List (Nat × Nat)) (ws lane : List U32) : (load lane ds ws).length = lane.length := by
  induction ds generalizing lane ws with
  | nil => cases ws <;> rfl
  | cons d ds ih =>
    cases ws with
    | nil => rfl
    | cons w ws => rw [load, ih, mergeReg_length]

theorem Rows.map {cfg : Config} {mix : List (List U32)} (h : Rows cfg mix) (f : List U32 → List U32)
    (hf : ∀ r, (f r).length = r.length) : Rows cfg (mix.map f) := by
  refine ⟨by simpa using h.1, ?_⟩
  intro row hr
  obtain ⟨r, hr', rfl⟩ := List.mem_map.1 hr
  rw [hf, h.2 r hr']

theorem mergeAt_ok (mix : List (List U32)) (l : Nat) (row : List U32) (dst data sel : U32) (hl : mix[l]? = some row)
    (hd : dst.toNat < row.length) : mergeAt mix l dst data sel = .ok (mix.set l (mergeReg row dst.toNat data sel.toNat)) := by
  obtain ⟨h, e⟩ := List.getElem?_eq_some_iff.1 hl
  unfold mergeAt
  rw [idx_ok _ _ h]
  simp only [ok_bind, e]
  rw [idx_ok _ _ hd]
  simp only [ok_bind]
  rw [upd_ok _ _ _ hd]
  simp only [ok_bind]
  rw [upd_ok _ _ _ h, randomMerge_eq, mergeReg, List.getD_eq_getElem?_getD, List.getElem?_eq_getElem hd]
  rfl

/-- a loop over the lanes that replaces each row by a function of it -/
theorem lanes_ok {cfg : Config} {mix : List (List U32)} (hm : Rows cfg mix) {f : Nat → List (List U32) → Go (List (List U32))}
    (g : List U32 → List U32)
    (hf : ∀ l m row, m[l]? = some row → row.length = cfg.registerCount → f l m = .ok (m.set l (g row))) :
    forRange 0 cfg.laneCount mix f = .ok (mix.map g) := by
  rw [forRange_update (fun _ => g) cfg.laneCount mix (by rw [hm.1])]
  · refine congrArg Except.ok ?_
    apply List.ext_getElem (by simp)
    intro i h1 h2
    simp only [List.length_mapIdx] at h1
    rw [List.getElem_mapIdx, List.getElem_map, if_pos (by rw [← hm.1]; exact h1)]
  · intro i m x _ _ hx hl
    exact hf i m x hx (hm.2 x (List.mem_of_getElem? hl))

theorem cacheLane_ok (cfg : Config) (l1 : List U32) (src dst sel : U32) (hc : 4 ≤ cfg.cacheBytes.toNat)
    (hl1 : cfg.cacheBytes.toNat / 4 ≤ l1.length) (l : Nat) (m : List (List U32)) (row : List U32) (hrow : m[l]? = some row)
    (hs : src.toNat < row.length) (hd : dst.toNat < row.length) :
    cacheLane cfg l1 src dst sel l m =
      .ok (m.set l (exec cfg.params (fun i => l1.getD i 0) row (.cache src.toNat dst.toNat sel.toNat))) := by
  obtain ⟨h, e⟩ := List.getElem?_eq_some_iff.1 hrow
  have h4 : (cfg.cacheBytes / 4).toNat = cfg.cacheBytes.toNat / 4 := by rw [BitVec.toNat_udiv]; rfl
  unfold cacheLane
  rw [idx_ok _ _ h]
  simp only [ok_bind, e]
  rw [idx_ok _ _ hs]
  simp only [ok_bind]
  rw [umod_ok _ _ (by rw [h4]; omega)]
  simp only [ok_bind]
  have hlt : row[src.toNat].toNat % (cfg.cacheBytes.toNat / 4) < l1.length :=
    Nat.lt_of_lt_of_le (Nat.mod_lt _ (by omega)) hl1
  rw [BitVec.toNat_umod, h4, idx_ok _ _ hlt]
  simp only [ok_bind]
  rw [mergeAt_ok m l row _ _ _ hrow hd, exec]
  simp only [Config.params, List.getD_eq_getElem?_getD, List.getElem?_eq_getElem hs, Option.getD_some, List.getElem?_eq_getElem hlt]

theorem mathLane_ok (cfg : Config) (l1 : Nat → U32) (src1 src2 sel1 dst sel2 : U32) (l : Nat) (m : List (List U32)) (row : List U32)
    (hrow : m[l]? = some row) (h1 : src1.toNat < row.length) (h2 : src2.toNat < row.length) (hd : dst.toNat < row.length) :
    mathLane src1 src2 sel1 dst sel2 l m =
      .ok (m.set l (exec cfg.params l1 row (.math src1.toNat src2.toNat sel1.toNat dst.toNat sel2.toNat))) := by
  obtain ⟨h, e⟩ := List.getElem?_eq_some_iff.1 hrow
  unfold mathLane
  rw [idx_ok _ _ h]
  simp only [ok_bind, e]
  rw [idx_ok _ _ h1]
  simp only [ok_bind]
  rw [idx_ok _ _ h2]
  simp only [ok_bind]
  rw [mergeAt_ok m l row _ _ _ hrow hd, exec, randomMath_eq]
  simp only [List.getD_eq_getElem?_getD, List.getElem?_eq_getElem h1, List.getElem?_eq_getElem h2, Option.getD_some]

/-- what the proofs need of a configuration, for items of `w` words per lane -/
structure Config.Valid (cfg : Config) (w : Nat) : Prop where
  lanes : 1 ≤ cfg.laneCount
  item : cfg.laneCount * w < 2 ^ 32
  lanes' : cfg.laneCount < 2 ^ 32
  regs : 1 ≤ cfg.registerCount
  regs' : cfg.registerCount < 2 ^ 32
  math : 0 < cfg.roundMathOperations → 2 ≤ cfg.registerCount ∧ cfg.registerCount ≤ 2 ^ 16
  cache : 0 < cfg.roundCacheAccesses → 4 ≤ cfg.cacheBytes.toNat
  ops : 2 * max cfg.roundCacheAccesses cfg.roundMathOperations + w < 2 ^ 32
  rounds : cfg.roundCount ≤ 2 ^ 32
  period : cfg.periodLength.toNat ≠ 0

section
variable {cfg : Config} {w : Nat} {src dst : List Nat} {g : Gen} {st : MixRngState}

theorem nthSrc_lt (hR : 0 < cfg.registerCount) (hl : src.length = cfg.registerCount) (hs : ∀ x ∈ src, x < cfg.registerCount) (i : Nat) :
    nthSrc cfg.params src i < cfg.registerCount := by
  have : i % cfg.registerCount < src.length := by rw [hl]; exact Nat.mod_lt _ hR
  show src.getD (i % cfg.registerCount) 0 < _
  rw [List.getD_eq_getElem?_getD, List.getElem?_eq_getElem this]
  exact hs _ (List.getElem_mem _)

theorem nthDst_lt (hR : 0 < cfg.registerCount) (hl : dst.length = cfg.registerCount) (hs : ∀ x ∈ dst, x < cfg.registerCount) (i : Nat) :
    nthDst cfg.params dst i < cfg.registerCount := nthSrc_lt hR hl hs i

theorem cacheOp_ok (hv : cfg.Valid w) (ha : 0 < cfg.roundCacheAccesses) (l1 : List U32) (hl1 : cfg.cacheBytes.toNat / 4 ≤ l1.length)
    (hr : Rel cfg.registerCount src dst g st) (hs : ∀ x ∈ src, x < cfg.registerCount) (hd : ∀ x ∈ dst, x < cfg.registerCount)
    (h1 : g.srcs + 1 < 2 ^ 32) (h2 : g.dsts + 1 < 2 ^ 32) (mix : List (List U32)) (hm : Rows cfg mix) :
    ∃ st', cacheOp cfg l1 (st, mix) =
        .ok (st', mix.map fun lane => exec cfg.params (fun i => l1.getD i 0) lane (genCache cfg.params src dst g).1) ∧
      Rel cfg.registerCount src dst (genCache cfg.params src dst g).2 st' := by
  have hR : 0 < cfg.registerCount := by have := hv.regs; omega
  obtain ⟨vs, st1, e1, hvs, r1⟩ := nextSrc_ok hr hR h1
  obtain ⟨vd, st2, e2, hvd, r2⟩ := nextDst_ok r1 hR h2
  obtain ⟨e3, r3⟩ := nextRng_ok r2
  refine ⟨st2.nextRng.2, ?_, r3⟩
  unfold cacheOp
  simp only
  rw [e1]
  simp only [ok_bind]
  rw [e2]
  simp only [ok_bind]
  rw [lanes_ok hm (fun lane => exec cfg.params (fun i => l1.getD i 0) lane (genCache cfg.params src dst g).1)]
  · rfl
  · intro l m row hrow hlen
    have hs' := nthSrc_lt hR hr.lsrc hs g.srcs
    have hd' := nthDst_lt hR hr.ldst hd g.dsts
    have hvs' : vs.toNat = nthSrc cfg.params src g.srcs := hvs
    have hvd' : vd.toNat = nthDst cfg.params dst g.dsts := hvd
    rw [cacheLane_ok cfg l1 vs vd _ (hv.cache ha) hl1 l m row hrow (by omega) (by omega), hvs', hvd', e3]
    rfl

theorem mathOp_ok (hv : cfg.Valid w) (ha : 0 < cfg.roundMathOperations) (l1 : Nat → U32)
    (hr : Rel cfg.registerCount src dst g st) (hd : ∀ x ∈ dst, x < cfg.registerCount)
    (h2 : g.dsts + 1 < 2 ^ 32) (mix : List (List U32)) (hm : Rows cfg mix) :
    ∃ st', mathOp cfg (st, mix) = .ok (st', mix.map fun lane => exec cfg.params l1 lane (genMath cfg.params dst g).1) ∧
      Rel cfg.registerCount src dst (genMath cfg.params dst g).2 st' := by
  obtain ⟨hR2, hR3⟩ := hv.math ha
  have hR : 0 < cfg.registerCount := by omega
  obtain ⟨e1, r1⟩ := nextRng_ok hr
  obtain ⟨e2, r2⟩ := nextRng_ok r1
  obtain ⟨vd, st3, e3, hvd, r3⟩ := nextDst_ok r2 hR h2
  obtain ⟨e4, r4⟩ := nextRng_ok r3
  refine ⟨st3.nextRng.2, ?_, r4⟩
  obtain ⟨R, hRdef⟩ : ∃ R, R = cfg.registerCount := ⟨_, rfl⟩
  have hreg : (BitVec.ofNat 32 cfg.registerCount).toNat = R := by rw [BitVec.toNat_ofNat]; omega
  have hreg1 : (BitVec.ofInt 32 ((cfg.registerCount : Int) - 1)).toNat = R - 1 := by
    rw [show ((cfg.registerCount : Int) - 1) = ((R - 1 : Nat) : Int) by omega, BitVec.ofInt_natCast, BitVec.toNat_ofNat]; omega
  have hmul : R * (R - 1) < 2 ^ 32 := by
    have : R * (R - 1) ≤ 2 ^ 16 * (2 ^ 16 - 1) := Nat.mul_le_mul (by omega) (by omega)
    omega
  have hmulpos : 0 < R * (R - 1) := Nat.mul_pos (by omega) (by omega)
  have hprod : (BitVec.ofNat 32 cfg.registerCount * BitVec.ofInt 32 ((cfg.registerCount : Int) - 1)).toNat = R * (R - 1) := by
    rw [BitVec.toNat_mul, hreg, hreg1, Nat.mod_eq_of_lt hmul]
  obtain ⟨n, hn⟩ : ∃ n, n = g.kiss.step.out.toNat % (R * (R - 1)) := ⟨_, rfl⟩
  have hnlt : n < R * (R - 1) := by rw [hn]; exact Nat.mod_lt _ hmulpos
  have hmod : n % R < R := Nat.mod_lt _ (by omega)
  have hdiv : n / R < R - 1 := Nat.div_lt_of_lt_mul hnlt
  unfold mathOp
  simp only
  rw [e1, umod_ok _ _ (by rw [hprod]; omega)]
  simp only [ok_bind]
  obtain ⟨sr, hsr⟩ : ∃ sr, sr = g.kiss.step.out % (BitVec.ofNat 32 cfg.registerCount * BitVec.ofInt 32 ((cfg.registerCount : Int) - 1)) :=
    ⟨_, rfl⟩
  have hsr' : sr.toNat = n := by rw [hsr, BitVec.toNat_umod, hprod, hn]
  rw [← hsr, umod_ok _ _ (by rw [hreg]; omega)]
  simp only [ok_bind]
  rw [udiv_ok _ _ (by rw [hreg]; omega)]
  simp only [ok_bind]
  rw [e3]
  simp only [ok_bind]
  rw [e2]
  have hs1 : (sr % BitVec.ofNat 32 cfg.registerCount).toNat = n % R := by rw [BitVec.toNat_umod, hreg, hsr']
  have hs2 : (sr / BitVec.ofNat 32 cfg.registerCount).toNat = n / R := by rw [BitVec.toNat_udiv, hreg, hsr']
  have hs3 : (if sr / BitVec.ofNat 32 cfg.registerCount ≥ sr % BitVec.ofNat 32 cfg.registerCount then
      sr / BitVec.ofNat 32 cfg.registerCount + 1 else sr / BitVec.ofNat 32 cfg.registerCount).toNat =
      if n % R ≤ n / R then n / R + 1 else n / R := by
    by_cases hle : n % R ≤ n / R
    · rw [if_pos hle, if_pos (BitVec.le_def.2 (by omega)), BitVec.toNat_add, hs2, show (1 : U32).toNat = 1 from rfl]; omega
    · rw [if_neg hle, if_neg (fun e => hle (by have := BitVec.le_def.1 e; omega)), hs2]
  rw [lanes_ok hm (fun lane => exec cfg.params l1 lane (genMath cfg.params dst g).1)]
  · rfl
  · intro l m row hrow hlen
    have hd' := nthDst_lt hR hr.ldst hd g.dsts
    have hvd' : vd.toNat = nthDst cfg.params dst g.dsts := hvd
    have hlt2 : (if n % R ≤ n / R then n / R + 1 else n / R) < R := by
      by_cases hle : n % R ≤ n / R
      · rw [if_pos hle]; omega
      · rw [if_neg hle]; omega
    rw [mathLane_ok cfg l1 _ _ _ vd _ l m row hrow (by omega) (by rw [hs3]; omega) (by omega), hs1, hs3, hvd', e4]
    subst hRdef
    rw [hn]
    rfl

theorem opStep_ok (hv : cfg.Valid w) (l1 : List U32) (hl1 : cfg.cacheBytes.toNat / 4 ≤ l1.length) (i : Nat)
    (hr : Rel cfg.registerCount src dst g st) (hs : ∀ x ∈ src, x < cfg.registerCount) (hd : ∀ x ∈ dst, x < cfg.registerCount)
    (h1 : g.srcs + 1 < 2 ^ 32) (h2 : g.dsts + 2 < 2 ^ 32) (mix : List (List U32)) (hm : Rows cfg mix) :
    ∃ st', opStep cfg l1 i (st, mix) =
        .ok (st', mix.map fun lane => (genStep cfg.params src dst i g).1.foldl (exec cfg.params (fun i => l1.getD i 0)) lane) ∧
      Rel cfg.registerCount src dst (genStep cfg.params src dst i g).2 st' ∧
      (genStep cfg.params src dst i g).2.srcs ≤ g.srcs + 1 ∧ (genStep cfg.params src dst i g).2.dsts ≤ g.dsts + 2 := by
  have hm1 := hm.map (fun lane => exec cfg.params (fun i => l1.getD i 0) lane (genCache cfg.params src dst g).1)
    (fun r => exec_length _ _ _ _)
  unfold opStep
  by_cases a : i < cfg.roundCacheAccesses <;> by_cases b : i < cfg.roundMathOperations
  · have hg : genStep cfg.params src dst i g = ([(genCache cfg.params src dst g).1] ++
        [(genMath cfg.params dst (genCache cfg.params src dst g).2).1], (genMath cfg.params dst (genCache cfg.params src dst g).2).2) := by
      unfold genStep
      rw [if_pos (show i < cfg.params.cntCache from a)]
      simp only
      rw [if_pos (show i < cfg.params.cntMath from b)]
    obtain ⟨st1, ec, hc⟩ := cacheOp_ok hv (by omega) l1 hl1 hr hs hd h1 (by omega) mix hm
    obtain ⟨st3, em', hmm'⟩ := mathOp_ok hv (by omega) (fun i => l1.getD i 0) hc hd (show g.dsts + 1 + 1 < 2 ^ 32 by omega) _ hm1
    rw [if_pos a, ec]
    simp only [ok_bind]
    rw [if_pos b, em', hg, List.map_map]
    exact ⟨st3, rfl, hmm', Nat.le_refl _, Nat.le_refl _⟩
  · have hg : genStep cfg.params src dst i g = ([(genCache cfg.params src dst g).1] ++ [], (genCache cfg.params src dst g).2) := by
      unfold genStep
      rw [if_pos (show i < cfg.params.cntCache from a)]
      simp only
      rw [if_neg (show ¬ i < cfg.params.cntMath from b)]
    obtain ⟨st1, ec, hc⟩ := cacheOp_ok hv (by omega) l1 hl1 hr hs hd h1 (by omega) mix hm
    rw [if_pos a, ec]
    simp only [ok_bind]
    rw [if_neg b, hg]
    exact ⟨st1, rfl, hc, Nat.le_refl _, Nat.le_succ _⟩
  · have hg : genStep cfg.params src dst i g = ([] ++ [(genMath cfg.params dst g).1], (genMath cfg.params dst g).2) := by
      unfold genStep
      rw [if_neg (show ¬ i < cfg.params.cntCache from a)]
      simp only
      rw [if_pos (show i < cfg.params.cntMath from b)]
    obtain ⟨st2, em, hmm⟩ := mathOp_ok hv (by omega) (fun i => l1.getD i 0) hr hd (by omega) mix hm
    rw [if_neg a]
    simp only [pure_eq_ok, ok_bind]
    rw [if_pos b, em, hg]
    exact ⟨st2, rfl, hmm, Nat.le_succ _, Nat.le_succ _⟩
  · have hg : genStep cfg.params src dst i g = ([] ++ [], g) := by
      unfold genStep
      rw [if_neg (show ¬ i < cfg.params.cntCache from a)]
      simp only
      rw [if_neg (show ¬ i < cfg.params.cntMath from b)]
    rw [if_neg a]
    simp only [pure_eq_ok, ok_bind]
    rw [if_neg b, hg]
    refine ⟨st, ?_, hr, by simp, by simp⟩
    simp

theorem ops_ok (hv : cfg.Valid w) (l1 : List U32) (hl1 : cfg.cacheBytes.toNat / 4 ≤ l1.length)
    (hs : ∀ x ∈ src, x < cfg.registerCount) (hd : ∀ x ∈ dst, x < cfg.registerCount) :
    ∀ (n i : Nat) (g : Gen) (st : MixRngState) (mix : List (List U32)), Rel cfg.registerCount src dst g st → Rows cfg mix →
      g.srcs + n < 2 ^ 32 → g.dsts + 2 * n < 2 ^ 32 →
      ∃ st', loop n i (st, mix) (opStep cfg l1) =
          .ok (st', mix.map fun lane => (genSteps cfg.params src dst n i g).1.foldl (exec cfg.params (fun i => l1.getD i 0)) lane) ∧
        Rel cfg.registerCount src dst (genSteps cfg.params src dst n i g).2 st' ∧
        (genSteps cfg.params src dst n i g).2.dsts ≤ g.dsts + 2 * n
  | 0, i, g, st, mix, hr, hm, _, _ => by
    refine ⟨st, ?_, hr, Nat.le_add_right _ _⟩
    simp [loop, genSteps]
  | n + 1, i, g, st, mix, hr, hm, h1, h2 => by
    obtain ⟨st1, e1, r1, b1, b2⟩ := opStep_ok hv l1 hl1 i hr hs hd (by omega) (by omega) mix hm
    obtain ⟨st2, e2, r2, b3⟩ := ops_ok hv l1 hl1 hs hd n (i + 1) _ st1 _ r1
      (hm.map (fun lane => (genStep cfg.params src dst i g).1.foldl (exec cfg.params (fun i => l1.getD i 0)) lane)
        (fun r => foldl_exec_length _ _ _ _)) (by omega) (by omega)
    refine ⟨st2, ?_, r2, ?_⟩
    · rw [loop, e1]
      simp only [ok_bind]
      rw [e2, List.map_map]
      refine congrArg Except.ok (congrArg _ ?_)
      apply List.map_congr_left
      intro a _
      show _ = List.foldl _ a ((genStep cfg.params src dst i g).1 ++ _)
      rw [List.foldl_append]
      rfl
    · show (genSteps cfg.params src dst n (i + 1) (genStep cfg.params src dst i g).2).2.dsts ≤ _
      omega

/-- the draws for the dataset words -/
theorem draws_ok (hv : cfg.Valid w) (hd : ∀ x ∈ dst, x < cfg.registerCount) (hr : Rel cfg.registerCount src dst g st)
    (hb : g.dsts + w < 2 ^ 32) :
    ∃ st' dsts sels, forRange 0 w (st, List.replicate w 0, List.replicate w 0) dagDraw = .ok (st', dsts, sels) ∧
      dsts.length = w ∧ sels.length = w ∧ (∀ d ∈ dsts, d.toNat < cfg.registerCount) ∧
      List.zip (dsts.map (·.toNat)) (sels.map (·.toNat)) = genLoads cfg.params dst w 0 g := by
  have hR : 0 < cfg.registerCount := by have := hv.regs; omega
  obtain ⟨⟨st', dsts, sels⟩, e, g', ⟨h1, h2, h3, h4, h5, h6⟩⟩ := forRange_inv (f := dagDraw)
    (fun i s => ∃ g', Rel cfg.registerCount src dst g' s.1 ∧ g'.dsts ≤ g.dsts + i ∧ s.2.1.length = w ∧ s.2.2.length = w ∧
      (∀ d ∈ s.2.1, d.toNat < cfg.registerCount) ∧
      (List.zip (s.2.1.map (·.toNat)) (s.2.2.map (·.toNat))).take i ++ genLoads cfg.params dst (w - i) i g' =
        genLoads cfg.params dst w 0 g) 0 w (st, List.replicate w 0, List.replicate w 0) (by omega)
    ⟨g, hr, Nat.le_refl _, by simp, by simp, (fun d hd => by rw [List.eq_of_mem_replicate hd]; exact hR), by simp⟩ (by
      rintro i ⟨s, ds, ss⟩ _ hi ⟨g', r, b, l1, l2, hall, hz⟩
      simp only at r b l1 l2 hall hz
      obtain ⟨m, hm⟩ : ∃ m, w - i = m + 1 := ⟨w - i - 1, by omega⟩
      have hzlen : (List.zip (ds.map (·.toNat)) (ss.map (·.toNat))).length = w := by simp [l1, l2]
      have step : ∀ (v : U32) (s1 : MixRngState) (g1 : Gen), Rel cfg.registerCount src dst g1 s1 → g1.dsts ≤ g'.dsts + 1 →
          v.toNat < cfg.registerCount →
          genLoads cfg.params dst (m + 1) i g' =
            (v.toNat, g1.kiss.step.out.toNat) :: genLoads cfg.params dst m (i + 1) ⟨g1.kiss.step, g1.srcs, g1.dsts⟩ →
          dagDst i s = .ok (v, s1) →
          ∃ s', dagDraw i (s, ds, ss) = .ok s' ∧ ∃ g', Rel cfg.registerCount src dst g' s'.1 ∧ g'.dsts ≤ g.dsts + (i + 1) ∧
            s'.2.1.length = w ∧ s'.2.2.length = w ∧ (∀ d ∈ s'.2.1, d.toNat < cfg.registerCount) ∧
            (List.zip (s'.2.1.map (·.toNat)) (s'.2.2.map (·.toNat))).take (i + 1) ++ genLoads cfg.params dst (w - (i + 1)) (i + 1) g' =
              genLoads cfg.params dst w 0 g := by
        intro v s1 g1 r1 b1 hv' hg hstep
        obtain ⟨e3, r3⟩ := nextRng_ok r1
        refine ⟨(s1.nextRng.2, ds.set i v, ss.set i g1.kiss.step.out), ?_, ⟨g1.kiss.step, g1.srcs, g1.dsts⟩, r3, ?_, ?_, ?_, ?_, ?_⟩
        · unfold dagDraw
          simp only
          rw [hstep]
          simp only [ok_bind]
          rw [upd_ok _ _ _ (by omega)]
          simp only [ok_bind]
          rw [e3, upd_ok _ _ _ (by omega)]
          rfl
        · show g1.dsts ≤ _
          omega
        · simpa using l1
        · simpa using l2
        · intro d hd'
          rcases List.mem_or_eq_of_mem_set hd' with h | h
          · exact hall d h
          · rw [h]; exact hv'
        · simp only
          rw [← hz, hm, hg, show w - (i + 1) = m by omega]
          have hset : List.zip ((ds.set i v).map (·.toNat)) ((ss.set i g1.kiss.step.out).map (·.toNat)) =
              (List.zip (ds.map (·.toNat)) (ss.map (·.toNat))).set i (v.toNat, g1.kiss.step.out.toNat) := by
            rw [List.map_set, List.map_set]
            apply List.ext_getElem (by simp)
            intro k hk1 hk2
            rw [List.getElem_zip, List.getElem_set, List.getElem_set, List.getElem_set, List.getElem_zip]
            by_cases hk : i = k
            · rw [if_pos hk, if_pos hk, if_pos hk]
            · rw [if_neg hk, if_neg hk, if_neg hk]
          rw [hset, List.take_succ_eq_append_getElem (by rw [List.length_set, hzlen]; exact hi), List.getElem_set_self,
            List.take_set_of_le (Nat.le_refl i), List.append_assoc]
          rfl
      by_cases h0 : i = 0
      · subst h0
        exact step 0 s g' r (Nat.le_succ _) hR (by rw [genLoads]; rfl) rfl
      · obtain ⟨j, rfl⟩ : ∃ j, i = j + 1 := ⟨i - 1, by omega⟩
        obtain ⟨vd, s1, e1, hvd, r1⟩ := nextDst_ok r hR (by omega)
        have hvd' : vd.toNat = nthDst cfg.params dst g'.dsts := hvd
        refine step vd s1 _ r1 (Nat.le_refl _) ?_ ?_ (by rw [dagDst, if_neg h0, e1])
        · rw [hvd']; exact nthDst_lt hR r.ldst hd _
        · rw [genLoads, hvd'])
  refine ⟨st', dsts, sels, e, h3, h4, h5, ?_⟩
  simp only at h6 h3 h4
  rw [Nat.sub_self, genLoads, List.append_nil, List.take_of_length_le (by simp [h3, h4])] at h6
  exact h6

theorem load_step (row : List U32) (ds : List (Nat × Nat)) (ws : List U32) (i : Nat) (h1 : i < ds.length) (h2 : i < ws.length) :
    load row (ds.drop i) (ws.drop i) = load (mergeReg row ds[i].1 ws[i] ds[i].2) (ds.drop (i + 1)) (ws.drop (i + 1)) := by
  rw [List.drop_eq_getElem_cons h1, List.drop_eq_getElem_cons h2, load]

theorem dagLane_ok (hv : cfg.Valid w) (r : Nat) (hr : r < 2 ^ 32) (item dsts sels : List U32) (hitem : cfg.laneCount * w ≤ item.length)
    (h1 : dsts.length = w) (h2 : sels.length = w) (h3 : ∀ d ∈ dsts, d.toNat < cfg.registerCount) (l : Nat) (hl : l < cfg.laneCount)
    (m : List (List U32)) (row : List U32) (hrow : m[l]? = some row) (hlen : row.length = cfg.registerCount) :
    dagLane cfg (BitVec.ofNat 32 r) w item dsts sels l m =
      .ok (m.set l (load row (List.zip (dsts.map (·.toNat)) (sels.map (·.toNat)))
        ((item.drop ((l ^^^ r) % cfg.laneCount * w)).take w))) := by
  have hln := hv.lanes
  have hln' := hv.lanes'
  have hit := hv.item
  obtain ⟨ds, hds⟩ : ∃ ds, ds = List.zip (dsts.map (·.toNat)) (sels.map (·.toNat)) := ⟨_, rfl⟩
  obtain ⟨q, hq⟩ : ∃ q, q = (l ^^^ r) % cfg.laneCount := ⟨_, rfl⟩
  have hqlt : q < cfg.laneCount := by rw [hq]; exact Nat.mod_lt _ (by omega)
  have hqw : (q + 1) * w ≤ cfg.laneCount * w := Nat.mul_le_mul_right _ hqlt
  rw [Nat.add_mul, Nat.one_mul] at hqw
  obtain ⟨ws, hws⟩ : ∃ ws, ws = (item.drop (q * w)).take w := ⟨_, rfl⟩
  have hwl : ws.length = w := by rw [hws]; simp; omega
  have hdl : ds.length = w := by rw [hds]; simp [h1, h2]
  have hxor : (BitVec.ofNat 32 l ^^^ BitVec.ofNat 32 r) % BitVec.ofNat 32 cfg.laneCount = BitVec.ofNat 32 q := by
    apply BitVec.eq_of_toNat_eq
    rw [BitVec.toNat_umod, BitVec.toNat_xor, BitVec.toNat_ofNat, BitVec.toNat_ofNat, BitVec.toNat_ofNat, BitVec.toNat_ofNat,
      Nat.mod_eq_of_lt (show l < 2 ^ 32 by omega), Nat.mod_eq_of_lt hr, Nat.mod_eq_of_lt hln', Nat.mod_eq_of_lt (show q < 2 ^ 32 by omega), hq]
  unfold dagLane
  rw [umod_ok _ _ (by rw [BitVec.toNat_ofNat]; omega)]
  simp only [ok_bind]
  rw [hxor, ← hds, ← hq, ← hws]
  obtain ⟨hlm, _⟩ := List.getElem?_eq_some_iff.1 hrow
  obtain ⟨m', e, row', hm', hrl, hld⟩ := forRange_inv (f := dagWord item dsts sels (BitVec.ofNat 32 q * BitVec.ofNat 32 w) l)
    (fun i m' => ∃ row', m' = m.set l row' ∧ row'.length = cfg.registerCount ∧ load row' (ds.drop i) (ws.drop i) = load row ds ws)
    0 w m (by omega)
    ⟨row, by rw [← (List.getElem?_eq_some_iff.1 hrow).2]; exact (List.set_getElem_self hlm).symm, hlen, by simp⟩ (by
      rintro i m' _ hi ⟨row', rfl, hrl, hld⟩
      have hoff : (BitVec.ofNat 32 q * BitVec.ofNat 32 w + BitVec.ofNat 32 i).toNat = q * w + i := by
        rw [BitVec.toNat_add, BitVec.toNat_mul, BitVec.toNat_ofNat, BitVec.toNat_ofNat, BitVec.toNat_ofNat]
        have h5 : w ≤ cfg.laneCount * w := Nat.le_mul_of_pos_left w hln
        rw [Nat.mod_eq_of_lt (show q < 2 ^ 32 by omega), Nat.mod_eq_of_lt (show w < 2 ^ 32 by omega),
          Nat.mod_eq_of_lt (show i < 2 ^ 32 by omega), Nat.mod_eq_of_lt (show q * w < 2 ^ 32 by omega),
          Nat.mod_eq_of_lt (show q * w + i < 2 ^ 32 by omega)]
      have hd : (dsts[i]'(by omega)).toNat < row'.length := by rw [hrl]; exact h3 _ (List.getElem_mem _)
      refine ⟨m.set l (mergeReg row' ds[i].1 ws[i] ds[i].2), ?_, _, rfl, ?_, ?_⟩
      · unfold dagWord
        rw [hoff, idx_ok _ _ (by omega)]
        simp only [ok_bind]
        rw [idx_ok _ _ (by omega)]
        simp only [ok_bind]
        rw [idx_ok _ _ (by omega)]
        simp only [ok_bind]
        rw [mergeAt_ok _ l row' _ _ _ (List.getElem?_set_self hlm) hd, List.set_set]
        have hw1 : ws[i] = item[q * w + i]'(by omega) := by simp [hws]
        have hd1 : ds[i] = ((dsts[i]'(by omega)).toNat, (sels[i]'(by omega)).toNat) := by simp [hds]
        rw [hw1, hd1]
      · rw [mergeReg_length, hrl]
      · rw [← hld, load_step row' ds ws i (by omega) (by omega)])
  rw [e, hm']
  rw [List.drop_of_length_le (by omega), List.drop_of_length_le (by omega)] at hld
  rw [← hld]
  rfl

end

end Verif.Progpow
