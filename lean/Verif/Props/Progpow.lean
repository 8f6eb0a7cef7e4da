import Verif.Proof.Kawpow

/-! # ProgPoW, KAWPOW and FiroPoW: properties C25 to C30 and C63 -/

set_option autoImplicit false

namespace Verif.Props

open Go Progpow

/-! ## C25: the Keccak frames -/

/-- **C25** The seed state of KAWPOW is Keccak-f[800] of the eight words of the hash, the nonce and the text "rAVENCOINKAWPOW"; the seed of the
mix is its first two words; the digest is the first eight words of Keccak-f[800] of eight words of the seed state, the mix and "rAVENCOIN". -/
theorem C25_kawpow (hash : List Byte) (hh : hash.length = 32) (nonce : U64) (s m : List U32) (hs : s.length = 25) (hm : m.length = 8) :
    (∃ head : U64, kawpowInitialize hash nonce = .ok (Spec.Keccak.f800 (Spec.Progpow.absorbSeed hash nonce.toNat Spec.Progpow.kawpow.pad1), head) ∧
      head.toNat = ((Spec.Keccak.f800 (Spec.Progpow.absorbSeed hash nonce.toNat Spec.Progpow.kawpow.pad1)).getD 0 0).toNat +
        2 ^ 32 * ((Spec.Keccak.f800 (Spec.Progpow.absorbSeed hash nonce.toNat Spec.Progpow.kawpow.pad1)).getD 1 0).toNat) ∧
    kawpowFinalize s (Spec.Ethash.bytes m) =
      .ok (Spec.Ethash.bytes ((Spec.Keccak.f800 (Spec.Progpow.absorbFinal s m Spec.Progpow.kawpow.pad2)).take 8)) := by
  refine ⟨⟨_, kawpowInitialize_ok hash (by omega) nonce, seedOf_head hash nonce _⟩, ?_⟩
  rw [Dag.bytes_eq]
  exact kawpowFinalize_ok s m hs hm

/-- **C25** the same for FiroPoW, with its padding words -/
theorem C25_firopow (hash : List Byte) (hh : hash.length = 32) (nonce : U64) (s m : List U32) (hs : s.length = 25) (hm : m.length = 8) :
    (∃ head : U64, firopowInitialize hash nonce = .ok (Spec.Keccak.f800 (Spec.Progpow.absorbSeed hash nonce.toNat Spec.Progpow.firopow.pad1), head) ∧
      head.toNat = ((Spec.Keccak.f800 (Spec.Progpow.absorbSeed hash nonce.toNat Spec.Progpow.firopow.pad1)).getD 0 0).toNat +
        2 ^ 32 * ((Spec.Keccak.f800 (Spec.Progpow.absorbSeed hash nonce.toNat Spec.Progpow.firopow.pad1)).getD 1 0).toNat) ∧
    firopowFinalize s (Spec.Ethash.bytes m) =
      .ok (Spec.Ethash.bytes ((Spec.Keccak.f800 (Spec.Progpow.absorbFinal s m Spec.Progpow.firopow.pad2)).take 8)) := by
  refine ⟨⟨_, firopowInitialize_ok hash (by omega) nonce, seedOf_head hash nonce _⟩, ?_⟩
  rw [Dag.bytes_eq]
  exact firopowFinalize_ok s m hs hm

/-- **C25** the same for ProgPoW 0.9.4, whose padding is zero -/
theorem C25_progpow094 (hash : List Byte) (hh : hash.length = 32) (nonce : U64) (s m : List U32) (hs : s.length = 25) (hm : m.length = 8) :
    (∃ head : U64, progpow094Initialize hash nonce =
        .ok (Spec.Keccak.f800 (Spec.Progpow.absorbSeed hash nonce.toNat Spec.Progpow.progpow094.pad1), head) ∧
      head.toNat = ((Spec.Keccak.f800 (Spec.Progpow.absorbSeed hash nonce.toNat Spec.Progpow.progpow094.pad1)).getD 0 0).toNat +
        2 ^ 32 * ((Spec.Keccak.f800 (Spec.Progpow.absorbSeed hash nonce.toNat Spec.Progpow.progpow094.pad1)).getD 1 0).toNat) ∧
    progpow094Finalize s (Spec.Ethash.bytes m) =
      .ok (Spec.Ethash.bytes ((Spec.Keccak.f800 (Spec.Progpow.absorbFinal s m Spec.Progpow.progpow094.pad2)).take 8)) := by
  refine ⟨⟨_, progpow094Initialize_ok hash (by omega) nonce, seedOf_head hash nonce _⟩, ?_⟩
  rw [Dag.bytes_eq]
  exact progpow094Finalize_ok s m hs hm

/-- the frames have 25 words, the size of the state -/
example (hash : List Byte) (nonce : Nat) : (Spec.Progpow.absorbSeed hash nonce Spec.Progpow.kawpow.pad1).length = 25 ∧
    (Spec.Progpow.absorbSeed hash nonce Spec.Progpow.firopow.pad1).length = 25 ∧
    (Spec.Progpow.absorbSeed hash nonce Spec.Progpow.progpow094.pad1).length = 25 := by
  rw [kawpow_pad1]
  refine ⟨?_, ?_, ?_⟩ <;> simp [Spec.Progpow.absorbSeed, ravencoinKawpow, Spec.Progpow.firopow, Spec.Progpow.progpow094]

/-! ## C63: the mix is the published lane-parallel computation -/

/-- a lookup that answers every index below the number of items with a row of the given dataset -/
def serves (lookup : Lookup) (datasetSize : U64) (len : Nat) (dag : Nat → List U32) : Prop :=
  ∀ i : U32, i.toNat < datasetSize.toNat / 256 → lookup i = .ok (dag i.toNat) ∧ (dag i.toNat).length = len

theorem serves_of {lookup : Lookup} {datasetSize : U64} {len : Nat} {dag : Nat → List U32} (h : serves lookup datasetSize len dag)
    (h2 : datasetSize.toNat < 2 ^ 40) : numItems datasetSize = datasetSize.toNat / 256 ∧ Serves lookup (numItems datasetSize) len dag := by
  have e : numItems datasetSize = datasetSize.toNat / 256 := Nat.mod_eq_of_lt (by omega)
  refine ⟨e, ?_⟩
  intro i hi
  rw [e] at hi
  have : (BitVec.ofNat 32 i).toNat = i := by rw [BitVec.toNat_ofNat]; omega
  have := h (BitVec.ofNat 32 i) (by omega)
  rwa [show (BitVec.ofNat 32 i).toNat = i by rw [BitVec.toNat_ofNat]; omega] at this

/-- **C63** For every configuration within the size limits of the code, every height, seed, dataset and L1 cache, `Hash` returns the mix
hash of the published lane-parallel computation for the period of the height. -/
theorem C63_hash (cfg : Config) (w : Nat) (hv : cfg.Valid w) (height seed datasetSize : U64) (h1 : 256 ≤ datasetSize.toNat)
    (h2 : datasetSize.toNat < 2 ^ 40) (lookup : Lookup) (dag : Nat → List U32) (hlk : serves lookup datasetSize (cfg.laneCount * w) dag)
    (l1 : List U32) (hl1 : cfg.cacheBytes.toNat / 4 ≤ l1.length) :
    Progpow.hash cfg height seed datasetSize lookup l1 =
      .ok (Spec.Ethash.bytes (Spec.Progpow.mixHash
        { lanes := cfg.laneCount, regs := cfg.registerCount, cacheWords := cfg.cacheBytes.toNat / 4, rounds := cfg.roundCount,
          cntCache := cfg.roundCacheAccesses, cntMath := cfg.roundMathOperations }
        (height.toNat / cfg.periodLength.toNat) w (datasetSize.toNat / 256) dag (fun i => l1.getD i 0) seed.toNat)) := by
  obtain ⟨e, hs⟩ := serves_of hlk h2
  rw [hash_ok hv height seed datasetSize (by omega) lookup dag hs l1 hl1, Dag.bytes_eq, e]
  rfl

section
variable (hash : List Byte) (hh : hash.length = 32) (height nonce datasetSize : U64) (h1 : 256 ≤ datasetSize.toNat)
  (h2 : datasetSize.toNat < 2 ^ 40) (lookup : Lookup) (dag : Nat → List U32) (hlk : serves lookup datasetSize 64 dag) (l1 : List U32)
  (hl1 : l1.length = 4096)
include hh h1 h2 hlk hl1

/-- **C63** KAWPOW: period 3, the published parameters -/
theorem C63_kawpow : kawpow hash height nonce datasetSize lookup l1 =
    .ok (Spec.Progpow.full Spec.Progpow.kawpow hash height.toNat nonce.toNat (datasetSize.toNat / 256) dag fun i => l1.getD i 0) := by
  obtain ⟨e, hs⟩ := serves_of hlk h2
  rw [kawpow_ok hash (by omega) height nonce datasetSize (by omega) lookup dag hs l1 (by omega), e]

/-- **C63** FiroPoW: period 1 -/
theorem C63_firopow : firopow hash height nonce datasetSize lookup l1 =
    .ok (Spec.Progpow.full Spec.Progpow.firopow hash height.toNat nonce.toNat (datasetSize.toNat / 256) dag fun i => l1.getD i 0) := by
  obtain ⟨e, hs⟩ := serves_of hlk h2
  rw [firopow_ok hash (by omega) height nonce datasetSize (by omega) lookup dag hs l1 (by omega), e]

/-- **C63** ProgPoW 0.9.4: period 10 -/
theorem C63_progpow094 : progpow094 hash height nonce datasetSize lookup l1 =
    .ok (Spec.Progpow.full Spec.Progpow.progpow094 hash height.toNat nonce.toNat (datasetSize.toNat / 256) dag fun i => l1.getD i 0) := by
  obtain ⟨e, hs⟩ := serves_of hlk h2
  rw [progpow094_ok hash (by omega) height nonce datasetSize (by omega) lookup dag hs l1 (by omega), e]

end

/-- a lookup over a dataset of 2048-bit items, and a dataset size, that meet the hypotheses -/
example : serves (fun i => .ok ((List.range 64).map fun j => BitVec.ofNat 32 (64 * i.toNat + j))) 1073739904 64
    (fun i => (List.range 64).map fun j => BitVec.ofNat 32 (64 * i + j)) ∧ 256 ≤ (1073739904 : U64).toNat ∧
    (1073739904 : U64).toNat < 2 ^ 40 := ⟨fun _ _ => ⟨rfl, by simp⟩, by decide, by decide⟩

/-! ## C26: no panic -/

/-- **C26** With the shipped parameters the mix is total and has 32 bytes. The lookup is unconstrained outside the dataset (it may panic
there), so no index at or above `datasetSize / 256` is ever requested. -/
theorem C26_total (cfg : Config) (hc : cfg = kawpowCfg ∨ cfg = firopowCfg ∨ cfg = progpow094Cfg) (height seed datasetSize : U64)
    (h1 : 256 ≤ datasetSize.toNat) (h2 : datasetSize.toNat < 2 ^ 40) (lookup : Lookup) (dag : Nat → List U32)
    (hlk : serves lookup datasetSize 64 dag) (l1 : List U32) (hl1 : l1.length = 4096) :
    ∃ r, Progpow.hash cfg height seed datasetSize lookup l1 = .ok r ∧ r.length = 32 := by
  have key : ∀ cfg : Config, cfg.Valid 4 → cfg.laneCount * 4 = 64 → cfg.cacheBytes.toNat / 4 = 4096 →
      ∃ r, Progpow.hash cfg height seed datasetSize lookup l1 = .ok r ∧ r.length = 32 := by
    intro cfg hv h16 hcb
    refine ⟨_, C63_hash cfg 4 hv height seed datasetSize h1 h2 lookup dag (by rw [h16]; exact hlk) l1 (by omega), ?_⟩
    rw [Dag.bytes_eq, bytesLE_length, mixHash_length]
  rcases hc with rfl | rfl | rfl
  · exact key _ kawpowCfg_valid rfl rfl
  · exact key _ firopowCfg_valid rfl rfl
  · exact key _ progpow094Cfg_valid rfl rfl

/-- **C26** the answers of the lookup outside the dataset do not matter -/
theorem C26_in_range (cfg : Config) (hc : cfg = kawpowCfg ∨ cfg = firopowCfg ∨ cfg = progpow094Cfg) (height seed datasetSize : U64)
    (h1 : 256 ≤ datasetSize.toNat) (h2 : datasetSize.toNat < 2 ^ 40) (lookup lookup' : Lookup) (dag : Nat → List U32)
    (hlk : serves lookup datasetSize 64 dag) (hlk' : serves lookup' datasetSize 64 dag) (l1 : List U32) (hl1 : l1.length = 4096) :
    Progpow.hash cfg height seed datasetSize lookup l1 = Progpow.hash cfg height seed datasetSize lookup' l1 := by
  have key : ∀ cfg : Config, cfg.Valid 4 → cfg.laneCount * 4 = 64 → cfg.cacheBytes.toNat / 4 = 4096 →
      Progpow.hash cfg height seed datasetSize lookup l1 = Progpow.hash cfg height seed datasetSize lookup' l1 := by
    intro cfg hv h16 hcb
    rw [C63_hash cfg 4 hv height seed datasetSize h1 h2 lookup dag (by rw [h16]; exact hlk) l1 (by omega),
      C63_hash cfg 4 hv height seed datasetSize h1 h2 lookup' dag (by rw [h16]; exact hlk') l1 (by omega)]
  rcases hc with rfl | rfl | rfl
  · exact key _ kawpowCfg_valid rfl rfl
  · exact key _ firopowCfg_valid rfl rfl
  · exact key _ progpow094Cfg_valid rfl rfl

/-- **C26** with less than one item the first round divides by zero -/
theorem C26_small (height seed datasetSize : U64) (h : datasetSize.toNat < 256) (lookup : Lookup) (l1 : List U32) :
    Progpow.hash kawpowCfg height seed datasetSize lookup l1 = .error (.panic .divZero) := by
  have hzero : ((datasetSize / (2 * 128)).setWidth 32 : U32) = 0 := by
    apply BitVec.eq_of_toNat_eq
    rw [BitVec.toNat_setWidth, BitVec.toNat_udiv, show ((2 * 128 : U64)).toNat = 256 from rfl, Nat.div_eq_of_lt h]
    rfl
  unfold Progpow.hash
  rw [initMix_ok, ok_bind, udiv_ok _ _ (by decide), ok_bind]
  obtain ⟨mix, hmix⟩ : ∃ m, m = Spec.Progpow.fillMix kawpowCfg.params seed.toNat := ⟨_, rfl⟩
  have hrows := fillMix_rows kawpowCfg seed.toNat
  rw [← hmix] at hrows ⊢
  have hlen : 0 < mix.length := by rw [hrows.1]; decide
  have hrow : 0 < mix[0].length := by rw [hrows.2 _ (List.getElem_mem _)]; decide
  have hround : Progpow.round kawpowCfg (height / kawpowCfg.periodLength) (BitVec.ofNat 32 0) mix datasetSize lookup l1 =
      .error (.panic .divZero) := by
    obtain ⟨st, k, src, dst, e, _⟩ := initMixRngState_ok (height / kawpowCfg.periodLength) (BitVec.ofNat 32 kawpowCfg.registerCount)
    unfold Progpow.round
    rw [e, ok_bind, umod_ok _ _ (by decide), ok_bind, show (BitVec.ofNat 32 0 % BitVec.ofNat 32 kawpowCfg.laneCount).toNat = 0 from rfl,
      idx_ok _ _ hlen, ok_bind, idx_ok _ _ hrow, ok_bind, hzero]
    rfl
  rw [show kawpowCfg.roundCount = 63 + 1 from rfl, forRange, Nat.sub_zero, loop, hashRound, hround]
  rfl

/-! ## C27: register sequences -/

/-- the next `n` destinations -/
def takeDst : Nat → MixRngState → Go (List U32 × MixRngState)
  | 0, st => .ok ([], st)
  | n + 1, st => do
    let (v, st) ← st.nextDst
    let (vs, st) ← takeDst n st
    return (v :: vs, st)

/-- the next `n` sources -/
def takeSrc : Nat → MixRngState → Go (List U32 × MixRngState)
  | 0, st => .ok ([], st)
  | n + 1, st => do
    let (v, st) ← st.nextSrc
    let (vs, st) ← takeSrc n st
    return (v :: vs, st)

theorem takeDst_ok {R : Nat} (hR : 0 < R) {src dst : List Nat} :
    ∀ (n : Nat) (g : Spec.Progpow.Gen) (st : MixRngState), Rel R src dst g st → g.dsts + n < 2 ^ 32 →
      ∃ vs st', takeDst n st = .ok (vs, st') ∧ vs.map (·.toNat) = (List.range n).map (fun i => dst.getD ((g.dsts + i) % R) 0) ∧
        Rel R src dst ⟨g.kiss, g.srcs, g.dsts + n⟩ st'
  | 0, g, st, hr, _ => ⟨[], st, rfl, rfl, hr⟩
  | n + 1, g, st, hr, hb => by
    obtain ⟨v, st1, e1, hv, r1⟩ := nextDst_ok hr hR (by omega)
    obtain ⟨vs, st2, e2, hvs, r2⟩ := takeDst_ok hR n _ st1 r1 (show g.dsts + 1 + n < 2 ^ 32 by omega)
    refine ⟨v :: vs, st2, ?_, ?_, ?_⟩
    · rw [takeDst, e1, ok_bind]
      simp only
      rw [e2]
      rfl
    · rw [List.map_cons, hvs, hv, List.range_succ_eq_map, List.map_cons, List.map_map]
      refine congrArg (List.cons _) (List.map_congr_left fun i _ => ?_)
      simp only [Function.comp]
      rw [show g.dsts + (i + 1) = g.dsts + 1 + i by omega]
    · rwa [show g.dsts + (n + 1) = g.dsts + 1 + n by omega]

theorem takeSrc_ok {R : Nat} (hR : 0 < R) {src dst : List Nat} :
    ∀ (n : Nat) (g : Spec.Progpow.Gen) (st : MixRngState), Rel R src dst g st → g.srcs + n < 2 ^ 32 →
      ∃ vs st', takeSrc n st = .ok (vs, st') ∧ vs.map (·.toNat) = (List.range n).map (fun i => src.getD ((g.srcs + i) % R) 0) ∧
        Rel R src dst ⟨g.kiss, g.srcs + n, g.dsts⟩ st'
  | 0, g, st, hr, _ => ⟨[], st, rfl, rfl, hr⟩
  | n + 1, g, st, hr, hb => by
    obtain ⟨v, st1, e1, hv, r1⟩ := nextSrc_ok hr hR (by omega)
    obtain ⟨vs, st2, e2, hvs, r2⟩ := takeSrc_ok hR n _ st1 r1 (show g.srcs + 1 + n < 2 ^ 32 by omega)
    refine ⟨v :: vs, st2, ?_, ?_, ?_⟩
    · rw [takeSrc, e1, ok_bind]
      simp only
      rw [e2]
      rfl
    · rw [List.map_cons, hvs, hv, List.range_succ_eq_map, List.map_cons, List.map_map]
      refine congrArg (List.cons _) (List.map_congr_left fun i _ => ?_)
      simp only [Function.comp]
      rw [show g.srcs + (i + 1) = g.srcs + 1 + i by omega]
    · rwa [show g.srcs + (n + 1) = g.srcs + 1 + n by omega]

/-- a pass over a cyclic sequence from any place -/
theorem cyclic_pass (l : List Nat) (R c : Nat) (hl : l.length = R) (hR : 0 < R) :
    ((List.range R).map fun i => l.getD ((c + i) % R) 0).Perm l := by
  have hc : c % R < R := Nat.mod_lt _ hR
  have : (List.range R).map (fun i => l.getD ((c + i) % R) 0) = l.drop (c % R) ++ l.take (c % R) := by
    apply List.ext_getElem (by simp; omega)
    intro i h1 h2
    have hi : i < R := by simpa using h1
    rw [List.getElem_map, List.getElem_range, List.getElem_append, List.getD_eq_getElem?_getD]
    have hmod : (c + i) % R = if i < R - c % R then c % R + i else i - (R - c % R) := by
      rw [Nat.add_mod, Nat.mod_eq_of_lt hi]
      by_cases h : i < R - c % R
      · rw [if_pos h, Nat.mod_eq_of_lt (by omega)]
      · rw [if_neg h, Nat.mod_eq_sub_mod (by omega), Nat.mod_eq_of_lt (by omega)]; omega
    by_cases h : i < R - c % R
    · rw [dif_pos (by simp; omega), hmod, if_pos h, List.getElem?_eq_getElem (by omega), List.getElem_drop]; rfl
    · rw [dif_neg (by simp; omega), hmod, if_neg h, List.getElem?_eq_getElem (by omega), List.getElem_take]
      simp [hl]
  rw [this]
  exact List.perm_append_comm.trans (by rw [List.take_append_drop])

/-- **C27** For every seed and number of registers both sequences are permutations of the registers, and so are the `size` destinations
(sources) drawn after any number `c` of earlier draws: each pass writes (reads) every register exactly once. -/
theorem C27_permutation (seed : U64) (size : U32) (hs : size ≠ 0) :
    ∃ st, initMixRngState seed size = .ok st ∧
      (st.srcSequence.map (·.toNat)).Perm (List.range size.toNat) ∧ (st.dstSequence.map (·.toNat)).Perm (List.range size.toNat) ∧
      ∀ c, c + size.toNat < 2 ^ 32 →
        (∃ a st1 b st2, takeDst c st = .ok (a, st1) ∧ takeDst size.toNat st1 = .ok (b, st2) ∧
          (b.map (·.toNat)).Perm (List.range size.toNat)) ∧
        (∃ a st1 b st2, takeSrc c st = .ok (a, st1) ∧ takeSrc size.toNat st1 = .ok (b, st2) ∧
          (b.map (·.toNat)).Perm (List.range size.toNat)) := by
  have hR : 0 < size.toNat := Nat.pos_of_ne_zero fun e => hs (BitVec.eq_of_toNat_eq e)
  obtain ⟨st, k, src, dst, e, _, r, ps, pd⟩ := initMixRngState_ok seed size
  refine ⟨st, e, by rw [r.src]; exact ps, by rw [r.dst]; exact pd, ?_⟩
  intro c hc
  constructor
  · obtain ⟨a, st1, e1, _, r1⟩ := takeDst_ok hR c _ st r (show 0 + c < 2 ^ 32 by omega)
    obtain ⟨b, st2, e2, h2, _⟩ := takeDst_ok hR size.toNat _ st1 r1 (show 0 + c + size.toNat < 2 ^ 32 by omega)
    refine ⟨a, st1, b, st2, e1, e2, ?_⟩
    rw [h2]
    exact (cyclic_pass dst size.toNat (0 + c) r.ldst hR).trans pd
  · obtain ⟨a, st1, e1, _, r1⟩ := takeSrc_ok hR c _ st r (show 0 + c < 2 ^ 32 by omega)
    obtain ⟨b, st2, e2, h2, _⟩ := takeSrc_ok hR size.toNat _ st1 r1 (show 0 + c + size.toNat < 2 ^ 32 by omega)
    refine ⟨a, st1, b, st2, e1, e2, ?_⟩
    rw [h2]
    exact (cyclic_pass src size.toNat (0 + c) r.lsrc hR).trans ps

/-- the registers an instruction names exist, and the operands of a math instruction differ -/
def wellFormed (R : Nat) : Spec.Progpow.Instr → Prop
  | .cache src dst _ => src < R ∧ dst < R
  | .math src1 src2 _ dst _ => src1 < R ∧ src2 < R ∧ src1 ≠ src2 ∧ dst < R

section
open Spec.Progpow
variable {p : Params} (hR : 2 ≤ p.regs) {src dst : List Nat} (hs : ∀ i, nthSrc p src i < p.regs) (hd : ∀ i, nthDst p dst i < p.regs)
include hR hs hd

theorem genStep_wf (i : Nat) (g : Gen) : ∀ x ∈ (genStep p src dst i g).1, wellFormed p.regs x := by
  have hc : ∀ g, wellFormed p.regs (genCache p src dst g).1 := fun g => ⟨hs _, hd _⟩
  have hm : ∀ g, wellFormed p.regs (genMath p dst g).1 := by
    intro g
    obtain ⟨n, hn⟩ : ∃ n, n = g.kiss.step.out.toNat % (p.regs * (p.regs - 1)) := ⟨_, rfl⟩
    have hlt : n < p.regs * (p.regs - 1) := by rw [hn]; exact Nat.mod_lt _ (Nat.mul_pos (by omega) (by omega))
    have h1 : n % p.regs < p.regs := Nat.mod_lt _ (by omega)
    have h2 : n / p.regs < p.regs - 1 := Nat.div_lt_of_lt_mul hlt
    simp only [genMath, wellFormed, ← hn]
    by_cases h : n % p.regs ≤ n / p.regs
    · rw [if_pos h]; exact ⟨h1, by omega, by omega, hd _⟩
    · rw [if_neg h]; exact ⟨h1, by omega, by omega, hd _⟩
  intro x hx
  unfold genStep at hx
  by_cases a : i < p.cntCache <;> by_cases b : i < p.cntMath <;> simp only [a, b, if_true, if_false] at hx
  · simp only [List.cons_append, List.nil_append, List.mem_cons, List.not_mem_nil, or_false] at hx
    rcases hx with rfl | rfl
    · exact hc _
    · exact hm _
  · simp only [List.append_nil, List.mem_cons, List.not_mem_nil, or_false] at hx
    rw [hx]; exact hc _
  · simp only [List.nil_append, List.mem_cons, List.not_mem_nil, or_false] at hx
    rw [hx]; exact hm _
  · simp at hx

theorem genSteps_wf : ∀ (n i : Nat) (g : Gen), ∀ x ∈ (genSteps p src dst n i g).1, wellFormed p.regs x
  | 0, _, _ => by intro x hx; simp [genSteps] at hx
  | n + 1, i, g => by
    intro x hx
    rcases List.mem_append.1 (show x ∈ (genStep p src dst i g).1 ++ (genSteps p src dst n (i + 1) (genStep p src dst i g).2).1 from hx)
      with h | h
    · exact genStep_wf hR hs hd i g x h
    · exact genSteps_wf n (i + 1) _ x h

end

/-- **C27** In the program of every period each instruction names existing registers, and the two operands of a math instruction are
different registers. By C63 this is the program that the code runs. -/
theorem C27_operands (p : Spec.Progpow.Params) (h1 : 2 ≤ p.regs) (h2 : p.regs < 2 ^ 32) (prog : U64) (words : Nat) :
    ∀ x ∈ (Spec.Progpow.program p prog.toNat words).1, wellFormed p.regs x := by
  have hsize : (BitVec.ofNat 32 p.regs).toNat = p.regs := by rw [BitVec.toNat_ofNat]; omega
  obtain ⟨st, k, src, dst, e, hsh, hrel, ps, pd⟩ := initMixRngState_ok prog (BitVec.ofNat 32 p.regs)
  rw [hsize] at hsh hrel ps pd
  have hs : ∀ i, Spec.Progpow.nthSrc p src i < p.regs := by
    intro i
    have hi : i % p.regs < src.length := by rw [hrel.lsrc]; exact Nat.mod_lt _ (by omega)
    show src.getD (i % p.regs) 0 < _
    rw [List.getD_eq_getElem?_getD, List.getElem?_eq_getElem hi]
    exact List.mem_range.1 (ps.mem_iff.1 (List.getElem_mem _))
  have hd : ∀ i, Spec.Progpow.nthDst p dst i < p.regs := by
    intro i
    have hi : i % p.regs < dst.length := by rw [hrel.ldst]; exact Nat.mod_lt _ (by omega)
    show dst.getD (i % p.regs) 0 < _
    rw [List.getD_eq_getElem?_getD, List.getElem?_eq_getElem hi]
    exact List.mem_range.1 (pd.mem_iff.1 (List.getElem_mem _))
  rw [program_eq p prog.toNat words k src dst hsh]
  exact genSteps_wf h1 hs hd _ _ _

/-- the program of the published parameters has 29 instructions and four loads -/
example : (Spec.Progpow.program Spec.Progpow.standard 5 4).1.length = 29 ∧ (Spec.Progpow.program Spec.Progpow.standard 5 4).2.length = 4 := by
  decide +kernel

/-! ## C28: the height matters only through the period -/

/-- **C28** two heights of one period give the same mix, for every configuration, dataset and L1 cache (and also the same panic) -/
theorem C28_hash (cfg : Config) (h h' seed datasetSize : U64) (lookup : Lookup) (l1 : List U32)
    (hp : h.toNat / cfg.periodLength.toNat = h'.toNat / cfg.periodLength.toNat) :
    Progpow.hash cfg h seed datasetSize lookup l1 = Progpow.hash cfg h' seed datasetSize lookup l1 := by
  have : udiv h cfg.periodLength = udiv h' cfg.periodLength := by
    unfold udiv
    have e : h / cfg.periodLength = h' / cfg.periodLength := by
      apply BitVec.eq_of_toNat_eq
      rw [BitVec.toNat_udiv, BitVec.toNat_udiv, hp]
    rw [e]
  unfold Progpow.hash
  rw [this]

/-- **C28** KAWPOW: heights in the same group of three -/
theorem C28_kawpow (hash : List Byte) (h h' nonce datasetSize : U64) (lookup : Lookup) (l1 : List U32) (hp : h.toNat / 3 = h'.toNat / 3) :
    kawpow hash h nonce datasetSize lookup l1 = kawpow hash h' nonce datasetSize lookup l1 := by
  unfold kawpow
  simp only [C28_hash kawpowCfg h h' _ datasetSize lookup l1 hp]

/-- **C28** ProgPoW 0.9.4: heights in the same group of ten -/
theorem C28_progpow094 (hash : List Byte) (h h' nonce datasetSize : U64) (lookup : Lookup) (l1 : List U32)
    (hp : h.toNat / 10 = h'.toNat / 10) :
    progpow094 hash h nonce datasetSize lookup l1 = progpow094 hash h' nonce datasetSize lookup l1 := by
  unfold progpow094
  simp only [C28_hash progpow094Cfg h h' _ datasetSize lookup l1 hp]

/-- two different heights in one period -/
example : (6 : U64) ≠ 8 ∧ (6 : U64).toNat / 3 = (8 : U64).toNat / 3 := by decide

/-! ## C29 and C30: merge and math -/

/-- **C29** for each selector the merge is a bijection of the register when the data is fixed -/
theorem C29_register (b s : U32) :
    (∀ a a', randomMerge a b s = randomMerge a' b s → a = a') ∧ ∀ r, ∃ a, randomMerge a b s = r := by
  refine ⟨fun a a' h => ?_, fun r => ⟨unmerge r b s, merge_unmerge r b s⟩⟩
  rw [← unmerge_merge a b s, h, unmerge_merge]

/-- **C29** and a bijection of the data when the register is fixed -/
theorem C29_data (a s : U32) :
    (∀ b b', randomMerge a b s = randomMerge a b' s → b = b') ∧ ∀ r, ∃ b, randomMerge a b s = r := by
  refine ⟨fun b b' h => ?_, fun r => ⟨undata r a s, merge_undata r a s⟩⟩
  rw [← undata_merge a b s, h, undata_merge]

/-- **C29** the four merges -/
theorem C29_table (a b s : U32) : randomMerge a b s = Spec.Progpow.merge a b s.toNat := randomMerge_eq a b s

/-- **C30** the eleven operations -/
theorem C30_math (a b s : U32) : randomMath a b s = Spec.Progpow.math a b s.toNat := randomMath_eq a b s

/-- **C30** the counts of the table mean what they say: `clz` is the largest `n ≤ 32` with `a < 2^(32-n)` -/
theorem C30_clz (a : U32) : Spec.Progpow.clz a ≤ 32 ∧ a.toNat < 2 ^ (32 - Spec.Progpow.clz a) ∧
    ∀ n, n ≤ 32 → a.toNat < 2 ^ (32 - n) → n ≤ Spec.Progpow.clz a := by
  rw [← leadingZeros32_eq]
  unfold leadingZeros32
  by_cases h : a = 0
  · subst h
    simp
  · have ha : a.toNat ≠ 0 := fun e => h (BitVec.eq_of_toNat_eq (by simpa using e))
    rw [if_neg h]
    have h32 : a.toNat.log2 < 32 := (Nat.log2_lt ha).2 a.isLt
    refine ⟨by omega, ?_, ?_⟩
    · rw [show 32 - (32 - (a.toNat.log2 + 1)) = a.toNat.log2 + 1 by omega]
      exact (Nat.log2_lt ha).1 (by omega)
    · intro n hn h
      have := (Nat.log2_lt ha).2 h
      omega

/-- the operations on a non-trivial pair, one selector each -/
example : (List.range 11).map (fun s => randomMath 0x80000001 0x22 (BitVec.ofNat 32 (11 + s))) =
    [0x80000023, 0x22, 0x11, 0x22, 0x6, 0x60000000, 0, 0x80000023, 0x80000023, 26, 4] := by decide +kernel

end Verif.Props
