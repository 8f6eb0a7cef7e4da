import Verif.Proof.Progpow

/-! # The ProgPoW mix hash -/

set_option autoImplicit false

namespace Verif.Progpow

open Go Crypto
open Spec.Progpow (Gen Params exec load genSteps genLoads)

/-- the number of dataset items the code works with -/
def numItems (datasetSize : U64) : Nat := datasetSize.toNat / 256 % 2 ^ 32

/-- the lookup serves the items of a dataset of `items` items of `len` words -/
def Serves (lookup : Lookup) (items len : Nat) (dag : Nat → List U32) : Prop :=
  ∀ i, i < items → lookup (BitVec.ofNat 32 i) = .ok (dag i) ∧ (dag i).length = len

/-- the same for items with at least `w` words for each of `lanes` lanes, but not one more for each -/
def Serving (lookup : Lookup) (items lanes w : Nat) (dag : Nat → List U32) : Prop :=
  ∀ i, i < items → lookup (BitVec.ofNat 32 i) = .ok (dag i) ∧ (dag i).length / lanes = w

theorem Serves.serving {lookup : Lookup} {items lanes w : Nat} {dag : Nat → List U32} (h : Serves lookup items (lanes * w) dag)
    (hl : 1 ≤ lanes) : Serving lookup items lanes w dag :=
  fun i hi => ⟨(h i hi).1, by rw [(h i hi).2]; exact Nat.mul_div_cancel_left w (by omega)⟩

variable {cfg : Config} {w : Nat}

theorem program_eq (p : Params) (prog words : Nat) (k : Spec.Progpow.Kiss) (src dst : List Nat)
    (h : Spec.Progpow.shuffle p.regs (Spec.Progpow.seedKiss prog) (List.range p.regs, List.range p.regs) = (k, src, dst)) :
    Spec.Progpow.program p prog words =
      ((genSteps p src dst (max p.cntCache p.cntMath) 0 ⟨k, 0, 0⟩).1,
        genLoads p dst words 0 (genSteps p src dst (max p.cntCache p.cntMath) 0 ⟨k, 0, 0⟩).2) := by
  unfold Spec.Progpow.program
  rw [h]

theorem round_ok (hv : cfg.Valid w) (seed : U64) (r : Nat) (hr : r < 2 ^ 32) (mix : List (List U32)) (hm : Rows cfg mix)
    (datasetSize : U64) (hn : numItems datasetSize ≠ 0) (lookup : Lookup) (dag : Nat → List U32)
    (hlk : Serving lookup (numItems datasetSize) cfg.laneCount w dag) (l1 : List U32)
    (hl1 : cfg.cacheBytes.toNat / 4 ≤ l1.length) :
    round cfg seed (BitVec.ofNat 32 r) mix datasetSize lookup l1 =
        .ok (Spec.Progpow.round cfg.params seed.toNat w (numItems datasetSize) dag (fun i => l1.getD i 0) r mix) ∧
      Rows cfg (Spec.Progpow.round cfg.params seed.toNat w (numItems datasetSize) dag (fun i => l1.getD i 0) r mix) := by
  have hln := hv.lanes
  have hln' := hv.lanes'
  have hR := hv.regs
  have hR' := hv.regs'
  have hops := hv.ops
  have hsize : (BitVec.ofNat 32 cfg.registerCount).toNat = cfg.registerCount := by rw [BitVec.toNat_ofNat]; omega
  obtain ⟨st, k, src, dst, e, hsh, hrel, ps, pd⟩ := initMixRngState_ok seed (BitVec.ofNat 32 cfg.registerCount)
  rw [hsize] at hsh hrel ps pd
  have hs : ∀ x ∈ src, x < cfg.registerCount := fun x hx => List.mem_range.1 ((ps.mem_iff).1 hx)
  have hd : ∀ x ∈ dst, x < cfg.registerCount := fun x hx => List.mem_range.1 ((pd.mem_iff).1 hx)
  obtain ⟨N, hN⟩ : ∃ N, N = max cfg.roundCacheAccesses cfg.roundMathOperations := ⟨_, rfl⟩
  obtain ⟨st1, e1, r1, b1⟩ := ops_ok hv l1 hl1 hs hd N 0 ⟨k, 0, 0⟩ st mix hrel hm (by simp only; omega) (by simp only; omega)
  simp only at b1
  obtain ⟨G, hG⟩ : ∃ G, G = genSteps cfg.params src dst N 0 ⟨k, 0, 0⟩ := ⟨_, rfl⟩
  rw [← hG] at e1 r1 b1
  obtain ⟨st2, dsts, sels, e2, l1', l2', hall, hz⟩ := draws_ok hv hd r1 (by omega)
  have hprog := program_eq cfg.params seed.toNat w k src dst hsh
  rw [show max cfg.params.cntCache cfg.params.cntMath = N from hN.symm, ← hG, ← hz] at hprog
  have hlane : r % cfg.laneCount < mix.length := by rw [hm.1]; exact Nat.mod_lt _ (by omega)
  have hrow0 : 0 < (mix[r % cfg.laneCount]).length := by rw [hm.2 _ (List.getElem_mem _)]; omega
  have hitems : ((datasetSize / (2 * 128)).setWidth 32 : U32).toNat = numItems datasetSize := by
    rw [BitVec.toNat_setWidth, BitVec.toNat_udiv]; rfl
  obtain ⟨x, hx⟩ : ∃ x, x = mix[r % cfg.laneCount][0] := ⟨_, rfl⟩
  obtain ⟨idx0, hidx⟩ : ∃ i, i = x.toNat % numItems datasetSize := ⟨_, rfl⟩
  have hidxlt : idx0 < numItems datasetSize := by rw [hidx]; exact Nat.mod_lt _ (by omega)
  have hitem : x % ((datasetSize / (2 * 128)).setWidth 32 : U32) = BitVec.ofNat 32 idx0 := by
    apply BitVec.eq_of_toNat_eq
    have h32 : numItems datasetSize < 2 ^ 32 := Nat.mod_lt _ (by omega)
    rw [BitVec.toNat_umod, hitems, BitVec.toNat_ofNat, ← hidx, Nat.mod_eq_of_lt (by omega)]
  obtain ⟨hlook, hilen⟩ := hlk idx0 hidxlt
  have hspec : Spec.Progpow.round cfg.params seed.toNat w (numItems datasetSize) dag (fun i => l1.getD i 0) r mix =
      (List.range cfg.laneCount).map fun l =>
        load (G.1.foldl (exec cfg.params fun i => l1.getD i 0) (mix.getD l []))
          (List.zip (dsts.map (·.toNat)) (sels.map (·.toNat))) (((dag idx0).drop ((l ^^^ r) % cfg.laneCount * w)).take w) := by
    unfold Spec.Progpow.round
    rw [hprog]
    have : ((mix.getD (r % cfg.params.lanes) []).getD 0 0).toNat % numItems datasetSize = idx0 := by
      rw [hidx, hx]
      simp only [Config.params, List.getD_eq_getElem?_getD, List.getElem?_eq_getElem hlane, Option.getD_some,
        List.getElem?_eq_getElem hrow0]
    rw [this]
    rfl
  rw [hspec]
  have hm1 := hm.map (fun lane => G.1.foldl (exec cfg.params (fun i => l1.getD i 0)) lane) (fun r => foldl_exec_length _ _ _ _)
  constructor
  · unfold round
    rw [e]
    simp only [ok_bind]
    rw [umod_ok _ _ (by rw [BitVec.toNat_ofNat]; omega)]
    simp only [ok_bind]
    have hlidx : (BitVec.ofNat 32 r % BitVec.ofNat 32 cfg.laneCount).toNat = r % cfg.laneCount := by
      rw [BitVec.toNat_umod, BitVec.toNat_ofNat, BitVec.toNat_ofNat, Nat.mod_eq_of_lt hr, Nat.mod_eq_of_lt hln']
    rw [hlidx, idx_ok _ _ hlane]
    simp only [ok_bind]
    rw [idx_ok _ _ hrow0]
    simp only [ok_bind]
    rw [umod_ok _ _ (by rw [hitems]; exact hn)]
    simp only [ok_bind]
    rw [← hx, hitem, hlook]
    simp only [ok_bind]
    rw [if_neg (by omega)]
    rw [hilen, forRange, Nat.sub_zero, ← hN, e1]
    simp only [ok_bind]
    rw [e2]
    simp only [ok_bind]
    rw [forRange_update (f := dagLane cfg (BitVec.ofNat 32 r) w (dag idx0) dsts sels)
      (fun l row => load row (List.zip (dsts.map (·.toNat)) (sels.map (·.toNat))) (((dag idx0).drop ((l ^^^ r) % cfg.laneCount * w)).take w))
      cfg.laneCount _ (by rw [hm1.1])]
    · refine congrArg Except.ok ?_
      apply List.ext_getElem (by simp [hm.1])
      intro i h1 h2
      have hi : i < cfg.laneCount := by simpa using h2
      have hi' : i < mix.length := by rw [hm.1]; exact hi
      rw [List.getElem_mapIdx, if_pos hi, List.getElem_map, List.getElem_map, List.getElem_range]
      rw [List.getD_eq_getElem?_getD, List.getElem?_eq_getElem hi', Option.getD_some]
    · intro i m row hi _ hrow hrow'
      exact dagLane_ok hv r hr (dag idx0) dsts sels (by rw [← hilen]; exact Nat.mul_div_le _ _) l1' l2' hall i hi m row hrow (hm1.2 row (List.mem_of_getElem? hrow'))
  · refine ⟨by simp, ?_⟩
    intro row hrow
    obtain ⟨l, hl, rfl⟩ := List.mem_map.1 hrow
    have hl' : l < mix.length := by rw [hm.1]; exact List.mem_range.1 hl
    rw [load_length, foldl_exec_length, List.getD_eq_getElem?_getD, List.getElem?_eq_getElem hl', Option.getD_some]
    exact hm.2 _ (List.getElem_mem _)

/-! ## The initial mix -/

theorem draw_succ (k : Kiss99) (i : Nat) : Spec.Progpow.draw k.abs (i + 1) = Spec.Progpow.draw k.next.2.abs i := by
  rw [Spec.Progpow.draw, Kiss99.next_snd]

theorem regs_ok (k : Kiss99) (n : Nat) :
    ∃ k', forRange 0 n (k, List.replicate n 0) regStep = .ok (k', (List.range n).map (Spec.Progpow.draw k.abs)) := by
  obtain ⟨⟨k', row⟩, e, hlen, hrow, _⟩ := forRange_inv (f := regStep)
    (fun i s => s.2.length = n ∧ (∀ j, j < i → s.2[j]? = some (Spec.Progpow.draw k.abs j)) ∧
      ∀ j, Spec.Progpow.draw s.1.abs j = Spec.Progpow.draw k.abs (i + j)) 0 n (k, List.replicate n 0) (by omega)
    ⟨by simp, by intros; omega, by simp⟩ (by
      rintro i ⟨k1, row⟩ _ hi ⟨h1, h2, h3⟩
      simp only at h1 h2 h3
      refine ⟨(k1.next.2, row.set i k1.next.1), ?_, by simpa using h1, ?_, ?_⟩
      · unfold regStep
        simp only
        rw [upd_ok _ _ _ (by omega)]
        rfl
      · intro j hj
        simp only
        by_cases hji : j = i
        · subst hji
          rw [List.getElem?_set_self (by omega), Kiss99.next_fst]
          have := h3 0
          rw [Spec.Progpow.draw] at this
          rw [this]
          rfl
        · rw [List.getElem?_set_ne (by omega), h2 j (by omega)]
      · intro j
        simp only
        rw [← draw_succ, h3]
        congr 1; omega)
  refine ⟨k', ?_⟩
  rw [e]
  have : row = (List.range n).map (Spec.Progpow.draw k.abs) := by
    apply List.ext_getElem (by simpa using hlen)
    intro j h1 h2
    have := hrow j (by simpa using h2)
    rw [List.getElem?_eq_getElem h1] at this
    simpa using this
  rw [this]

theorem initMix_ok (cfg : Config) (seed : U64) :
    initMix seed cfg.laneCount cfg.registerCount = .ok (Spec.Progpow.fillMix cfg.params seed.toNat) := by
  unfold initMix
  simp only
  rw [ofNat_shift, ofNat_low]
  rw [forRange_fill (fun l => (List.range cfg.registerCount).map (Spec.Progpow.draw
    ⟨Spec.Progpow.fnv1a Spec.Progpow.fnvBasis (BitVec.ofNat 32 seed.toNat),
      Spec.Progpow.fnv1a (Spec.Progpow.fnv1a Spec.Progpow.fnvBasis (BitVec.ofNat 32 seed.toNat)) (BitVec.ofNat 32 (seed.toNat / 2 ^ 32)),
      Spec.Progpow.fnv1a (Spec.Progpow.fnv1a (Spec.Progpow.fnv1a Spec.Progpow.fnvBasis (BitVec.ofNat 32 seed.toNat))
        (BitVec.ofNat 32 (seed.toNat / 2 ^ 32))) (BitVec.ofNat 32 l),
      Spec.Progpow.fnv1a (Spec.Progpow.fnv1a (Spec.Progpow.fnv1a (Spec.Progpow.fnv1a Spec.Progpow.fnvBasis (BitVec.ofNat 32 seed.toNat))
        (BitVec.ofNat 32 (seed.toNat / 2 ^ 32))) (BitVec.ofNat 32 l)) (BitVec.ofNat 32 l)⟩)) cfg.laneCount _ (by simp)]
  · rfl
  · intro l m hl hm _
    unfold laneInit
    simp only [fnv1a_eq]
    obtain ⟨k', e⟩ := regs_ok ⟨Spec.Progpow.fnv1a Spec.Progpow.fnvBasis (BitVec.ofNat 32 seed.toNat),
      Spec.Progpow.fnv1a (Spec.Progpow.fnv1a Spec.Progpow.fnvBasis (BitVec.ofNat 32 seed.toNat)) (BitVec.ofNat 32 (seed.toNat / 2 ^ 32)),
      Spec.Progpow.fnv1a (Spec.Progpow.fnv1a (Spec.Progpow.fnv1a Spec.Progpow.fnvBasis (BitVec.ofNat 32 seed.toNat))
        (BitVec.ofNat 32 (seed.toNat / 2 ^ 32))) (BitVec.ofNat 32 l),
      Spec.Progpow.fnv1a (Spec.Progpow.fnv1a (Spec.Progpow.fnv1a (Spec.Progpow.fnv1a Spec.Progpow.fnvBasis (BitVec.ofNat 32 seed.toNat))
        (BitVec.ofNat 32 (seed.toNat / 2 ^ 32))) (BitVec.ofNat 32 l)) (BitVec.ofNat 32 l)⟩ cfg.registerCount
    rw [show fnvOffsetBasis = Spec.Progpow.fnvBasis from rfl, e]
    simp only [ok_bind]
    rw [upd_ok _ _ _ (by omega)]
    rfl

theorem fillMix_rows (cfg : Config) (seed : Nat) : Rows cfg (Spec.Progpow.fillMix cfg.params seed) := by
  refine ⟨by simp [Spec.Progpow.fillMix, Config.params], ?_⟩
  intro row hrow
  unfold Spec.Progpow.fillMix at hrow
  obtain ⟨l, _, rfl⟩ := List.mem_map.1 hrow
  simp [Config.params]

/-! ## The reduction -/

theorem laneHashReg_ok (row : List U32) (n : Nat) (hn : row.length = n) (h : U32) :
    forRange 0 n h (laneHashReg row) = .ok (row.foldl Spec.Progpow.fnv1a h) := by
  obtain ⟨x, e, hx⟩ := forRange_inv (f := laneHashReg row) (fun i s => s = (row.take i).foldl Spec.Progpow.fnv1a h) 0 n h (by omega)
    (by simp) (by
      rintro i s _ hi rfl
      refine ⟨_, ?_, rfl⟩
      unfold laneHashReg
      rw [idx_ok _ _ (by omega)]
      simp only [ok_bind, pure_eq_ok]
      rw [List.take_succ_eq_append_getElem (by omega), List.foldl_append, fnv1a_eq]
      rfl)
  rw [e, hx, List.take_of_length_le (by omega)]

/-- one bucket of the reduction after the first `i` lanes -/
def bucket (lane : List U32) (i b : Nat) : U32 :=
  ((List.range i).filter fun l => l % 8 = b).foldl (fun h l => Spec.Progpow.fnv1a h (lane.getD l 0)) Spec.Progpow.fnvBasis

theorem reduce_ok (lane : List U32) (n : Nat) (hn : lane.length = n) :
    forRange 0 n (List.replicate 8 fnvOffsetBasis) (mixHashStep lane) = .ok ((List.range 8).map (bucket lane n)) := by
  obtain ⟨x, e, hx⟩ := forRange_inv (f := mixHashStep lane) (fun i s => s = (List.range 8).map (bucket lane i)) 0 n
    (List.replicate 8 fnvOffsetBasis) (by omega) rfl (by
      rintro i s _ hi rfl
      refine ⟨_, ?_, rfl⟩
      have h8 : i % 8 < 8 := Nat.mod_lt _ (by omega)
      unfold mixHashStep
      rw [idx_ok _ _ (by simpa using h8), List.getElem_map, List.getElem_range]
      simp only [ok_bind]
      rw [idx_ok _ _ (by omega)]
      simp only [ok_bind]
      rw [upd_ok _ _ _ (by simpa using h8), fnv1a_eq]
      refine congrArg Except.ok ?_
      apply List.ext_getElem (by simp)
      intro b h1 h2
      have hb : b < 8 := by simpa using h2
      rw [List.getElem_set, List.getElem_map, List.getElem_map, List.getElem_range]
      unfold bucket
      rw [List.range_succ, List.filter_append, List.foldl_append]
      by_cases h : i % 8 = b
      · subst h
        rw [if_pos rfl]
        simp [List.getD_eq_getElem?_getD, List.getElem?_eq_getElem (show i < lane.length by omega)]
      · rw [if_neg h]
        simp [h])
  rw [e, hx]

theorem roundsUpTo_ok (hv : cfg.Valid w) (number : U64) (datasetSize : U64) (hn : numItems datasetSize ≠ 0) (lookup : Lookup)
    (dag : Nat → List U32) (hlk : Serving lookup (numItems datasetSize) cfg.laneCount w dag) (l1 : List U32)
    (hl1 : cfg.cacheBytes.toNat / 4 ≤ l1.length) (mix : List (List U32)) (hm : Rows cfg mix) :
    ∃ mix', forRange 0 cfg.roundCount mix (hashRound cfg number datasetSize lookup l1) = .ok mix' ∧ Rows cfg mix' ∧
      mix' = Spec.Progpow.roundsUpTo cfg.params number.toNat w (numItems datasetSize) dag (fun i => l1.getD i 0) mix cfg.roundCount := by
  exact forRange_inv (f := hashRound cfg number datasetSize lookup l1)
    (fun i s => Rows cfg s ∧
      s = Spec.Progpow.roundsUpTo cfg.params number.toNat w (numItems datasetSize) dag (fun i => l1.getD i 0) mix i) 0 cfg.roundCount
    mix (by omega) ⟨hm, rfl⟩ (by
      rintro i s _ hi ⟨h1, h2⟩
      have := hv.rounds
      obtain ⟨e, h⟩ := round_ok hv number i (by omega) s h1 datasetSize hn lookup dag hlk l1 hl1
      refine ⟨_, e, h, ?_⟩
      rw [Spec.Progpow.roundsUpTo, h2])

/-- what follows the rounds -/
theorem hash_of_rounds (hp : cfg.periodLength.toNat ≠ 0) (height seed datasetSize : U64) (items : Nat) (lookup : Lookup)
    (dag : Nat → List U32) (l1 : List U32)
    (hrounds : ∃ mix', forRange 0 cfg.roundCount (Spec.Progpow.fillMix cfg.params seed.toNat)
        (hashRound cfg (height / cfg.periodLength) datasetSize lookup l1) = .ok mix' ∧ Rows cfg mix' ∧
      mix' = Spec.Progpow.roundsUpTo cfg.params (height / cfg.periodLength).toNat w items dag (fun i => l1.getD i 0)
        (Spec.Progpow.fillMix cfg.params seed.toNat) cfg.roundCount) :
    hash cfg height seed datasetSize lookup l1 =
      .ok ((Spec.Progpow.mixHash cfg.params (height.toNat / cfg.periodLength.toNat) w items dag (fun i => l1.getD i 0)
        seed.toNat).flatMap (bytesOf .little 4)) := by
  unfold hash
  rw [initMix_ok]
  simp only [ok_bind]
  rw [udiv_ok _ _ hp]
  simp only [ok_bind]
  obtain ⟨mix, e, hm, hmix⟩ := hrounds
  rw [e]
  simp only [ok_bind]
  rw [forRange_fill (fun l => (mix.getD l []).foldl Spec.Progpow.fnv1a Spec.Progpow.fnvBasis) cfg.laneCount _ (by simp)]
  · simp only [ok_bind]
    rw [reduce_ok _ _ (by simp)]
    simp only [ok_bind]
    rw [Convutil.uint32ArrayToBytes_eq]
    refine congrArg Except.ok (congrArg (List.flatMap _) ?_)
    unfold Spec.Progpow.mixHash
    rw [BitVec.toNat_udiv] at hmix
    rw [show cfg.params.rounds = cfg.roundCount from rfl, ← hmix]
    have : (List.range cfg.laneCount).map (fun l => (mix.getD l []).foldl Spec.Progpow.fnv1a Spec.Progpow.fnvBasis) =
        mix.map fun regs => regs.foldl Spec.Progpow.fnv1a Spec.Progpow.fnvBasis := by
      apply List.ext_getElem (by simp [hm.1])
      intro i h1 h2
      have hi : i < mix.length := by simpa using h2
      simp [List.getD_eq_getElem?_getD, List.getElem?_eq_getElem hi]
    rw [this]
    rfl
  · intro l m hl hml _
    have hlm : l < mix.length := by rw [hm.1]; exact hl
    unfold laneHashStep
    rw [idx_ok _ _ hlm]
    simp only [ok_bind]
    rw [laneHashReg_ok _ _ (hm.2 _ (List.getElem_mem _))]
    simp only [ok_bind]
    rw [upd_ok _ _ _ (by omega), List.getD_eq_getElem?_getD, List.getElem?_eq_getElem hlm]
    rfl

/-- the mix hash of `Hash` -/
theorem hash_serving (hv : cfg.Valid w) (height seed datasetSize : U64) (hn : numItems datasetSize ≠ 0) (lookup : Lookup)
    (dag : Nat → List U32) (hlk : Serving lookup (numItems datasetSize) cfg.laneCount w dag) (l1 : List U32)
    (hl1 : cfg.cacheBytes.toNat / 4 ≤ l1.length) :
    hash cfg height seed datasetSize lookup l1 =
      .ok ((Spec.Progpow.mixHash cfg.params (height.toNat / cfg.periodLength.toNat) w (numItems datasetSize) dag (fun i => l1.getD i 0)
        seed.toNat).flatMap (bytesOf .little 4)) :=
  hash_of_rounds hv.period height seed datasetSize _ lookup dag l1
    (roundsUpTo_ok hv (height / cfg.periodLength) datasetSize hn lookup dag hlk l1 hl1 _ (fillMix_rows cfg seed.toNat))

theorem hash_ok (hv : cfg.Valid w) (height seed datasetSize : U64) (hn : numItems datasetSize ≠ 0) (lookup : Lookup)
    (dag : Nat → List U32) (hlk : Serves lookup (numItems datasetSize) (cfg.laneCount * w) dag) (l1 : List U32)
    (hl1 : cfg.cacheBytes.toNat / 4 ≤ l1.length) :
    hash cfg height seed datasetSize lookup l1 =
      .ok ((Spec.Progpow.mixHash cfg.params (height.toNat / cfg.periodLength.toNat) w (numItems datasetSize) dag (fun i => l1.getD i 0)
        seed.toNat).flatMap (bytesOf .little 4)) :=
  hash_serving hv height seed datasetSize hn lookup dag (hlk.serving hv.lanes) l1 hl1

end Verif.Progpow
