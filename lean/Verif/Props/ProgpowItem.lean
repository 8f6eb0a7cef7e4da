import Verif.Proof.ProgpowItem

/-! # C100: where a round of ProgPoW puts its results, and what it keeps of the item it reads

The instructions of a round and the three further words of the item are merged into all 32 registers, once each; the first word of the item is merged
into register 0 in addition. So the item can be read off the registers, unless register 0 is one of those that the further words go to: then some of
the item is lost. Both cases occur. -/

set_option autoImplicit false

namespace Verif.Props

open Go Crypto Progpow
open Spec.Progpow (Instr standard program)

namespace Item

/-- the register an instruction merges into -/
def dest : Instr → Nat
  | .cache _ dst _ => dst
  | .math _ _ _ dst _ => dst

/-- the registers that the four words of a lane go to -/
def words (period : Nat) : List Nat := (program standard period 4).2.map Prod.fst

/-- the number of the item that round `r` reads -/
def number (mix : List (List U32)) (r items : Nat) : Nat := ((mix.getD (r % 16) []).getD 0 0).toNat % items

/-- 16 lanes of 32 registers -/
def Registers (mix : List (List U32)) : Prop := mix.length = 16 ∧ ∀ row ∈ mix, row.length = 32

theorem dest_eq : dest = target := by
  funext i; cases i <;> rfl

theorem program_words (period : U64) : ∃ s t, (program standard period.toNat 4).2 = (0, s) :: t ∧
    ((program standard period.toNat 4).1.map dest ++ t.map Prod.fst).Perm (List.range 32) ∧ s < 2 ^ 32 ∧
      (∀ d ∈ t, d.2 < 2 ^ 32) ∧ t.length = 3 := by
  rw [dest_eq]
  exact program_targets standard (by decide) period 3 (by decide)

end Item

open Item

/-- each register is the destination of exactly one instruction or one of the last three words of the item; the first word goes to register 0 -/
theorem C100_once (period : U64) :
    (words period.toNat).head? = some 0 ∧ ((program standard period.toNat 4).1.map dest ++ (words period.toNat).tail).Perm (List.range 32) := by
  obtain ⟨s, t, h1, h2, _⟩ := program_words period
  unfold words
  rw [h1]
  exact ⟨rfl, h2⟩

namespace Item

theorem three (cfg : Config) (hc : cfg = kawpowCfg ∨ cfg = firopowCfg ∨ cfg = progpow094Cfg) :
    cfg.Valid 4 ∧ cfg.params = standard ∧ cfg.laneCount = 16 ∧ cfg.registerCount = 32 ∧ cfg.cacheBytes.toNat / 4 = 4096 := by
  rcases hc with rfl | rfl | rfl
  · exact ⟨kawpowCfg_valid, rfl, rfl, rfl, rfl⟩
  · exact ⟨firopowCfg_valid, rfl, rfl, rfl, rfl⟩
  · exact ⟨progpow094Cfg_valid, rfl, rfl, rfl, rfl⟩

/-- the part of the item for a lane -/
def part (item : List U32) (l r : Nat) : List U32 := (item.drop ((l ^^^ r) % 16 * 4)).take 4

theorem part_length (item : List U32) (h : item.length = 64) (l r : Nat) : (part item l r).length = 4 := by
  unfold part
  rw [List.length_take, List.length_drop, h]
  omega

/-- the lane for which part `q` is -/
theorem lane_of (q r : Nat) (hq : q < 16) : ((q ^^^ r) % 16 ^^^ r) % 16 = q := by
  rw [show (16 : Nat) = 2 ^ 4 from rfl, Nat.xor_mod_two_pow, Nat.mod_mod, ← Nat.xor_mod_two_pow, Nat.xor_assoc, Nat.xor_self, Nat.xor_zero]
  exact Nat.mod_eq_of_lt hq

theorem lane_inj (l q r : Nat) (hl : l < 16) (h : (l ^^^ r) % 16 = q) : l = (q ^^^ r) % 16 := by
  rw [← h, lane_of l r hl]

theorem of_parts (a b : List U32) (ha : a.length = 64) (hb : b.length = 64) (r : Nat) (h : ∀ l < 16, part a l r = part b l r) : a = b := by
  apply List.ext_getElem (ha.trans hb.symm)
  intro i h1 h2
  have hq : i / 4 < 16 := by omega
  have h3 := h ((i / 4 ^^^ r) % 16) (Nat.mod_lt _ (by decide))
  unfold part at h3
  rw [lane_of _ r hq] at h3
  have h4 := congrArg (fun l : List U32 => l[i % 4]?) h3
  simp only [List.getElem?_take, List.getElem?_drop] at h4
  rw [if_pos (by omega), if_pos (by omega), show i / 4 * 4 + i % 4 = i by omega, List.getElem?_eq_getElem h1, List.getElem?_eq_getElem h2] at h4
  exact Option.some.inj h4

/-- putting other words in place of the part for lane 0 -/
theorem part_replace (a ws b : List U32) (ha : a.length = 64) (hw : ws.length = 4) (r : Nat)
    (hb : b = a.take ((0 ^^^ r) % 16 * 4) ++ ws ++ a.drop ((0 ^^^ r) % 16 * 4 + 4)) : ∀ l < 16, part b l r = if l = 0 then ws else part a l r := by
  intro l hl
  obtain ⟨q, hq⟩ : ∃ q, q = (0 ^^^ r) % 16 := ⟨_, rfl⟩
  have hq16 : q < 16 := by rw [hq]; exact Nat.mod_lt _ (by decide)
  obtain ⟨q', hq'⟩ : ∃ q', q' = (l ^^^ r) % 16 := ⟨_, rfl⟩
  have hq16' : q' < 16 := by rw [hq']; exact Nat.mod_lt _ (by decide)
  have hlen : (a.take (q * 4)).length = q * 4 := by rw [List.length_take, ha]; omega
  rw [← hq] at hb
  unfold part
  rw [← hq', hb, List.append_assoc]
  by_cases hl0 : l = 0
  · rw [if_pos hl0]
    rw [hl0, ← hq] at hq'
    rw [hq', List.drop_left' hlen, List.take_left' hw]
  · rw [if_neg hl0]
    have hne : q' ≠ q := by
      intro he
      apply hl0
      rw [lane_inj l q r hl (by rw [← hq', he]), lane_inj 0 q r (by decide) hq.symm]
    apply List.ext_getElem?
    intro i
    rw [List.getElem?_take, List.getElem?_take, List.getElem?_drop, List.getElem?_drop]
    by_cases hi4 : i < 4
    · rw [if_pos hi4, if_pos hi4]
      by_cases hlt : q' < q
      · rw [List.getElem?_append_left (by rw [hlen]; omega), List.getElem?_take, if_pos (by omega)]
      · rw [List.getElem?_append_right (by rw [hlen]; omega), List.getElem?_append_right (by rw [hlen, hw]; omega), List.getElem?_drop, hlen, hw]
        congr 1
        omega
    · rw [if_neg hi4, if_neg hi4]

theorem round_def (p : Spec.Progpow.Params) (N w items : Nat) (dag : Nat → List U32) (l1 : Nat → U32) (r : Nat) (mix : List (List U32)) :
    Spec.Progpow.round p N w items dag l1 r mix = (List.range p.lanes).map fun l =>
      Spec.Progpow.load ((program p N w).1.foldl (Spec.Progpow.exec p l1) (mix.getD l [])) (program p N w).2
        (((dag (((mix.getD (r % p.lanes) []).getD 0 0).toNat % items)).drop ((l ^^^ r) % p.lanes * w)).take w) := rfl

/-- a round of the specification, lane by lane -/
theorem round_lane (N items : Nat) (dag : Nat → List U32) (l1 : Nat → U32) (r : Nat) (mix : List (List U32)) :
    Spec.Progpow.round standard N 4 items dag l1 r mix = (List.range 16).map fun l =>
      Spec.Progpow.load ((program standard N 4).1.foldl (Spec.Progpow.exec standard l1) (mix.getD l [])) (program standard N 4).2
        (part (dag (number mix r items)) l r) := by
  rw [round_def]
  unfold part number
  rw [show standard.lanes = 16 from rfl]

theorem lane_length (N : Nat) (l1 : Nat → U32) (mix : List (List U32)) (hm : Registers mix) (l : Nat) (hl : l < 16) :
    ((program standard N 4).1.foldl (Spec.Progpow.exec standard l1) (mix.getD l [])).length = 32 := by
  rw [foldl_exec_length]
  have h : l < mix.length := by rw [hm.1]; exact hl
  rw [List.getD_eq_getElem?_getD, List.getElem?_eq_getElem h]
  exact hm.2 _ (List.getElem_mem h)

theorem words_below (period : U64) (t : List (Nat × Nat))
    (h2 : ((program standard period.toNat 4).1.map dest ++ t.map Prod.fst).Perm (List.range 32)) : (t.map Prod.fst).Nodup ∧ ∀ d ∈ t, d.1 < 32 := by
  have hn := (h2.nodup_iff.2 List.nodup_range)
  refine ⟨(List.nodup_append.1 hn).2.1, ?_⟩
  intro d hd
  exact List.mem_range.1 (h2.mem_iff.1 (List.mem_append_right _ (List.mem_map_of_mem hd)))

end Item

section
variable (cfg : Config) (hc : cfg = kawpowCfg ∨ cfg = firopowCfg ∨ cfg = progpow094Cfg) (period : U64) (r : Nat) (hr : r < 2 ^ 32)
  (mix : List (List U32)) (hm : Registers mix) (datasetSize : U64) (hn : numItems datasetSize ≠ 0) (l1 : List U32) (hl1 : 4096 ≤ l1.length)
  (lookup lookup' : Lookup) (dag dag' : Nat → List U32) (hs : Serves lookup (numItems datasetSize) 64 dag)
include hc hr hm hn hl1 hs

theorem Item.round_eq : Progpow.round cfg period (BitVec.ofNat 32 r) mix datasetSize lookup l1 =
    .ok (Spec.Progpow.round standard period.toNat 4 (numItems datasetSize) dag (fun i => l1.getD i 0) r mix) := by
  obtain ⟨hv, hp, hL, hR, hC⟩ := three cfg hc
  have := (round_ok hv period r hr mix ⟨by rw [hL]; exact hm.1, by rw [hR]; exact hm.2⟩ datasetSize hn lookup dag
    (Serves.serving (by rw [hL]; exact hs) (by rw [hL]; decide)) l1 (by rw [hC]; exact hl1)).1
  rw [hp] at this
  exact this

/-- if no further word goes to register 0, the registers after a round and those before it determine the item that was read -/
theorem C100_keeps (hs' : Serves lookup' (numItems datasetSize) 64 dag') (h0 : 0 ∉ (words period.toNat).tail)
    (h : Progpow.round cfg period (BitVec.ofNat 32 r) mix datasetSize lookup l1 = Progpow.round cfg period (BitVec.ofNat 32 r) mix datasetSize lookup' l1) :
    dag (number mix r (numItems datasetSize)) = dag' (number mix r (numItems datasetSize)) := by
  rw [Item.round_eq cfg hc period r hr mix hm datasetSize hn l1 hl1 lookup dag hs,
    Item.round_eq cfg hc period r hr mix hm datasetSize hn l1 hl1 lookup' dag' hs', round_lane, round_lane] at h
  have h := Except.ok.inj h
  obtain ⟨s, t, e, hp, hsel, hsels, h3⟩ := program_words period
  obtain ⟨hnd, hlt⟩ := words_below period t hp
  have hi : number mix r (numItems datasetSize) < numItems datasetSize := Nat.mod_lt _ (Nat.pos_of_ne_zero hn)
  refine of_parts _ _ (hs _ hi).2 (hs' _ hi).2 r fun l hl => ?_
  have hlane := congrArg (fun m : List (List U32) => m[l]?) h
  simp only [List.getElem?_map, List.getElem?_range hl, Option.map_some] at hlane
  have hload := Option.some.inj hlane
  have hlen := lane_length period.toNat (fun i => l1.getD i 0) mix hm l hl
  unfold words at h0
  rw [e] at h0 hload
  refine load_injective _ _ _ _ ?_ ?_ ?_ ?_ hload
  · rw [List.map_cons, List.nodup_cons]; exact ⟨h0, hnd⟩
  · intro d hd
    rw [hlen]
    rcases List.mem_cons.1 hd with rfl | hd
    · exact ⟨Nat.zero_lt_succ 31, hsel⟩
    · exact ⟨hlt d hd, hsels d hd⟩
  · rw [part_length _ (hs _ hi).2, List.length_cons, h3]
  · rw [part_length _ (hs' _ hi).2, List.length_cons, h3]

/-- if one does, there is for every item another one that makes no difference -/
theorem C100_loses (h0 : 0 ∈ (words period.toNat).tail) :
    ∃ lookup' dag', Serves lookup' (numItems datasetSize) 64 dag' ∧ (∀ j, j ≠ number mix r (numItems datasetSize) → dag' j = dag j) ∧
      dag' (number mix r (numItems datasetSize)) ≠ dag (number mix r (numItems datasetSize)) ∧
      Progpow.round cfg period (BitVec.ofNat 32 r) mix datasetSize lookup' l1 = Progpow.round cfg period (BitVec.ofNat 32 r) mix datasetSize lookup l1 := by
  obtain ⟨s, t, e, hp, hsel, hsels, h3⟩ := program_words period
  obtain ⟨hnd, hlt⟩ := words_below period t hp
  have hi : number mix r (numItems datasetSize) < numItems datasetSize := Nat.mod_lt _ (Nat.pos_of_ne_zero hn)
  obtain ⟨n, hndef⟩ : ∃ n, n = number mix r (numItems datasetSize) := ⟨_, rfl⟩
  rw [← hndef] at hi ⊢
  have hitem := (hs n hi).2
  have hlen := lane_length period.toNat (fun i => l1.getD i 0) mix hm 0 (by decide)
  unfold words at h0
  rw [e] at h0
  obtain ⟨ws, hw1, hw2, hw3⟩ := load_ambiguous s t _ (part (dag n) 0 r) h0 (by
    intro d hd
    rw [hlen]
    exact ⟨hlt d hd, hsels d hd⟩) (by rw [part_length _ hitem, h3])
  rw [h3] at hw1
  obtain ⟨q, hq⟩ : ∃ q, q = (0 ^^^ r) % 16 := ⟨_, rfl⟩
  have hq16 : q < 16 := by rw [hq]; exact Nat.mod_lt _ (by decide)
  obtain ⟨item, hidef⟩ : ∃ item, item = (dag n).take (q * 4) ++ ws ++ (dag n).drop (q * 4 + 4) := ⟨_, rfl⟩
  have hil : item.length = 64 := by
    rw [hidef, List.length_append, List.length_append, List.length_take, List.length_drop, hw1, hitem]; omega
  have hpart := part_replace (dag n) ws item hitem hw1 r (by rw [hidef, hq])
  obtain ⟨dag', hdag'⟩ : ∃ dag' : Nat → List U32, dag' = fun j => if j = n then item else dag j := ⟨_, rfl⟩
  have hdn : dag' n = item := by rw [hdag']; exact if_pos rfl
  have hdj : ∀ j, j ≠ n → dag' j = dag j := by intro j hj; rw [hdag']; exact if_neg hj
  have hs' : Serves (fun x => .ok (dag' x.toNat)) (numItems datasetSize) 64 dag' := by
    intro j hj
    have hj32 : j < 2 ^ 32 := Nat.lt_of_lt_of_le hj (Nat.le_of_lt (Nat.mod_lt _ (by decide)))
    refine ⟨by dsimp only; rw [BitVec.toNat_ofNat, Nat.mod_eq_of_lt hj32], ?_⟩
    by_cases hjn : j = n
    · rw [hjn, hdn, hil]
    · rw [hdj j hjn, (hs j hj).2]
  refine ⟨_, dag', hs', hdj, ?_, ?_⟩
  · rw [hdn]
    intro heq
    have := hpart 0 (by decide)
    rw [if_pos rfl, heq] at this
    exact hw2 this.symm
  · rw [Item.round_eq cfg hc period r hr mix hm datasetSize hn l1 hl1 _ dag' hs',
      Item.round_eq cfg hc period r hr mix hm datasetSize hn l1 hl1 lookup dag hs, round_lane, round_lane, ← hndef, hdn]
    refine congrArg Except.ok (List.map_congr_left fun l hl => ?_)
    rw [hpart l (List.mem_range.1 hl)]
    by_cases hl0 : l = 0
    · subst hl0
      rw [if_pos rfl, e]
      exact hw3
    · rw [if_neg hl0]

end

namespace Item

/-- the registers before round `k` -/
def before (period items : Nat) (dag : Nat → List U32) (l1 : List U32) (seed k : Nat) : List (List U32) :=
  Spec.Progpow.roundsUpTo standard period 4 items dag (fun i => l1.getD i 0) (Spec.Progpow.fillMix standard seed) k

/-- the number of the item that round `k` of a hash reads -/
def read (period items : Nat) (dag : Nat → List U32) (l1 : List U32) (seed k : Nat) : Nat :=
  number (before period items dag l1 seed k) k items

theorem before_succ (period items : Nat) (dag : Nat → List U32) (l1 : List U32) (seed k : Nat) : before period items dag l1 seed (k + 1) =
    Spec.Progpow.round standard period 4 items dag (fun i => l1.getD i 0) k (before period items dag l1 seed k) := rfl

theorem before_registers (period items : Nat) (dag : Nat → List U32) (l1 : List U32) (seed : Nat) : ∀ k, Registers (before period items dag l1 seed k)
  | 0 => fillMix_rows kawpowCfg seed
  | k + 1 => by
    have ih := before_registers period items dag l1 seed k
    unfold before at ih ⊢
    rw [Spec.Progpow.roundsUpTo, round_lane]
    refine ⟨by rw [List.length_map, List.length_range], fun row hrow => ?_⟩
    obtain ⟨l, hl, rfl⟩ := List.mem_map.1 hrow
    rw [load_length, lane_length _ _ _ ih l (List.mem_range.1 hl)]

/-- an item that is not read does not matter -/
theorem before_congr (period items : Nat) (dag dag' : Nat → List U32) (l1 : List U32) (seed : Nat) : ∀ k,
    (∀ j < k, dag' (read period items dag l1 seed j) = dag (read period items dag l1 seed j)) →
    before period items dag' l1 seed k = before period items dag l1 seed k
  | 0, _ => rfl
  | k + 1, h => by
    have ih := before_congr period items dag dag' l1 seed k fun j hj => h j (by omega)
    have hk := h k (by omega)
    unfold read at hk
    unfold before at ih hk ⊢
    rw [Spec.Progpow.roundsUpTo, Spec.Progpow.roundsUpTo, ih, round_lane, round_lane, hk]

theorem mixHash_eq (period items : Nat) (dag : Nat → List U32) (l1 : List U32) (seed : Nat) :
    Spec.Progpow.mixHash standard period 4 items dag (fun i => l1.getD i 0) seed = Spec.Progpow.digest standard (before period items dag l1 seed 64) := by
  unfold Spec.Progpow.mixHash before
  rw [show standard.rounds = 64 from rfl]

end Item

/-- so in such a period a hash does not depend on all of the item that its last round reads, unless another round has read it -/
theorem C100_hash (cfg : Config) (hc : cfg = kawpowCfg ∨ cfg = firopowCfg ∨ cfg = progpow094Cfg) (height seed datasetSize : U64)
    (hn : numItems datasetSize ≠ 0) (l1 : List U32) (hl1 : 4096 ≤ l1.length) (lookup : Lookup) (dag : Nat → List U32)
    (hs : Serves lookup (numItems datasetSize) 64 dag) (period : U64) (hp : udiv height cfg.periodLength = .ok period) (h0 : 0 ∈ (words period.toNat).tail)
    (last : Nat) (hlast : last = Item.read period.toNat (numItems datasetSize) dag l1 seed.toNat 63)
    (hother : ∀ k < 63, Item.read period.toNat (numItems datasetSize) dag l1 seed.toNat k ≠ last) :
    ∃ lookup' dag', Serves lookup' (numItems datasetSize) 64 dag' ∧ (∀ j, j ≠ last → dag' j = dag j) ∧ dag' last ≠ dag last ∧
      Progpow.hash cfg height seed datasetSize lookup' l1 = Progpow.hash cfg height seed datasetSize lookup l1 := by
  obtain ⟨mix, hmix⟩ : ∃ mix, mix = before period.toNat (numItems datasetSize) dag l1 seed.toNat 63 := ⟨_, rfl⟩
  have hm : Registers mix := by rw [hmix]; exact before_registers _ _ _ _ _ 63
  have hnum : number mix 63 (numItems datasetSize) = last := by rw [hmix, hlast]; rfl
  obtain ⟨lookup', dag', hs', hsame, hdiff, hround⟩ :=
    C100_loses cfg hc period 63 (by decide) mix hm datasetSize hn l1 hl1 lookup dag hs h0
  rw [hnum] at hsame hdiff
  refine ⟨lookup', dag', hs', hsame, hdiff, ?_⟩
  rw [Item.round_eq cfg hc period 63 (by decide) mix hm datasetSize hn l1 hl1 lookup' dag' hs',
    Item.round_eq cfg hc period 63 (by decide) mix hm datasetSize hn l1 hl1 lookup dag hs] at hround
  have hround := Except.ok.inj hround
  have h63 := before_congr period.toNat (numItems datasetSize) dag dag' l1 seed.toNat 63 fun j hj => hsame _ (hother j hj)
  have h64 : before period.toNat (numItems datasetSize) dag' l1 seed.toNat 64 = before period.toNat (numItems datasetSize) dag l1 seed.toNat 64 := by
    rw [hmix] at hround
    rw [before_succ _ _ _ _ _ 63, before_succ _ _ _ _ _ 63, h63]
    exact hround
  obtain ⟨hv, hpar, hL, hR, hC⟩ := three cfg hc
  have hper : height.toNat / cfg.periodLength.toNat = period.toNat := by
    unfold udiv at hp
    rw [if_neg fun h => hv.period (congrArg BitVec.toNat h)] at hp
    rw [← Except.ok.inj hp, BitVec.toNat_udiv]
  rw [hash_ok hv height seed datasetSize hn lookup' dag' (by rw [hL]; exact hs') l1 (by rw [hC]; exact hl1),
    hash_ok hv height seed datasetSize hn lookup dag (by rw [hL]; exact hs) l1 (by rw [hC]; exact hl1), hpar, hper, mixHash_eq, mixHash_eq, h64]

/-- in period 0 the item is kept, in period 9 it is not: for Ravencoin these are the heights 0 to 2 and 27 to 29 -/
theorem C100_both : 0 ∉ (words (0 : U64).toNat).tail ∧ 0 ∈ (words (9 : U64).toNat).tail ∧
    ∀ height : U64, udiv height kawpowCfg.periodLength = .ok 9 ↔ 27 ≤ height.toNat ∧ height.toNat ≤ 29 := by
  refine ⟨by decide +kernel, by decide +kernel, fun height => ?_⟩
  rw [show kawpowCfg.periodLength = (3 : U64) from rfl]
  unfold udiv
  rw [if_neg (by decide)]
  constructor
  · intro h
    have h := congrArg BitVec.toNat (Except.ok.inj h)
    rw [BitVec.toNat_udiv, show (3 : U64).toNat = 3 from rfl, show (9 : U64).toNat = 9 from rfl] at h
    omega
  · intro h
    refine congrArg Except.ok (BitVec.eq_of_toNat_eq ?_)
    rw [BitVec.toNat_udiv, show (3 : U64).toNat = 3 from rfl, show (9 : U64).toNat = 9 from rfl]
    omega

-- registers, a dataset and an L1 cache that meet the hypotheses
example : Registers (List.replicate 16 (List.replicate 32 7)) ∧ numItems 1073739904 ≠ 0 ∧ 4096 ≤ (List.replicate 4096 (0 : U32)).length ∧
    Serves (fun i => .ok ((List.range 64).map fun j => BitVec.ofNat 32 (64 * i.toNat + j))) (numItems 1073739904) 64
      (fun i => (List.range 64).map fun j => BitVec.ofNat 32 (64 * (i % 2 ^ 32) + j)) := by
  refine ⟨⟨by decide, by decide⟩, by decide, by rw [List.length_replicate], fun i _ => ⟨?_, by simp⟩⟩
  simp only [BitVec.toNat_ofNat]

-- in period 9 with this dataset, an L1 cache of zeros and seed 1, round 63 reads an item that the rounds before it have not read (evaluated, not proved)
#guard (let d : Nat → List U32 := fun i => (List.range 64).map fun j => BitVec.ofNat 32 (64 * i + j)
  let reads := ((List.range 64).foldl (fun (s : List (List U32) × List Nat) k =>
    (Spec.Progpow.round standard 9 4 (numItems 1073739904) d (fun _ => 0) k s.1, number s.1 k (numItems 1073739904) :: s.2))
    (Spec.Progpow.fillMix standard 1, [])).2
  reads.length = 64 && !reads.tail.contains (reads.headD 0))

end Verif.Props
