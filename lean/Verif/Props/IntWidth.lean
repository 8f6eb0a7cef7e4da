import Verif.Proof.EquihashFacts
import Verif.Proof.IntWidth
import Verif.Props.Dag
import Verif.Props.Eaglesong

/-! # Machines with an `int` of 32 bits: property C91 -/

set_option autoImplicit false

namespace Verif.Props

open Go Dag
open Spec.Dag (seed)

attribute [local irreducible] Tables.ethashCacheSizes Tables.ethashDatasetSizes Tables.firopowDatasetSizes Tables.octopusCacheSizes
  Tables.octopusDatasetSizes

/-- numerical facts about a concrete configuration -/
local macro "cfg" : tactic => `(tactic| (simp only [ethereum, ethereumClassic, ravencoin, firo, conflux]; decide))

/-- **C91** With an `int` of 64 bits this model is the one of the other properties. -/
theorem C91_64 (P : Prims) (fuel : Nat) (d : Config) (epoch : U64) (fs : FS) (o : GenEnv)
    (h : ∀ size, cacheSize fuel d epoch = .ok size → IntWidth.Fits (2 ^ 63) d epoch size) :
    IntWidth.generate 64 P fuel d epoch fs o = generate P fuel d epoch fs o ∧
      (∀ height, IntWidth.seedHash 64 P d height = seedHash P d height) ∧
      (∀ (c : Eaglesong.Client) (input : List Byte), IntWidth.compute 64 c input = c.compute input) :=
  ⟨IntWidth.generate_eq IntWidth.holds_64 P fuel d epoch fs o h, fun height => by rw [IntWidth.seedHash_64], fun _ _ => rfl⟩

/-- **C91** With 32 bits `generate` gives the same caches and leaves the same files as with 64 bits, whatever the file system does, if the epoch,
its number of seeds, the number of caches and the sizes in bytes are below 2^31. -/
theorem C91_generate (P : Prims) (fuel : Nat) (d : Config) (epoch : U64) (fs : FS) (o : GenEnv)
    (h : ∀ size, cacheSize fuel d epoch = .ok size → IntWidth.Fits (2 ^ 31) d epoch size) :
    IntWidth.generate 32 P fuel d epoch fs o = generate P fuel d epoch fs o :=
  IntWidth.generate_eq IntWidth.holds_32 P fuel d epoch fs o h

/-- **C91** In particular for the shipped configurations, in all epochs in which the growth formula allows the cache less than 2 GiB. -/
theorem C91_shipped (P : Prims) (dir : String) (d : Config) (hd : d ∈ shipped dir) (e : U64) (he : cacheBound d e ≤ 2 ^ 31) (fuel : Nat)
    (hf : 2 ^ 63 < fuel) (fs : FS) (o : GenEnv) :
    IntWidth.generate 32 P fuel d e fs o = generate P fuel d e fs o := by
  refine C91_generate P fuel d e fs o fun size hs => ?_
  have hin : e.toNat < 2045 ∨ 2048 ≤ e.toNat := by
    by_contra hc
    have := (C33_cacheSize_panics_iff dir d hd e fuel hf).1.mpr (by omega)
    rw [this] at hs
    cases hs
  obtain ⟨s, h1, h2⟩ := C31_CacheSize dir d hd e hin (by omega) fuel hf
  rw [hs] at h1
  cases h1
  have hlt : size.toNat < 2 ^ 31 := by
    obtain ⟨p, h, _, hlt, _⟩ := h2
    omega
  have key : d.cacheGrowthBytes.toNat ≥ 2 ^ 16 ∧ d.epochLength.toNat ≤ 2 ^ 19 ∧ d.seedEpochLength.toNat ≥ 1300 ∧
      (d.l1Enabled = true → d.l1CacheSize.toNat < 2 ^ 31 ∧ 4 * d.l1CacheNumItems.toNat < 2 ^ 31) ∧ d.cachesCount = 3 := by
    simp only [shipped, List.mem_cons, List.not_mem_nil, or_false] at hd
    rcases hd with rfl | rfl | rfl | rfl | rfl <;> exact ⟨by cfg, by cfg, by cfg, by cfg, rfl⟩
  obtain ⟨k1, k2, k3, k5, k6⟩ := key
  have h16 : 2 ^ 16 * e.toNat ≤ d.cacheGrowthBytes.toNat * e.toNat := Nat.mul_le_mul_right _ k1
  unfold cacheBound at he
  have hm : e.toNat * d.epochLength.toNat ≤ e.toNat * 2 ^ 19 := Nat.mul_le_mul_left _ k2
  refine ⟨by omega, ?_, by omega, hlt, k5, by omega⟩
  refine Nat.lt_of_le_of_lt (Nat.div_le_div (Nat.le_refl _) k3 (by omega)) (by omega)

/-- **C91** The seed with 32 bits, for every height: the number of seed epochs is reduced modulo 2^32, and none is left if the remainder is
2^31 or more. -/
theorem C91_seed (P : Prims) (d : Config) (hd : d.seedEpochLength ≠ 0) (height : U64) :
    IntWidth.seedHash 32 P d height =
      .ok (seed P.keccak256 (let q := height.toNat / d.seedEpochLength.toNat % 2 ^ 32; if q < 2 ^ 31 then q else 0)) := by
  obtain ⟨q, hq⟩ : ∃ q, q = height.toNat / d.seedEpochLength.toNat := ⟨_, rfl⟩
  rw [← hq]
  have hn : (IntWidth.toInt 32 q).toNat = if q % 2 ^ 32 < 2 ^ 31 then q % 2 ^ 32 else 0 := by
    unfold IntWidth.toInt
    by_cases h : q % 2 ^ 32 < 2 ^ 31
    · rw [if_pos h]; omega
    · rw [if_neg h]; omega
  dsimp only
  rw [← hn]
  unfold IntWidth.seedHash
  dsimp only
  by_cases hlt : height < d.seedEpochLength
  · have h0 : q = 0 := by rw [hq]; exact Nat.div_eq_of_lt hlt
    rw [if_pos hlt, h0]
    rfl
  · rw [if_neg hlt]
    unfold udiv
    rw [if_neg hd, ok_bind, BitVec.toNat_udiv, ← hq]
    exact seedHash_loop P _

/-- **C91** `calcN` of Autolykos2 and the number of items of a dataset entry do not depend on the width. -/
theorem C91_small (nBase : U32) (height : U64) (P : Prims) (parents : U32) (cache : List U32) (index size : U32) (hs : size.toNat ≤ 4) :
    IntWidth.calcN 32 nBase height = Autolykos.calcN nBase height ∧
      IntWidth.generateDatasetItemUint 32 P parents cache index size = generateDatasetItemUint P parents cache index size := by
  refine ⟨?_, IntWidth.generateDatasetItemUint_eq IntWidth.holds_32 P parents cache index size (by omega)⟩
  unfold IntWidth.calcN Autolykos.calcN
  by_cases h1 : height > Autolykos.nIncreasementHeightMax
  · rw [if_pos h1, if_pos h1]
  · rw [if_neg h1, if_neg h1]
    by_cases h2 : height ≥ Autolykos.increaseStart
    · rw [if_pos h2, if_pos h2]
      have hb : ((height - Autolykos.increaseStart) / Autolykos.increasePeriodForN + 1).toNat < 2 ^ 31 := by
        have e1 : height.toNat ≤ 4198400 := by
          have := h1
          simp only [gt_iff_lt, BitVec.lt_def, Autolykos.nIncreasementHeightMax, Nat.not_lt] at this
          exact this
        have e2 : Autolykos.increaseStart.toNat ≤ height.toNat := h2
        have e3 : (height - Autolykos.increaseStart).toNat ≤ 4198400 := by
          rw [BitVec.toNat_sub_of_le h2]
          omega
        rw [BitVec.toNat_add, BitVec.toNat_udiv]
        have : (height - Autolykos.increaseStart).toNat / Autolykos.increasePeriodForN.toNat ≤ 4198400 := (Nat.div_le_self _ _).trans e3
        show ((height - Autolykos.increaseStart).toNat / Autolykos.increasePeriodForN.toNat + 1) % 2 ^ 64 < 2 ^ 31
        rw [Nat.mod_eq_of_lt (by omega)]
        omega
      rw [IntWidth.toInt_32 _ (by omega) (by omega), Int.toNat_natCast]
    · rw [if_neg h2, if_neg h2]

/-- **C91** The lengths of BLAKE2b digests that Equihash converts to `int` fit into 32 bits, for all parameters. -/
theorem C91_equihash (n h : Nat) (e : Equihash.hashOutput n = .ok h) : IntWidth.toInt 32 h = h := by
  unfold Equihash.hashOutput Equihash.indicesPerHashOutput Equihash.divN at e
  by_cases h0 : n = 0
  · rw [if_pos h0] at e
    cases e
  · rw [if_neg h0, ok_bind] at e
    have e' : Equihash.u32 (512 / n * (Equihash.u32 (n + 7) / 8)) = h := Except.ok.inj e
    have h1 : Equihash.u32 (n + 7) / 8 ≤ n := by unfold Equihash.u32; omega
    have h2 : 512 / n * (Equihash.u32 (n + 7) / 8) ≤ 512 := (Nat.mul_le_mul_left _ h1).trans (Nat.div_mul_le_self 512 n)
    have h3 : h ≤ 512 := by
      rw [← e']
      exact (Nat.mod_le _ _).trans h2
    exact IntWidth.toInt_32 _ (by omega) (by omega)

/-! ## Eaglesong -/

/-- the number of blocks that are absorbed of an input of `n` bytes when the sum has 32 bits -/
def blocks32 (n : Nat) : Nat := let x := (8 * (n + 1) + 255) % 2 ^ 32; if x < 2 ^ 31 then x / 256 else 0

/-- the first eight words of a state, little-endian -/
def firstWords (s : List U32) : List Byte := (List.range 8).flatMap fun j => Spec.leEncode 4 (Spec.Eaglesong.word s j).toNat

theorem negative_blocks (y : Int) (h : y < 0) : (y.tdiv 256).toNat = 0 := by
  have h1 : y.tdiv 256 = -((-y).tdiv 256) := by rw [← Int.neg_tdiv, Int.neg_neg]
  have h2 := Int.tdiv_nonneg (show 0 ≤ -y by omega) (show (0 : Int) ≤ 256 by omega)
  omega

theorem eaglesong32 (rounds : Int) (hr : rounds ≤ 43) (delim : Byte) (input : List Byte) (k : Nat)
    (hb : ((IntWidth.toInt 32 (((input.length : Int) + 1) * 8 + 256 - 1)).tdiv 256).toNat = k) :
    IntWidth.eaglesong 32 rounds 32 256 delim input = .ok (firstWords (Spec.Eaglesong.absorbed rounds.toNat delim input k)) := by
  have hr' : rounds.toNat ≤ 43 := by omega
  unfold IntWidth.eaglesong
  simp only []
  rw [if_neg (by omega), hb, show (256 : Int).toNat = 256 from rfl, Eaglesong.absorb_loop rounds.toNat hr', ok_bind, if_neg (by omega),
    if_neg (by decide), show ((32 : Int).tdiv ((256 : Int).tdiv 8)).toNat = 0 + 1 from rfl, firstWords, Eaglesong.squeeze_eq]
  have := Eaglesong.squeeze_loop rounds.toNat hr' _ (Eaglesong.absorbed_length rounds.toNat delim input k)
  simp only [forRange, loop, show (32 : Int).toNat = 32 from rfl, this, ok_bind, Nat.sub_zero, Nat.zero_add]
  rfl

/-- **C91** What `Compute` returns on a machine of 32 bits, for every input: the digest after `blocks32` blocks. -/
theorem C91_nervos (input : List Byte) :
    IntWidth.compute 32 Eaglesong.newNervos input = .ok (firstWords (Spec.Eaglesong.absorbed 43 0x06 input (blocks32 input.length))) := by
  have hb : ((IntWidth.toInt 32 (((input.length : Int) + 1) * 8 + 256 - 1)).tdiv 256).toNat = blocks32 input.length := by
    unfold blocks32 IntWidth.toInt
    dsimp only
    by_cases h : (8 * (input.length + 1) + 255) % 2 ^ 32 < 2 ^ 31
    · rw [if_pos h, Int.tdiv_eq_ediv_of_nonneg (by omega)]
      omega
    · rw [if_neg h]
      exact negative_blocks _ (by omega)
  exact eaglesong32 43 (by omega) 0x06 input _ hb

/-- **C91** Inputs of less than 2^28 - 32 bytes have the digest that they have on the other machines, … -/
theorem C91_nervos_same (input : List Byte) (h : input.length < 2 ^ 28 - 32) :
    IntWidth.compute 32 Eaglesong.newNervos input = Eaglesong.newNervos.compute input := by
  rw [C91_nervos, (C57_compute input (by omega)).1]
  have : blocks32 input.length = Spec.Eaglesong.blocks input := by
    unfold blocks32 Spec.Eaglesong.blocks
    dsimp only
    rw [if_pos (by omega)]
    omega
  rw [this]
  rfl

/-- **C91** … all inputs from there to 2^29 - 1 bytes have one and the same digest, … -/
theorem C91_nervos_collide (a b : List Byte) (ha : 2 ^ 28 - 32 ≤ a.length) (ha' : a.length < 2 ^ 29) (hb : 2 ^ 28 - 32 ≤ b.length)
    (hb' : b.length < 2 ^ 29) :
    IntWidth.compute 32 Eaglesong.newNervos a = IntWidth.compute 32 Eaglesong.newNervos b := by
  have h0 : ∀ n, 2 ^ 28 - 32 ≤ n → n < 2 ^ 29 → blocks32 n = 0 := by
    intro n h1 h2
    unfold blocks32
    dsimp only
    by_cases h : (8 * (n + 1) + 255) % 2 ^ 32 < 2 ^ 31
    · rw [if_pos h]; omega
    · rw [if_neg h]
  rw [C91_nervos, C91_nervos, h0 _ ha ha', h0 _ hb hb']
  rfl

/-- **C91** … and of an input of 2^29 bytes or more (up to 2^29 + 2^28 - 33) only the first 32 (n - 2^29 + 32) / 32 bytes and no delimiter
count: two inputs with a common prefix collide. -/
theorem C91_nervos_prefix (p a b : List Byte) (h : a.length = b.length) (h1 : 2 ^ 29 ≤ (p ++ a).length)
    (hp : (p ++ a).length + 32 ≤ 2 ^ 29 + p.length) :
    IntWidth.compute 32 Eaglesong.newNervos (p ++ a) = IntWidth.compute 32 Eaglesong.newNervos (p ++ b) := by
  have hk : ∀ n, 2 ^ 29 ≤ n → 32 * blocks32 n + 2 ^ 29 ≤ n + 32 := by
    intro n hn
    unfold blocks32
    dsimp only
    by_cases hx : (8 * (n + 1) + 255) % 2 ^ 32 < 2 ^ 31
    · rw [if_pos hx]; omega
    · rw [if_neg hx]; omega
  have hlen : (p ++ b).length = (p ++ a).length := by rw [List.length_append, List.length_append, h]
  have hk' := hk _ h1
  rw [C91_nervos, C91_nervos, hlen]
  obtain ⟨k, hke⟩ : ∃ k, k = blocks32 (p ++ a).length := ⟨_, rfl⟩
  rw [← hke] at hk' ⊢
  refine congrArg (fun s => Except.ok (firstWords s)) ?_
  have hword : ∀ w, 4 * w + 4 ≤ p.length → Spec.Eaglesong.messageWord 0x06 (p ++ a) w = Spec.Eaglesong.messageWord 0x06 (p ++ b) w := by
    intro w hw
    unfold Spec.Eaglesong.messageWord
    rw [List.append_assoc, List.append_assoc, List.drop_append_of_le_length (by omega), List.drop_append_of_le_length (by omega),
      List.take_append_of_le_length (by rw [List.length_drop]; omega), List.take_append_of_le_length (by rw [List.length_drop]; omega)]
  have hall : ∀ m, 32 * m ≤ p.length → Spec.Eaglesong.absorbed 43 0x06 (p ++ a) m = Spec.Eaglesong.absorbed 43 0x06 (p ++ b) m := by
    intro m
    induction m with
    | zero => intro _; rfl
    | succ m ih =>
      intro hm
      show Spec.Eaglesong.absorb 43 0x06 (p ++ a) m _ = Spec.Eaglesong.absorb 43 0x06 (p ++ b) m _
      rw [ih (by omega)]
      unfold Spec.Eaglesong.absorb
      refine congrArg _ (List.map_congr_left fun j _ => ?_)
      by_cases hj : j < 8
      · rw [if_pos hj, if_pos hj, hword _ (by omega)]
      · rw [if_neg hj, if_neg hj]
  exact hall k (by omega)

/-! ## concrete cases -/

/-- epoch 400 of Ethereum: the cache has less than 2 GiB -/
example (dir : String) : ethereum dir ∈ shipped dir ∧ cacheBound (ethereum dir) 400 ≤ 2 ^ 31 :=
  ⟨by simp [shipped], by unfold cacheBound; cfg⟩

/-- the last epoch with less than 2 GiB is 16256 for four of the configurations -/
example (dir : String) : cacheBound (firo dir) 16256 ≤ 2 ^ 31 ∧ ¬ cacheBound (firo dir) 16257 ≤ 2 ^ 31 := by
  constructor <;> (unfold cacheBound; cfg)

/-- a height whose seed differs: 2^31 seed epochs of Ethereum -/
example (P : Prims) (dir : String) : IntWidth.seedHash 32 P (ethereum dir) (64424509440000) = .ok (seed P.keccak256 0) ∧
    seedHash P (ethereum dir) (64424509440000) = .ok (seed P.keccak256 (2 ^ 31)) := by
  refine ⟨?_, ?_⟩
  · rw [C91_seed P _ (by cfg), show (ethereum dir).seedEpochLength = 30000 from rfl]
    exact congrArg (fun n => Except.ok (seed P.keccak256 n)) (by decide)
  · rw [C36_seedHash P _ (by cfg) _ (by cfg)]
    exact congrArg (fun n => Except.ok (seed P.keccak256 n)) (by cfg)

/-- two different messages of 2^28 bytes with the same digest on a machine of 32 bits -/
example : (List.replicate (2 ^ 28) 0 : List Byte) ≠ List.replicate (2 ^ 28) 1 ∧
    IntWidth.compute 32 Eaglesong.newNervos (List.replicate (2 ^ 28) 0) = IntWidth.compute 32 Eaglesong.newNervos (List.replicate (2 ^ 28) 1) := by
  refine ⟨fun h => ?_, C91_nervos_collide _ _ (by rw [List.length_replicate]; omega) (by rw [List.length_replicate]; omega)
    (by rw [List.length_replicate]; omega) (by rw [List.length_replicate]; omega)⟩
  obtain ⟨n, hn⟩ : ∃ n : Nat, 2 ^ 28 = n + 1 := ⟨2 ^ 28 - 1, by omega⟩
  rw [hn] at h
  exact absurd (List.cons.inj h).1 (by decide)

/-- two different messages of 2^29 + 32 bytes with a common prefix of 64 bytes and the same digest -/
example : IntWidth.compute 32 Eaglesong.newNervos (List.replicate 64 7 ++ List.replicate (2 ^ 29 - 32) 0) =
    IntWidth.compute 32 Eaglesong.newNervos (List.replicate 64 7 ++ List.replicate (2 ^ 29 - 32) 1) :=
  C91_nervos_prefix _ _ _ (by rw [List.length_replicate, List.length_replicate])
    (by rw [List.length_append, List.length_replicate, List.length_replicate]; omega)
    (by rw [List.length_append, List.length_replicate, List.length_replicate]; omega)

/-- Equihash 200, 9: digests of 50 bytes -/
example : Equihash.hashOutput 200 = .ok 50 := by decide

end Verif.Props
