import Verif.Proof.ProgpowParams
import Verif.Proof.Generate

/-! # ProgPoW with a configuration of one's own: property C97

`progpow.Hash` takes any `Config`. Here is for which of them it returns, how it fails for the others, and that what it returns is the published
computation unless 32-bit numbers wrap around. -/

set_option autoImplicit false

namespace Verif.Props

open Go Progpow

/-- the configuration makes sense for a dataset of that many bytes: a period that is not zero, and, unless there is no round, a lane, a
register, an item of the dataset (256 bytes, counted with 32 bits), a word of the L1 cache if it is accessed, and a second register if there
are operations with two of them -/
def Sensible (c : IntConfig) (size : Nat) : Prop :=
  c.periodLength ≠ 0 ∧
  (0 < c.roundCount → 0 < c.laneCount ∧ 0 < c.registerCount ∧ size / 256 % 2 ^ 32 ≠ 0 ∧ (0 < c.roundCacheAccesses → 4 ≤ c.cacheBytes.toNat) ∧
    (0 < c.roundMathOperations → 2 ≤ c.registerCount))

/-- the two lengths given to `make` that may be negative are not -/
def Countable (c : IntConfig) : Prop := 0 ≤ c.laneCount ∧ (0 < c.laneCount → 0 ≤ c.registerCount)

section
variable (c : IntConfig) (height seed datasetSize : U64) (lookup : Lookup) (l1 : List U32)

/-- **C97** A negative number of lanes, or of registers if there is a lane, makes `make` panic. -/
theorem C97_negative : ¬ Countable c → hashInt c height seed datasetSize lookup l1 = .error (.panic .explicit) := by
  intro h
  rw [hashInt]
  by_cases h1 : c.laneCount < 0
  · rw [if_pos h1]; rfl
  · by_cases h2 : 0 < c.laneCount ∧ c.registerCount < 0
    · rw [if_neg h1, if_pos h2]; rfl
    · exact absurd ⟨by omega, fun h3 => by by_contra h4; exact h2 ⟨h3, by omega⟩⟩ h

theorem hashInt_nat (h : Countable c) : hashInt c height seed datasetSize lookup l1 = hash c.nat height seed datasetSize lookup l1 := by
  rw [hashInt, if_neg (by have := h.1; omega), if_neg (fun h' => by have := h.2 h'.1; omega)]

variable (hL : c.laneCount < 2 ^ 32) (hR : c.registerCount < 2 ^ 32) (hlk : Answers lookup) (hl1 : c.cacheBytes.toNat / 4 ≤ l1.length)
  (h : Countable c)
include hL hR hlk hl1 h

/-- **C97** For every other configuration, with up to 2^32 - 1 lanes and registers, a dataset that answers every request with any number of words and an L1
cache of at least `CacheBytes`: `Hash` returns 32 bytes if the configuration makes sense; … -/
theorem C97_returns (hs : Sensible c datasetSize.toNat) :
    ∃ b, hashInt c height seed datasetSize lookup l1 = .ok b ∧ b.length = 32 := by
  obtain ⟨hp, hr⟩ := hs
  rw [hashInt_nat c height seed datasetSize lookup l1 h]
  refine hash_total c.nat height seed datasetSize lookup l1 hp fun i mix hi hm => ?_
  have hi : i < c.roundCount.toNat := hi
  obtain ⟨h1, h2, h3, h4, h5⟩ := hr (by omega)
  exact round_total (cfg := c.nat) (show 0 < c.registerCount.toNat by omega) (show c.registerCount.toNat < 2 ^ 32 by omega)
    (show c.laneCount.toNat < 2 ^ 32 by omega) (show 0 < c.laneCount.toNat by omega) l1 hl1
    (fun (h : 0 < c.roundCacheAccesses.toNat) => h4 (by omega))
    (fun (h : 0 < c.roundMathOperations.toNat) => show 2 ≤ c.registerCount.toNat by have := h5 (by omega); omega)
    _ _ mix hm datasetSize h3 lookup hlk

omit hR hlk hl1 in
/-- **C97** … if there are rounds and lanes but no registers, it panics with an index out of range; … -/
theorem C97_index (hp : c.periodLength ≠ 0) (hr : 0 < c.roundCount) (hl : 0 < c.laneCount) (h0 : c.registerCount = 0) :
    hashInt c height seed datasetSize lookup l1 = .error (.panic .index) := by
  rw [hashInt_nat c height seed datasetSize lookup l1 h]
  refine hash_fails c.nat height seed datasetSize lookup l1 hp (show 0 < c.roundCount.toNat by omega) _ fun mix hm => ?_
  exact round_regs c.nat datasetSize lookup l1 _ mix hm (show c.laneCount.toNat < 2 ^ 32 by omega) (show 0 < c.laneCount.toNat by omega)
    (show c.registerCount.toNat = 0 by omega)

/-- **C97** … and in all other cases it divides by zero. -/
theorem C97_divides (hs : ¬ Sensible c datasetSize.toNat)
    (hi : ¬ (c.periodLength ≠ 0 ∧ 0 < c.roundCount ∧ 0 < c.laneCount ∧ c.registerCount = 0)) :
    hashInt c height seed datasetSize lookup l1 = .error (.panic .divZero) := by
  rw [hashInt_nat c height seed datasetSize lookup l1 h]
  by_cases hp : c.periodLength = 0
  · exact hash_period c.nat height seed datasetSize lookup l1 hp
  have hr : 0 < c.roundCount := by
    by_contra hr
    exact hs ⟨hp, fun h => absurd h hr⟩
  refine hash_fails c.nat height seed datasetSize lookup l1 hp (show 0 < c.roundCount.toNat by omega) _ fun mix hm => ?_
  by_cases hl : c.laneCount = 0
  · exact round_lanes c.nat datasetSize lookup l1 _ mix (show c.laneCount.toNat = 0 by omega)
  have hl : 0 < c.laneCount := by have := h.1; omega
  have hreg : 0 < c.registerCount := by
    have := h.2 hl
    have : c.registerCount ≠ 0 := fun h0 => hi ⟨hp, hr, hl, h0⟩
    omega
  have hL' : c.nat.laneCount < 2 ^ 32 := show c.laneCount.toNat < 2 ^ 32 by omega
  have hL0 : 0 < c.nat.laneCount := show 0 < c.laneCount.toNat by omega
  have hR0 : 0 < c.nat.registerCount := show 0 < c.registerCount.toNat by omega
  have hR' : c.nat.registerCount < 2 ^ 32 := show c.registerCount.toNat < 2 ^ 32 by omega
  by_cases hn : numItems datasetSize = 0
  · exact round_items c.nat datasetSize lookup l1 _ mix hm hL' hL0 hR0 hR' hn
  by_cases hc : 0 < c.roundCacheAccesses ∧ c.cacheBytes.toNat < 4
  · have hc0 : 0 < c.nat.roundCacheAccesses := show 0 < c.roundCacheAccesses.toNat by omega
    exact round_op c.nat datasetSize lookup l1 _ mix hm hL' hL0 hR0 hR' hn hlk (by omega) _ fun st hst =>
      op_cache c.nat l1 mix hm hL0 hR0 hc0 hc.2 st hst
  · have hc' : 0 < c.nat.roundCacheAccesses → 4 ≤ c.nat.cacheBytes.toNat := fun (h : 0 < c.roundCacheAccesses.toNat) => by
      have : ¬ c.cacheBytes.toNat < 4 := fun h' => hc ⟨by omega, h'⟩
      show 4 ≤ c.cacheBytes.toNat
      omega
    have hm0 : 0 < c.roundMathOperations ∧ c.registerCount < 2 := by
      by_contra hm0
      refine hs ⟨hp, fun _ => ⟨hl, hreg, hn, fun h' => ?_, fun h' => ?_⟩⟩
      · by_contra h''; exact hc ⟨h', by omega⟩
      · by_contra h''; exact hm0 ⟨h', by omega⟩
    have hm1 : 0 < c.nat.roundMathOperations := show 0 < c.roundMathOperations.toNat by omega
    exact round_op c.nat datasetSize lookup l1 _ mix hm hL' hL0 hR0 hR' hn hlk (by omega) _ fun st hst =>
      op_math c.nat l1 mix hm hm1 (show c.registerCount.toNat = 1 by omega) hl1 hc' st hst

end

/-- **C97** So `Hash` returns exactly for the configurations that make sense. -/
theorem C97_iff (c : IntConfig) (height seed datasetSize : U64) (lookup : Lookup) (l1 : List U32) (hL : c.laneCount < 2 ^ 32)
    (hR : c.registerCount < 2 ^ 32) (hlk : Answers lookup) (hl1 : c.cacheBytes.toNat / 4 ≤ l1.length) :
    (∃ b, hashInt c height seed datasetSize lookup l1 = .ok b) ↔ Countable c ∧ Sensible c datasetSize.toNat := by
  constructor
  · rintro ⟨b, hb⟩
    by_cases h : Countable c
    · refine ⟨h, ?_⟩
      by_contra hs
      by_cases hi : c.periodLength ≠ 0 ∧ 0 < c.roundCount ∧ 0 < c.laneCount ∧ c.registerCount = 0
      · rw [C97_index c height seed datasetSize lookup l1 hL h hi.1 hi.2.1 hi.2.2.1 hi.2.2.2] at hb; cases hb
      · rw [C97_divides c height seed datasetSize lookup l1 hL hR hlk hl1 h hs hi] at hb; cases hb
    · rw [C97_negative c height seed datasetSize lookup l1 h] at hb; cases hb
  · rintro ⟨h, hs⟩
    obtain ⟨b, hb, _⟩ := C97_returns c height seed datasetSize lookup l1 hL hR hlk hl1 h hs
    exact ⟨b, hb⟩

/-- **C97** Without rounds the height, the dataset and the L1 cache have no influence. -/
theorem C97_no_rounds (c : IntConfig) (hp : c.periodLength ≠ 0) (hr : c.roundCount ≤ 0) (seed height height' size size' : U64)
    (lookup lookup' : Lookup) (l1 l1' : List U32) :
    hashInt c height seed size lookup l1 = hashInt c height' seed size' lookup' l1' := by
  have h0 : c.nat.roundCount = 0 := show c.roundCount.toNat = 0 by omega
  by_cases h : Countable c
  · rw [hashInt_nat _ _ _ _ _ _ h, hashInt_nat _ _ _ _ _ _ h]
    have hz : ∀ (m : List (List U32)) (f : Nat → List (List U32) → Go (List (List U32))), forRange 0 0 m f = .ok m := fun _ _ => rfl
    unfold Progpow.hash
    rw [initMix_ok, ok_bind, ok_bind, udiv, udiv, if_neg (show c.nat.periodLength ≠ 0 from hp), if_neg (show c.nat.periodLength ≠ 0 from hp),
      ok_bind, ok_bind, h0, hz, hz]
  · rw [C97_negative _ _ _ _ _ _ h, C97_negative _ _ _ _ _ _ h]

/-- the numbers of a configuration and of the words per lane of an item for which no 32-bit number of the code wraps around -/
def Within (c : IntConfig) (w : Nat) : Prop :=
  c.laneCount * w < 2 ^ 32 ∧ (0 < c.roundMathOperations → c.registerCount ≤ 2 ^ 16) ∧
    2 * max c.roundCacheAccesses.toNat c.roundMathOperations.toNat + w < 2 ^ 32 ∧ c.roundCount ≤ 2 ^ 32

/-- **C97** What `Hash` returns is the published computation with these parameters, as long as the 32-bit counters do not wrap around. The items of the
dataset may be larger than `w` words for each lane; the rest is not used. -/
theorem C97_value (c : IntConfig) (height seed datasetSize : U64) (lookup : Lookup) (l1 : List U32) (hL : c.laneCount < 2 ^ 32)
    (hR : c.registerCount < 2 ^ 32) (hl1 : c.cacheBytes.toNat / 4 ≤ l1.length) (h : Countable c) (hs : Sensible c datasetSize.toNat) (w : Nat)
    (hw : Within c w) (dag : Nat → List U32)
    (hlk : ∀ i : U32, i.toNat < datasetSize.toNat / 256 % 2 ^ 32 → lookup i = .ok (dag i.toNat) ∧ (dag i.toNat).length / c.laneCount.toNat = w) :
    hashInt c height seed datasetSize lookup l1 =
      .ok (Spec.Ethash.bytes (Spec.Progpow.mixHash
        { lanes := c.laneCount.toNat, regs := c.registerCount.toNat, cacheWords := c.cacheBytes.toNat / 4, rounds := c.roundCount.toNat,
          cntCache := c.roundCacheAccesses.toNat, cntMath := c.roundMathOperations.toNat }
        (height.toNat / c.periodLength.toNat) w (datasetSize.toNat / 256 % 2 ^ 32) dag (fun i => l1.getD i 0) seed.toNat)) := by
  obtain ⟨hp, hr⟩ := hs
  obtain ⟨w1, w2, w3, w4⟩ := hw
  have hp0 : c.nat.periodLength.toNat ≠ 0 := fun h0 => hp (BitVec.eq_of_toNat_eq h0)
  rw [hashInt_nat c height seed datasetSize lookup l1 h, Dag.bytes_eq]
  by_cases h0 : 0 < c.roundCount
  · obtain ⟨r1, r2, r3, r4, r5⟩ := hr h0
    have hv : c.nat.Valid w := {
      lanes := show 1 ≤ c.laneCount.toNat by omega
      item := by
        have h1 : ((c.laneCount.toNat * w : Nat) : Int) = c.laneCount * w := by rw [Nat.cast_mul, Int.toNat_of_nonneg (by omega)]
        show c.laneCount.toNat * w < 2 ^ 32
        omega
      lanes' := show c.laneCount.toNat < 2 ^ 32 by omega
      regs := show 1 ≤ c.registerCount.toNat by omega
      regs' := show c.registerCount.toNat < 2 ^ 32 by omega
      math := fun (h : 0 < c.roundMathOperations.toNat) =>
        show 2 ≤ c.registerCount.toNat ∧ c.registerCount.toNat ≤ 2 ^ 16 from by
          have := w2 (by omega)
          have := r5 (by omega)
          omega
      cache := fun (h : 0 < c.roundCacheAccesses.toNat) => r4 (by omega)
      ops := w3
      rounds := show c.roundCount.toNat ≤ 2 ^ 32 by omega
      period := hp0 }
    exact hash_serving hv height seed datasetSize r3 lookup dag (fun i hi => by
      have h32 : i < 2 ^ 32 := Nat.lt_trans hi (Nat.mod_lt _ (by omega))
      have hin : (BitVec.ofNat 32 i).toNat = i := by rw [BitVec.toNat_ofNat]; omega
      have := hlk (BitVec.ofNat 32 i) (by rw [hin]; exact hi)
      rwa [hin] at this) l1 hl1
  · have hz : c.nat.roundCount = 0 := show c.roundCount.toNat = 0 by omega
    refine hash_of_rounds hp0 height seed datasetSize _ lookup dag l1 ⟨_, ?_, fillMix_rows c.nat seed.toNat, ?_⟩
    · rw [hz]; rfl
    · rw [hz]; rfl

/-! ## Configurations that meet the hypotheses -/

/-- one lane, one register, no operations; the items of the dataset have three words -/
example : Countable ⟨1, 0, 0, 1, 1, 5, -1, 0⟩ ∧ Sensible ⟨1, 0, 0, 1, 1, 5, -1, 0⟩ 256 ∧ Answers fun _ => .ok [1, 2, 3] :=
  ⟨⟨by decide, by decide⟩, ⟨by decide, fun _ => ⟨by decide, by decide, by decide, fun h => absurd h (by decide), fun h => absurd h (by decide)⟩⟩,
    fun _ => ⟨_, rfl, by decide⟩⟩

/-- it is within the limits for the three words -/
example : Within ⟨1, 0, 0, 1, 1, 5, -1, 0⟩ 3 ∧ (∀ i : U32, i.toNat < (256 : U64).toNat / 256 % 2 ^ 32 →
    (fun _ => .ok [1, 2, 3] : Lookup) i = .ok ((fun _ => [1, 2, 3] : Nat → List U32) i.toNat) ∧ [1, 2, 3].length / Int.toNat 1 = 3) :=
  ⟨⟨by decide, fun h => absurd h (by decide), by decide, by decide⟩, fun _ _ => ⟨rfl, rfl⟩⟩

/-- the published parameters, with a period -/
example : Countable ⟨10, 4, 16384, 16, 32, 64, 11, 18⟩ ∧ Sensible ⟨10, 4, 16384, 16, 32, 64, 11, 18⟩ 1073739904 ∧
    ¬ Sensible ⟨10, 4, 3, 16, 32, 64, 11, 18⟩ 1073739904 ∧ ¬ Sensible ⟨10, 4, 16384, 16, 1, 64, 11, 18⟩ 1073739904 ∧
    ¬ Countable ⟨10, 4, 16384, 16, -32, 64, 11, 18⟩ :=
  ⟨⟨by decide, by decide⟩, ⟨by decide, fun _ => ⟨by decide, by decide, by decide, fun _ => by decide, fun _ => by decide⟩⟩,
    fun h => absurd ((h.2 (by decide)).2.2.2.1 (by decide)) (by decide), fun h => absurd ((h.2 (by decide)).2.2.2.2 (by decide)) (by decide),
    fun h => absurd (h.2 (by decide)) (by decide)⟩

end Verif.Props
