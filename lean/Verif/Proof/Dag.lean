import Verif.Proof.Generate
import Verif.Model.Configs
import Verif.Spec.Dag
import Mathlib.Data.Nat.Prime.Basic
import Mathlib.Tactic.NormNum.Prime

/-! # Sizes, epochs, seeds -/

set_option autoImplicit false

namespace Verif.Dag

open Go Spec.Dag

attribute [local irreducible] Tables.ethashCacheSizes Tables.ethashDatasetSizes Tables.firopowDatasetSizes Tables.octopusCacheSizes
  Tables.octopusDatasetSizes

/-! ## Walking down the odd numbers -/

/-- the common shape of the two loops -/
def walkStep (u : U64) (size : U64) : Go (Step U64 U64) :=
  if probablyPrime (size / u) then .ok (.ret size) else .ok (.cont (size - 2 * u))

theorem cacheSizeStep_eq : cacheSizeStep = walkStep 64 := rfl

theorem datasetSizeStep_eq (d : Config) (h : d.mixBytes ≠ 0) : datasetSizeStep d = walkStep d.mixBytes := by
  funext s
  rw [datasetSizeStep, walkStep, udiv, if_neg h, ok_bind]

theorem toNat_mul_div (u : Nat) (hu : 0 < u) (n : Nat) (h : u * n < 2 ^ 64) :
    (BitVec.ofNat 64 (u * n) / BitVec.ofNat 64 u : U64).toNat = n := by
  rcases Nat.eq_zero_or_pos n with rfl | hn
  · simp
  have : u < 2 ^ 64 := Nat.lt_of_le_of_lt (Nat.le_mul_of_pos_right u hn) h
  rw [BitVec.toNat_udiv, BitVec.toNat_ofNat, BitVec.toNat_ofNat, Nat.mod_eq_of_lt h, Nat.mod_eq_of_lt this, Nat.mul_div_cancel_left n hu]

theorem walkStep_prime (u : Nat) (hu : 0 < u) (n : Nat) (h : u * n < 2 ^ 64) (hp : n.Prime) :
    walkStep (BitVec.ofNat 64 u) (BitVec.ofNat 64 (u * n)) = .ok (.ret (BitVec.ofNat 64 (u * n))) := by
  rw [walkStep, if_pos]
  rw [probablyPrime, toNat_mul_div u hu n h]
  simpa using hp

theorem walkStep_composite (u : Nat) (hu : 0 < u) (n : Nat) (h : u * n < 2 ^ 64) (hp : ¬ n.Prime) :
    walkStep (BitVec.ofNat 64 u) (BitVec.ofNat 64 (u * n)) = .ok (.cont (BitVec.ofNat 64 (u * n) - 2 * BitVec.ofNat 64 u)) := by
  rw [walkStep, if_neg]
  rw [probablyPrime, toNat_mul_div u hu n h]
  simpa using hp

/-- from an odd number of rows the walk finds the largest prime that is not above it -/
theorem walk (u : Nat) (hu : 0 < u) (k : Nat) : u * (2 * k + 3) < 2 ^ 64 → ∀ fuel : Nat, k < fuel →
    ∃ p, forever fuel (BitVec.ofNat 64 (u * (2 * k + 3))) (walkStep (BitVec.ofNat 64 u)) = .ok (BitVec.ofNat 64 (u * p)) ∧
      LargestPrimeBelow (2 * k + 4) p := by
  induction k with
  | zero =>
    intro h fuel hf
    obtain ⟨f, rfl⟩ : ∃ f, fuel = f + 1 := ⟨fuel - 1, by omega⟩
    refine ⟨3, forever_ret f (walkStep_prime u hu 3 h Nat.prime_three), Nat.prime_three, by omega, fun q hq hlt => by omega⟩
  | succ k ih =>
    intro h fuel hf
    obtain ⟨f, rfl⟩ : ∃ f, fuel = f + 1 := ⟨fuel - 1, by omega⟩
    by_cases hp : (2 * (k + 1) + 3).Prime
    · exact ⟨_, forever_ret f (walkStep_prime u hu _ h hp), hp, by omega, fun q _ hlt => by omega⟩
    · have hlt : u * (2 * k + 3) < 2 ^ 64 := Nat.lt_of_le_of_lt (Nat.mul_le_mul_left u (by omega)) h
      have e : BitVec.ofNat 64 (u * (2 * (k + 1) + 3)) - 2 * BitVec.ofNat 64 u = BitVec.ofNat 64 (u * (2 * k + 3)) := by
        rw [show u * (2 * (k + 1) + 3) = u * (2 * k + 3) + 2 * u by ring, BitVec.ofNat_add, BitVec.ofNat_mul (x := 2)]
        exact BitVec.add_sub_cancel _ _
      obtain ⟨p, ep, hpp, hpl, hpm⟩ := ih hlt f (by omega)
      refine ⟨p, ?_, hpp, by omega, fun q hq hql => ?_⟩
      · rw [forever_cont f (walkStep_composite u hu _ h hp), e, ep]
      · by_cases h1 : q < 2 * k + 4
        · exact hpm q hq h1
        · have h2 : q ≠ 2 * (k + 1) + 3 := fun e => hp (e ▸ hq)
          have h3 : q = 2 * (k + 2) := by omega
          exact absurd hq (h3 ▸ Nat.not_prime_mul (by omega) (by omega))

/-- the loop, started one row below an even number of rows -/
theorem walk_even (u : Nat) (hu : 0 < u) (m : Nat) (hm : 2 ≤ m) (h : u * (2 * m) ≤ 2 ^ 64) (fuel : Nat) (hf : m ≤ fuel) :
    ∃ s, forever fuel (BitVec.ofNat 64 (u * (2 * m)) - BitVec.ofNat 64 u) (walkStep (BitVec.ofNat 64 u)) = .ok s ∧
      IsSize u (u * (2 * m)) s.toNat := by
  obtain ⟨k, rfl⟩ : ∃ k, m = k + 2 := ⟨m - 2, by omega⟩
  have hlt : u * (2 * k + 3) < 2 ^ 64 := by
    have : u * (2 * k + 3) + u = u * (2 * (k + 2)) := by ring
    omega
  obtain ⟨p, e, hp, hpl, hpm⟩ := walk u hu k hlt fuel (by omega)
  refine ⟨BitVec.ofNat 64 (u * p), ?_, p, ?_, hp, ?_, fun q hq hql => hpm q hq ?_⟩
  · rw [← e]
    refine congrArg (fun s => forever fuel s _) ?_
    rw [show u * (2 * (k + 2)) = u * (2 * k + 3) + u by ring, BitVec.ofNat_add]
    exact BitVec.add_sub_cancel _ _
  · rw [BitVec.toNat_ofNat, Nat.mod_eq_of_lt]
    exact Nat.lt_of_le_of_lt (Nat.mul_le_mul_left u (by omega)) hlt
  · exact (Nat.mul_lt_mul_left hu).mpr (by omega)
  · have := (Nat.mul_lt_mul_left hu).mp hql
    omega

/-- the bound that applies when `init + growth * epoch` is computed modulo 2^64: the remainder, but 2^64 if that leaves less than
four rows -/
def wrapped (u n : Nat) : Nat := if n % 2 ^ 64 < 4 * u then 2 ^ 64 else n % 2 ^ 64

theorem wrapped_eq (u n : Nat) (h : n < 2 ^ 64) (h4 : 4 * u ≤ n) : wrapped u n = n := by
  rw [wrapped, Nat.mod_eq_of_lt h, if_neg (by omega)]

/-- the loop for bounds of the form `u * 2a + (u * 2b) * e`, computed in 64 bits, with no assumption on `e` -/
theorem walk_linear (u a b t : Nat) (hu : 0 < u) (ht : u * (2 * t) = 2 ^ 64) (ht2 : 2 ≤ t) (e : U64) (fuel : Nat)
    (hf : 2 ^ 63 < fuel) :
    ∃ s, forever fuel (BitVec.ofNat 64 (u * (2 * a)) + BitVec.ofNat 64 (u * (2 * b)) * e - BitVec.ofNat 64 u)
      (walkStep (BitVec.ofNat 64 u)) = .ok s ∧ IsSize u (wrapped u (u * (2 * a) + u * (2 * b) * e.toNat)) s.toNat := by
  have hb : u * (2 * (a + b * e.toNat)) = u * (2 * a) + u * (2 * b) * e.toNat := by ring
  obtain ⟨m, hm⟩ : ∃ m, m = (a + b * e.toNat) % t := ⟨_, rfl⟩
  have hmt : m < t := hm ▸ Nat.mod_lt _ (by omega)
  have hr : (u * (2 * a) + u * (2 * b) * e.toNat) % 2 ^ 64 = u * (2 * m) := by
    rw [← hb, ← ht, Nat.mul_mod_mul_left, Nat.mul_mod_mul_left, ← hm]
  have hstart : BitVec.ofNat 64 (u * (2 * a)) + BitVec.ofNat 64 (u * (2 * b)) * e = BitVec.ofNat 64 (u * (2 * m)) := by
    apply BitVec.eq_of_toNat_eq
    rw [← hr]
    simp only [BitVec.toNat_add, BitVec.toNat_mul, BitVec.toNat_ofNat, Nat.mod_mod]
    rw [← Nat.add_mod, Nat.add_mod, Nat.mod_mul_mod, ← Nat.add_mod]
  have htf : t ≤ 2 ^ 63 := by
    have : 1 * (2 * t) ≤ u * (2 * t) := Nat.mul_le_mul_right _ hu
    omega
  have hmu : u * (2 * m) < 2 ^ 64 := hr ▸ Nat.mod_lt _ (by omega)
  rw [hstart, wrapped, hr]
  by_cases h2 : 2 ≤ m
  · have : u * (2 * 2) ≤ u * (2 * m) := Nat.mul_le_mul_left u (by omega)
    rw [if_neg (by omega)]
    exact walk_even u hu m h2 (by omega) fuel (by omega)
  · have h4 : u * (2 * m) ≤ u * 2 := Nat.mul_le_mul_left u (by omega)
    rw [if_pos (by omega)]
    have hend : BitVec.ofNat 64 (u * (2 * t)) = 0 := by rw [ht]; rfl
    obtain ⟨f, rfl⟩ : ∃ f, fuel = f + 1 := ⟨fuel - 1, by omega⟩
    obtain rfl | rfl : m = 0 ∨ m = 1 := by omega
    · obtain ⟨s, es, hs⟩ := walk_even u hu t ht2 (by omega) (f + 1) (by omega)
      refine ⟨s, ?_, ht ▸ hs⟩
      rw [← es, hend]
      rfl
    · obtain ⟨s, es, hs⟩ := walk_even u hu t ht2 (by omega) f (by omega)
      refine ⟨s, ?_, ht ▸ hs⟩
      have e1 : BitVec.ofNat 64 (u * (2 * 1)) - BitVec.ofNat 64 u = BitVec.ofNat 64 (u * 1) := by
        rw [show u * (2 * 1) = u * 1 + u by ring, BitVec.ofNat_add]
        exact BitVec.add_sub_cancel _ _
      have e2 : BitVec.ofNat 64 (u * 1) - 2 * BitVec.ofNat 64 u = BitVec.ofNat 64 (u * (2 * t)) - BitVec.ofNat 64 u := by
        rw [hend, Nat.mul_one]
        generalize BitVec.ofNat 64 u = x
        apply BitVec.eq_of_toNat_eq
        simp only [BitVec.toNat_sub, BitVec.toNat_mul, BitVec.toNat_ofNat, BitVec.ofNat_eq_ofNat]
        omega
      rw [e1, forever_cont f (walkStep_composite u hu 1 (by omega) Nat.not_prime_one), e2, es]

/-! ## The sizes -/

theorem calcCacheSize_eq (d : Config) (a b : Nat) (ha : d.cacheInitBytes = BitVec.ofNat 64 (64 * (2 * a)))
    (hb : d.cacheGrowthBytes = BitVec.ofNat 64 (64 * (2 * b))) (e : U64) (fuel : Nat) (hf : 2 ^ 63 < fuel) :
    ∃ s, calcCacheSize fuel d e = .ok s ∧ IsSize 64 (wrapped 64 (64 * (2 * a) + 64 * (2 * b) * e.toNat)) s.toNat := by
  simp only [calcCacheSize]
  rw [ha, hb]
  exact walk_linear 64 a b (2 ^ 57) (by omega) (by omega) (by omega) e fuel hf

theorem calcDatasetSize_eq (d : Config) (u t a b : Nat) (hu : 0 < u) (ht : u * (2 * t) = 2 ^ 64) (ht2 : 2 ≤ t)
    (hm : d.mixBytes = BitVec.ofNat 64 u) (ha : d.datasetInitBytes = BitVec.ofNat 64 (u * (2 * a)))
    (hb : d.datasetGrowthBytes = BitVec.ofNat 64 (u * (2 * b))) (e : U64) (fuel : Nat) (hf : 2 ^ 63 < fuel) :
    ∃ s, calcDatasetSize fuel d e = .ok s ∧ IsSize u (wrapped u (u * (2 * a) + u * (2 * b) * e.toNat)) s.toNat := by
  have hu64 : u < 2 ^ 64 := by
    have : u * 4 ≤ u * (2 * t) := Nat.mul_le_mul_left u (by omega)
    omega
  have h0 : d.mixBytes ≠ 0 := by
    rw [hm]
    intro h
    have := congrArg BitVec.toNat h
    rw [BitVec.toNat_ofNat, Nat.mod_eq_of_lt hu64] at this
    simp at this
    omega
  simp only [calcDatasetSize]
  rw [datasetSizeStep_eq d h0, ha, hb, hm]
  exact walk_linear u a b t hu ht ht2 e fuel hf

/-! ## Seeds -/

theorem seed_length (P : Prims) (n : Nat) : (seed P.keccak256 n).length = 32 := by
  cases n with
  | zero => simp [seed]
  | succ n => exact P.keccak256_length _

theorem seedHash_loop (P : Prims) (n : Nat) : forRange 0 n (List.replicate 32 (0 : Byte)) (seedHashStep P) = .ok (seed P.keccak256 n) := by
  obtain ⟨s, e, h⟩ := forRange_inv (f := seedHashStep P) (fun i s => s = seed P.keccak256 i) 0 n (List.replicate 32 0) (Nat.zero_le n) rfl
    (fun i s _ _ h => by
      subst h
      refine ⟨_, ?_, rfl⟩
      rw [seedHashStep, keccak256At, if_neg (by rw [seed_length]; omega), List.drop_eq_nil_of_le (by rw [seed_length]),
        List.append_nil]
      rfl)
  rw [e, h]

theorem seedHash_eq (P : Prims) (d : Config) (hd : d.seedEpochLength ≠ 0) (height : U64) :
    seedHash P d height = .ok (seed P.keccak256 (height / d.seedEpochLength).toInt.toNat) := by
  rw [seedHash]
  by_cases h : height < d.seedEpochLength
  · have h' : height.toNat < d.seedEpochLength.toNat := h
    have : height / d.seedEpochLength = 0 := by
      apply BitVec.eq_of_toNat_eq
      rw [BitVec.toNat_udiv, Nat.div_eq_of_lt h']
      rfl
    simp only [if_pos h, this]
    rfl
  · simp only [if_neg h]
    rw [udiv, if_neg hd]
    exact seedHash_loop P _

theorem toInt_toNat_of_lt (x : U64) (h : x.toNat < 2 ^ 63) : x.toInt.toNat = x.toNat := by
  rw [BitVec.toInt_eq_toNat_of_lt (by omega)]
  rfl

end Verif.Dag
