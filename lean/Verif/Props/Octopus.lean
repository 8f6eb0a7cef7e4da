import Verif.Proof.Octopus
import Verif.Props.Generate

/-! # Octopus: properties C18 to C21 -/

set_option autoImplicit false

namespace Verif.Props

open Go Octopus Spec.Octopus

/-- **C18** For every 64-bit number `remap` terminates, with `11 ^ e` for the largest divisor `e` of `num % (p - 2) + 1` that is
coprime to `p - 1`. -/
theorem C18_remap (fuel : Nat) (hf : 64 < fuel) (num : U64) :
    remap fuel num = .ok (BitVec.ofNat 64 (generator num.toNat)) ∧
      ∃ e, 0 < e ∧ e ∣ num.toNat % (p - 2) + 1 ∧ Nat.Coprime e (p - 1) ∧ generator num.toNat = 11 ^ e % p := by
  refine ⟨remap_eq fuel hf num, unitPart (num.toNat % (p - 2) + 1), unitPart_pos _ (by omega), (unitPart_spec _ (by omega)).1,
    (unitPart_spec _ (by omega)).2, rfl⟩

/-- **C18** The result is never zero and its powers are all the nonzero residues. -/
theorem C18_primitive_root (fuel : Nat) (hf : 64 < fuel) (num : U64) :
    ∃ g, remap fuel num = .ok g ∧ 0 < g.toNat ∧ g.toNat < 1032193 ∧
      ∀ x, 0 < x → x < 1032193 → ∃ k, k < 1032192 ∧ g.toNat ^ k % 1032193 = x := by
  refine ⟨_, remap_eq fuel hf num, ?_, ?_, ?_⟩
  · rw [generator_toNat]; exact generator_pos _
  · rw [generator_toNat]; exact generator_lt _
  · intro x h0 hx
    rw [generator_toNat]
    exact generator_reaches _ x h0 hx

/-- **C19** For every parameters `a ≠ 0` and `b` and every word, the search terminates with the first of the candidates whose
discriminant does not vanish. -/
theorem C19_computeC (fuel : Nat) (hf : 64 < fuel) (a b h : U64) (ha : a.toNat < 1032193) (ha0 : 0 < a.toNat)
    (hb : b.toNat < 1032193) :
    ∃ c, computeC fuel a b h = .ok c ∧ c.toNat < 1032193 ∧ b.toNat * b.toNat % 1032193 ≠ 4 * a.toNat * c.toNat % 1032193 ∧
      IsC a.toNat b.toNat h.toNat c.toNat := by
  obtain ⟨c, e, h1, h2⟩ := computeC_eq fuel hf a b h ha ha0 hb
  have hc : (BitVec.ofNat 64 c).toNat = c := by
    rw [BitVec.toNat_ofNat]
    exact Nat.mod_eq_of_lt (lt_trans h2 (by decide))
  refine ⟨_, e, by rw [hc]; exact h2, ?_, by rw [hc]; exact h1⟩
  obtain ⟨_, _, h3, _⟩ := h1
  rw [hc]
  exact h3

/-- **C19** in particular for the parameters that `octopus` derives -/
theorem C19_derived (fuel : Nat) (hf : 64 < fuel) (v0 v1 h : U64) :
    ∃ a b c, remap fuel v0 = .ok a ∧ remap fuel v1 = .ok b ∧ computeC fuel a b h = .ok c ∧
      b.toNat * b.toNat % 1032193 ≠ 4 * a.toNat * c.toNat % 1032193 := by
  obtain ⟨c, e, _, h3, _⟩ := C19_computeC fuel hf (BitVec.ofNat 64 (generator v0.toNat)) (BitVec.ofNat 64 (generator v1.toNat)) h
    (by rw [generator_toNat]; exact generator_lt _) (by rw [generator_toNat]; exact generator_pos _)
    (by rw [generator_toNat]; exact generator_lt _)
  exact ⟨_, _, c, remap_eq fuel hf v0, remap_eq fuel hf v1, e, h3⟩

/-- **C20** The coefficients are those of the warp of the nonce: they depend on the nonce through `nonce / 32` only. -/
theorem C20_coefficients (hash : List Byte) (nonce : U64) :
    forRange 0 powWarpSize (List.replicate powN 0) (warpStep (word hash 0) (word hash 1) (word hash 2) (word hash 3)
      (nonce / BitVec.ofNat 64 powWarpSize)) =
      .ok ((List.range 1024).map fun k => BitVec.ofNat 32 (coeff hash (nonce.toNat / 32) k)) :=
  warp_loop hash nonce (List.replicate powN 0) (by rw [List.length_replicate]; rfl)

/-- **C20** two nonces of the same warp evaluate the same polynomial -/
theorem C20_same_warp (hash : List Byte) (n m : U64) (h : n.toNat / 32 = m.toNat / 32) :
    forRange 0 powWarpSize (List.replicate powN 0) (warpStep (word hash 0) (word hash 1) (word hash 2) (word hash 3)
      (n / BitVec.ofNat 64 powWarpSize)) =
    forRange 0 powWarpSize (List.replicate powN 0) (warpStep (word hash 0) (word hash 1) (word hash 2) (word hash 3)
      (m / BitVec.ofNat 64 powWarpSize)) := by
  rw [C20_coefficients, C20_coefficients, h]

/-- **C20** For all parameters, the 32 values are those of the polynomial at `a w^(2t) + b w^t + c`, for `t = nonce % 32 + 32 i`,
computed in the natural numbers modulo the prime. -/
theorem C20_values (hash : List Byte) (a b c w nonce : U64) (ha : a.toNat < 1032193) (hb : b.toNat < 1032193)
    (hc : c.toNat < 1032193) (hw : w.toNat < 1032193) :
    ∃ r vs, evaluate a b c w nonce ((List.range 1024).map fun k => BitVec.ofNat 32 (coeff hash (nonce.toNat / 32) k)) = .ok (r, vs) ∧
      vs.length = 32 ∧ ∀ i, i < 32 → ∃ v, vs[i]? = some v ∧
        v.toNat = ((List.range 1024).map fun j => coeff hash (nonce.toNat / 32) j *
          ((a.toNat * w.toNat ^ (2 * (nonce.toNat % 32 + 32 * i)) + b.toNat * w.toNat ^ (nonce.toNat % 32 + 32 * i) + c.toNat)
            % 1032193) ^ j).sum % 1032193 := by
  refine ⟨_, _, evaluate_eq hash a b c w nonce ha hb hc hw, by simp [values], ?_⟩
  intro i hi
  refine ⟨BitVec.ofNat 32 (polynomial (coeff hash (nonce.toNat / 32)) (point a.toNat b.toNat c.toNat w.toNat
    (nonce.toNat % 32 + 32 * i))), by simp [values, hi], ?_⟩
  rw [BitVec.toNat_ofNat]
  exact Nat.mod_eq_of_lt (lt_trans (polynomial_lt _ _) (by decide))

/-- **C20** The whole computation, for every 32-byte hash, nonce, dataset size from one page up to 2^38 bytes and dataset: the
published function. -/
theorem C20_octopus (P : Prims) (fuel : Nat) (hf : 64 < fuel) (hash : List Byte) (hh : hash.length = 32) (nonce size : U64)
    (hs1 : 256 ≤ size.toNat) (hs2 : size.toNat < 2 ^ 38) (L : Nat → List U32) (hL : ∀ k, (L k).length = 16) :
    ∃ c r, IsC (generator (word hash 0).toNat) (generator (word hash 1).toNat) (word hash 2).toNat c ∧
      octopus P fuel hash nonce size (fun i => .ok (L i.toNat)) = .ok r ∧ r.length = 32 ∧
      r = digest P.keccak512 P.keccak256 (size.toNat / 256) L hash nonce.toNat
        (generator (word hash 0).toNat) (generator (word hash 1).toNat) c (generator (word hash 3).toNat) := by
  obtain ⟨c, h1, h2⟩ := octopus_eq P fuel hf hash hh nonce size hs1 hs2 (fun i => .ok (L i.toNat)) L (fun k hk => by
    refine ⟨?_, hL k⟩
    rw [BitVec.toNat_ofNat, Nat.mod_eq_of_lt (by omega)])
  exact ⟨c, _, h1, h2, P.keccak256_length _, rfl⟩

/-- **C20** the parameter `c` of the published function is determined -/
theorem C20_c_unique (a b h c c' : Nat) (h1 : IsC a b h c) (h2 : IsC a b h c') : c = c' := by
  obtain ⟨k, e1, n1, m1⟩ := h1
  obtain ⟨k', e2, n2, m2⟩ := h2
  rcases Nat.lt_trichotomy k k' with hk | hk | hk
  · exact absurd (e1 ▸ m2 k hk) n1
  · rw [e1, e2, hk]
  · exact absurd (e2 ▸ m1 k' hk) n2

/-- **C21** The indexes that `octopus` asks for are all below `4 * (size / 256)`, hence below `size / 64`: a lookup that panics (or
does anything else) outside that range gives the same result as one that never fails. -/
theorem C21_in_range (P : Prims) (fuel : Nat) (hf : 64 < fuel) (hash : List Byte) (hh : hash.length = 32) (nonce size : U64)
    (hs1 : 256 ≤ size.toNat) (hs2 : size.toNat < 2 ^ 38) (lookup : Lookup) (L : Nat → List U32) (hL : ∀ k, (L k).length = 16)
    (hin : ∀ i : U32, i.toNat < 4 * (size.toNat / 256) → lookup i = .ok (L i.toNat)) :
    octopus P fuel hash nonce size lookup = octopus P fuel hash nonce size (fun i => .ok (L i.toNat)) ∧
      ∃ r, octopus P fuel hash nonce size lookup = .ok r := by
  have key : ∀ k, k < 4 * (size.toNat / 256) → (BitVec.ofNat 32 k).toNat = k := fun k hk => by
    rw [BitVec.toNat_ofNat, Nat.mod_eq_of_lt (by omega)]
  obtain ⟨c1, i1, h1⟩ := octopus_eq P fuel hf hash hh nonce size hs1 hs2 lookup L (fun k hk => ⟨by
    rw [hin _ (by rw [key k hk]; exact hk), key k hk], hL k⟩)
  obtain ⟨c2, i2, h2⟩ := octopus_eq P fuel hf hash hh nonce size hs1 hs2 (fun i => .ok (L i.toNat)) L
    (fun k hk => ⟨by rw [key k hk], hL k⟩)
  rw [C20_c_unique _ _ _ _ _ i2 i1] at h2
  exact ⟨h1.trans h2.symm, _, h1⟩

/-- **C21** With a dataset of less than one page the computation divides by zero. -/
theorem C21_small (P : Prims) (fuel : Nat) (hf : 64 < fuel) (hash : List Byte) (hh : hash.length = 32) (nonce size : U64)
    (hs : size.toNat < 256) (lookup : Lookup) :
    octopus P fuel hash nonce size lookup = .error (.panic .divZero) :=
  octopus_small P fuel hf hash hh nonce size (by omega) lookup

/-- **C21** The dataset behind `Compute`: with the 512-bit lookup of a cache the whole computation is total and equals the published
light evaluation. -/
theorem C21_light (P : Prims) (parents : U32) (cache : List U32) (h1 : 16 ≤ cache.length) (h2 : cache.length ≤ 2 ^ 32)
    (fuel : Nat) (hf : 64 < fuel) (hash : List Byte) (hh : hash.length = 32) (nonce size : U64) (hs1 : 256 ≤ size.toNat)
    (hs2 : size.toNat < 2 ^ 38) :
    ∃ c, IsC (generator (word hash 0).toNat) (generator (word hash 1).toNat) (word hash 2).toNat c ∧
      octopus P fuel hash nonce size (Dag.lookup512 P parents cache) = .ok (digest P.keccak512 P.keccak256 (size.toNat / 256)
        (fun k => Spec.Ethash.words (Spec.Ethash.itemOf P.keccak512 cache parents.toNat (BitVec.ofNat 32 k))) hash nonce.toNat
        (generator (word hash 0).toNat) (generator (word hash 1).toNat) c (generator (word hash 3).toNat)) :=
  octopus_eq P fuel hf hash hh nonce size hs1 hs2 _ _ fun k _ =>
    ⟨(C39_lookups P parents cache h1 h2 k).1, by rw [Dag.words_eq, Dag.wordView_length, Dag.itemOf_length]⟩

/-- the dataset size of epoch 0 satisfies the hypotheses -/
example : 256 ≤ (4294966528 : U64).toNat ∧ (4294966528 : U64).toNat < 2 ^ 38 := by decide

/-- `p - 1 = 2^14 · 3^2 · 7`: the number `20` has the exponent `21`, which is reduced to `1`, the number `54` the exponent `55`,
which is kept -/
example : generator 20 = 11 ∧ generator 54 = 11 ^ 55 % p := by decide +kernel

/-- a case in which the first candidate of the search is rejected: `b^2 = 4 a c` for the candidate of `h = 0` -/
example : ∃ a b : Nat, 0 < a ∧ a < p ∧ b < p ∧ b * b % p = 4 * a * generator 0 % p := ⟨11, 22, by decide +kernel⟩

end Verif.Props
