import Verif.Proof.Hashimoto
import Verif.Props.Generate

/-! # Ethash: properties C22 and C23 -/

set_option autoImplicit false

namespace Verif.Props

open Go Ethash

/-- **C22** For every 32-byte hash, nonce, dataset size from one row up to 2^38 bytes and dataset content, `hashimoto` returns the
mix digest and the result of the published function, both of 32 bytes. -/
theorem C22_hashimoto (P : Prims) (hash : List Byte) (hh : hash.length = 32) (nonce size : U64) (hs1 : 128 ≤ size.toNat)
    (hs2 : size.toNat < 2 ^ 38) (L : Nat → List U32) (hL : ∀ k, (L k).length = 16) :
    ∃ r, hashimoto P hash nonce size (fun i => .ok (L i.toNat)) = .ok r ∧
      r = Spec.Ethash.hashimoto P.keccak512 P.keccak256 (size.toNat / 64) L hash nonce ∧ r.1.length = 32 ∧ r.2.length = 32 := by
  refine ⟨_, hashimoto_eq P hash hh nonce size hs1 hs2 _ L ?_, rfl, ?_, P.keccak256_length _⟩
  · intro k hk
    refine ⟨?_, hL k⟩
    rw [BitVec.toNat_ofNat, Nat.mod_eq_of_lt (by omega)]
  · simp only [Spec.Ethash.hashimoto]
    rw [Dag.bytes_eq, bytesLE_length, cmix_length]

/-- **C23** The indexes that `hashimoto` asks for are all below `2 * (size / 128)`: a lookup that panics (or does anything else)
outside that range gives the same result as one that never fails. -/
theorem C23_in_range (P : Prims) (hash : List Byte) (hh : hash.length = 32) (nonce size : U64) (hs1 : 128 ≤ size.toNat)
    (hs2 : size.toNat < 2 ^ 38) (lookup : Lookup) (L : Nat → List U32) (hL : ∀ k, (L k).length = 16)
    (hin : ∀ i : U32, i.toNat < 2 * (size.toNat / 128) → lookup i = .ok (L i.toNat)) :
    hashimoto P hash nonce size lookup = hashimoto P hash nonce size (fun i => .ok (L i.toNat)) ∧
      ∃ r, hashimoto P hash nonce size lookup = .ok r := by
  have key : ∀ k, k < 2 * (size.toNat / 128) → (BitVec.ofNat 32 k).toNat = k := fun k hk => by
    rw [BitVec.toNat_ofNat, Nat.mod_eq_of_lt (by omega)]
  have h1 := hashimoto_eq P hash hh nonce size hs1 hs2 lookup L (fun k hk => ⟨by
    rw [hin _ (by rw [key k hk]; exact hk), key k hk], hL k⟩)
  have h2 := hashimoto_eq P hash hh nonce size hs1 hs2 (fun i => .ok (L i.toNat)) L (fun k hk => ⟨by rw [key k hk], hL k⟩)
  exact ⟨h1.trans h2.symm, _, h1⟩

/-- **C23** with a dataset of less than one row the computation divides by zero -/
theorem C23_small (P : Prims) (hash : List Byte) (hh : hash.length = 32) (nonce size : U64) (hs : size.toNat < 128) (lookup : Lookup) :
    hashimoto P hash nonce size lookup = .error (.panic .divZero) :=
  hashimoto_zero P hash hh nonce size (by omega) lookup

/-- **C23** The dataset behind `Compute`: with the 512-bit lookup of a cache the whole computation is total and equals the
published light evaluation, item `k` being `calc_dataset_item(k)`. -/
theorem C22_light (P : Prims) (parents : U32) (cache : List U32) (h1 : 16 ≤ cache.length) (h2 : cache.length ≤ 2 ^ 32)
    (hash : List Byte) (hh : hash.length = 32) (nonce size : U64) (hs1 : 128 ≤ size.toNat) (hs2 : size.toNat < 2 ^ 38) :
    hashimoto P hash nonce size (Dag.lookup512 P parents cache) = .ok (Spec.Ethash.hashimoto P.keccak512 P.keccak256 (size.toNat / 64)
      (fun k => Spec.Ethash.words (Spec.Ethash.itemOf P.keccak512 cache parents.toNat (BitVec.ofNat 32 k))) hash nonce) :=
  hashimoto_eq P hash hh nonce size hs1 hs2 _ _ fun k _ =>
    ⟨(C39_lookups P parents cache h1 h2 k).1, by rw [Dag.words_eq, Dag.wordView_length, Dag.itemOf_length]⟩

/-- the dataset size of epoch 0 satisfies the hypotheses -/
example : 128 ≤ (1073739904 : U64).toNat ∧ (1073739904 : U64).toNat < 2 ^ 38 := by decide

end Verif.Props
