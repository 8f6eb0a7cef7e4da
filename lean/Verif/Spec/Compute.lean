import Verif.Spec.Chains
import Verif.Spec.Progpow
import Verif.Spec.Octopus

/-! # The published proof-of-work functions of the DAG-based chains, from the block height to the digest -/

set_option autoImplicit false

namespace Verif.Spec

open Ethash (words itemOf)

/-- dataset item `k` as words, from the cache -/
def datasetItem (H512 : Bytes → Bytes) (c : Chain) (cache : List (BitVec 32)) (k : Nat) : List (BitVec 32) :=
  words (itemOf H512 cache c.parents (BitVec.ofNat 32 k))

/-- four consecutive items: a 2048-bit row -/
def datasetRow (H512 : Bytes → Bytes) (c : Chain) (cache : List (BitVec 32)) (k : Nat) : List (BitVec 32) :=
  (List.range 4).flatMap fun j => datasetItem H512 c cache (4 * k + j)

/-- `cache` and `size` are the cache and the dataset size for the block height -/
def At (H256 H512 : Bytes → Bytes) (c : Chain) (height : Nat) (cache : List (BitVec 32)) (size : Nat) : Prop :=
  IsCache H256 H512 c (height / c.epochLength) cache ∧ Dag.IsSize c.row (c.dataInit + c.dataGrowth * (height / c.epochLength)) size

theorem At.unique {H256 H512 : Bytes → Bytes} {c : Chain} {height size size' : Nat} {cache cache' : List (BitVec 32)}
    (h : At H256 H512 c height cache size) (h' : At H256 H512 c height cache' size') : cache = cache' ∧ size = size' :=
  ⟨h.1.unique h'.1, h.2.unique h'.2⟩

/-- Ethash: `r` is the mix digest and the result -/
def IsEthash (H256 H512 : Bytes → Bytes) (c : Chain) (hash : Bytes) (height : Nat) (nonce : BitVec 64) (r : Bytes × Bytes) : Prop :=
  ∃ cache size, At H256 H512 c height cache size ∧
    r = Ethash.hashimoto H512 H256 (size / 64) (datasetItem H512 c cache) hash nonce

/-- KAWPOW and FiroPoW, according to the variant -/
def IsProgpow (H256 H512 : Bytes → Bytes) (v : Progpow.Variant) (c : Chain) (hash : Bytes) (height nonce : Nat) (r : Bytes × Bytes) : Prop :=
  ∃ cache size, At H256 H512 c height cache size ∧
    r = Progpow.full v hash height nonce (size / 256) (datasetRow H512 c cache) (fun i => (l1Of H512 c cache).getD i 0)

/-- Octopus -/
def IsOctopus (H256 H512 : Bytes → Bytes) (c : Chain) (hash : Bytes) (height nonce : Nat) (r : Bytes) : Prop :=
  ∃ cache size x, At H256 H512 c height cache size ∧
    Octopus.IsC (Octopus.generator (Octopus.word hash 0).toNat) (Octopus.generator (Octopus.word hash 1).toNat) (Octopus.word hash 2).toNat x ∧
    r = Octopus.digest H512 H256 (size / 256) (datasetItem H512 c cache) hash nonce (Octopus.generator (Octopus.word hash 0).toNat)
      (Octopus.generator (Octopus.word hash 1).toNat) x (Octopus.generator (Octopus.word hash 3).toNat)

end Verif.Spec
