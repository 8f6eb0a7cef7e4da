import Verif.Proof.Generate
import Verif.Props.Util

/-! # Cache and dataset generation: properties C37-C39 -/

set_option autoImplicit false

namespace Verif.Props

open Go Dag Spec.Ethash

/-- **C37** For every seed, every number of rows below 2^26 (a cache below 4 GiB), every number of rounds (a negative one is zero)
and every previous content of the buffer, `generateCache` does not panic and its result is the published cache. -/
theorem C37_generateCache (P : Prims) (seed : List Byte) (rounds : Int) (n : Nat) (hn : 1 ≤ n) (h64 : n < 2 ^ 26) (dest : List U32)
    (hd : dest.length = 16 * n) :
    ∃ words', generateCache P rounds dest seed = .ok words' ∧ words'.length = 16 * n ∧
      bytes words' = (mkcache P.keccak512 n seed rounds.toNat).flatten := by
  obtain ⟨e, hl⟩ := generateCache_eq P seed rounds n hn h64 dest hd
  have h := generateCacheBytes_eq P seed rounds n hn h64 (bytesLE dest) (by rw [bytesLE_length, hd]; omega)
  refine ⟨_, e, hl, ?_⟩
  rw [bytes_eq, ← words_flatten _ h.2.2, bytesLE_wordView]
  rw [flatten_length_const 64 _ h.2.2]; omega

/-- **C37** the rows: there are `n` of 64 bytes each, and row `k` of the array is row `k` of the published cache -/
theorem C37_rows (P : Prims) (seed : List Byte) (rounds : Int) (n : Nat) (hn : 1 ≤ n) (h64 : n < 2 ^ 26) (dest : List U32)
    (hd : dest.length = 16 * n) (k : Nat) (hk : k < n) :
    ∃ words', generateCache P rounds dest seed = .ok words' ∧ (mkcache P.keccak512 n seed rounds.toNat)[k]? = some (bytes (rowOf words' k)) := by
  obtain ⟨w, e, hl, hb⟩ := C37_generateCache P seed rounds n hn h64 dest hd
  refine ⟨w, e, ?_⟩
  have h := generateCacheBytes_eq P seed rounds n hn h64 (bytesLE dest) (by rw [bytesLE_length, hd]; omega)
  rw [List.getElem?_eq_getElem (by rw [h.2.1]; exact hk)]
  refine congrArg some ?_
  rw [← flatten_block 64 _ h.2.2 k (by rw [h.2.1]; exact hk), ← hb, bytes_eq, bytes_eq, rowOf]
  have h1 : (bytesLE w).drop (64 * k) = bytesLE (w.drop (16 * k)) := by
    have := flatten_drop 4 (w.map (leBytes 4)) (bytesLE_blocks w) (16 * k)
    rw [← List.flatMap_def] at this
    rw [show 64 * k = 4 * (16 * k) by omega]
    show List.drop _ (w.flatMap (leBytes 4)) = _
    rw [this, ← List.map_drop, ← List.flatMap_def]
    rfl
  have h2 : ∀ v : List U32, (bytesLE v).take 64 = bytesLE (v.take 16) := by
    intro v
    have := flatten_take 4 (v.map (leBytes 4)) (bytesLE_blocks v) 16
    rw [← List.flatMap_def] at this
    show List.take (4 * 16) (v.flatMap (leBytes 4)) = _
    rw [this, ← List.map_take, ← List.flatMap_def]
    rfl
  rw [h1, h2]

/-- **C37** an empty buffer is the one multiple of 64 for which the generator panics -/
theorem C37_empty (P : Prims) (seed : List Byte) (rounds : Int) : generateCache P rounds [] seed = .error (.panic .slice) := rfl

/-- The list function that stands for `XORBytes` in the model of generate.go is what every build of `XORBytes` computes when the
destination does not overlap the inputs. -/
theorem C37_xorBytes (arch : Bitutil.Arch) (harch : ∀ w, arch = .fast w → 0 < w) (dst a b : Bitutil.Slice) (m : Bitutil.Mem) (fuel : Nat)
    (hf : min a.len b.len + 4 ≤ fuel) (ha : a.ptr + (min a.len b.len : Nat) ≤ dst.ptr ∨ dst.ptr + (min a.len b.len : Nat) ≤ a.ptr)
    (hb : b.ptr + (min a.len b.len : Nat) ≤ dst.ptr ∨ dst.ptr + (min a.len b.len : Nat) ≤ b.ptr) (hd : min a.len b.len ≤ dst.len) :
    ∃ m', Bitutil.xorBytes arch fuel dst a b m = .ok (m', min a.len b.len) ∧
      xorBytes (contents m dst) (contents m a) (contents m b) = .ok (contents m' dst) := by
  obtain ⟨m', e, h⟩ := C59_xorBytes_contents arch harch dst a b m fuel hf (Or.inr ha) (Or.inr hb) hd
  refine ⟨m', e, ?_⟩
  have hl : ∀ s, (contents m s).length = s.len := fun s => by simp [contents]
  simp only [xorBytes, hl]
  rw [if_neg (by omega), h]

/-- the cache of epoch 0 of ethash, 262139 rows and three rounds, satisfies the hypotheses -/
example (P : Prims) (seed : List Byte) : ∃ words', generateCache P 3 (List.replicate (16 * 262139) (0 : U32)) seed = .ok words' ∧
    words'.length = 16 * 262139 ∧ bytes words' = (mkcache P.keccak512 262139 seed 3).flatten :=
  C37_generateCache P seed 3 262139 (by omega) (by omega) _ List.length_replicate

/-- **C38** For every cache of at least one row (and at most 2^28, 16 GiB), every 32-bit index and every number of parents,
`generateDatasetItem` does not panic and returns the published item, 64 bytes. -/
theorem C38_generateDatasetItem (P : Prims) (parents : U32) (cache : List U32) (index : U32) (h1 : 16 ≤ cache.length)
    (h2 : cache.length ≤ 2 ^ 32) :
    generateDatasetItem P parents cache index = .ok (itemOf P.keccak512 cache parents.toNat index) ∧
      (itemOf P.keccak512 cache parents.toNat index).length = 64 :=
  ⟨generateDatasetItem_eq P parents cache index (by omega) (by omega), itemOf_length P parents cache index⟩

/-- **C38** With less than one row it panics. -/
theorem C38_no_row (P : Prims) (parents : U32) (cache : List U32) (index : U32) (h : cache.length < 16) :
    generateDatasetItem P parents cache index = .error (.panic .divZero) := by
  unfold generateDatasetItem
  simp only
  rw [show cache.length / hashWords = 0 by simp only [hashWords]; omega]
  rfl

/-- **C38** a cache whose length is not a multiple of sixteen words is used without its last incomplete row -/
theorem C38_whole_rows (P : Prims) (parents : U32) (cache : List U32) (index : U32) (h1 : 16 ≤ cache.length)
    (h2 : cache.length ≤ 2 ^ 32) :
    generateDatasetItem P parents cache index = generateDatasetItem P parents (cache.take (16 * (cache.length / 16))) index := by
  have hl : (cache.take (16 * (cache.length / 16))).length = 16 * (cache.length / 16) := by rw [List.length_take]; omega
  rw [(C38_generateDatasetItem P parents cache index h1 h2).1, (C38_generateDatasetItem P parents _ index (by omega) (by omega)).1]
  refine congrArg Except.ok ?_
  have hrow : ∀ k, k < cache.length / 16 → rowOf (cache.take (16 * (cache.length / 16))) k = rowOf cache k := by
    intro k hk
    rw [rowOf, rowOf, List.drop_take, List.take_take]
    refine congrArg (fun m => List.take m _) ?_
    omega
  have hmix : ∀ j, itemMix P.keccak512 (cache.length / 16) (rowOf (cache.take (16 * (cache.length / 16)))) index j =
      itemMix P.keccak512 (cache.length / 16) (rowOf cache) index j := by
    intro j
    induction j with
    | zero => rw [itemMix, itemMix, hrow _ (Nat.mod_lt _ (by omega))]
    | succ j ih => rw [itemMix, itemMix, ih, hrow _ (Nat.mod_lt _ (by omega))]
  rw [itemOf, itemOf, item, item, hl, show 16 * (cache.length / 16) / 16 = cache.length / 16 by omega, hmix]

/-- **C39** The 512-, 1024- and 2048-bit lookups return one, two and four consecutive dataset items. -/
theorem C39_lookups (P : Prims) (parents : U32) (cache : List U32) (h1 : 16 ≤ cache.length) (h2 : cache.length ≤ 2 ^ 32) (i : Nat) :
    (lookup512 P parents cache (BitVec.ofNat 32 i) = .ok (words (itemOf P.keccak512 cache parents.toNat (BitVec.ofNat 32 i)))) ∧
    (lookup1024 P parents cache (BitVec.ofNat 32 i) =
      .ok ((List.range 2).flatMap fun j => words (itemOf P.keccak512 cache parents.toNat (BitVec.ofNat 32 (2 * i + j))))) ∧
    (lookup2048 P parents cache (BitVec.ofNat 32 i) =
      .ok ((List.range 4).flatMap fun j => words (itemOf P.keccak512 cache parents.toNat (BitVec.ofNat 32 (4 * i + j))))) := by
  have key : ∀ (s : U32), 16 * s.toNat < 2 ^ 32 → generateDatasetItemUint P parents cache (BitVec.ofNat 32 i) s =
      .ok ((List.range s.toNat).flatMap fun j => words (itemOf P.keccak512 cache parents.toNat (BitVec.ofNat 32 (s.toNat * i + j)))) := by
    intro s hs
    rw [generateDatasetItemUint_eq P parents cache (by omega) (by omega) _ s hs]
    refine congrArg Except.ok ?_
    refine congrArg (fun f => List.flatMap f _) ?_
    funext j
    refine congrArg (fun x => words (itemOf P.keccak512 cache parents.toNat x)) ?_
    apply BitVec.eq_of_toNat_eq
    simp only [BitVec.toNat_add, BitVec.toNat_mul, BitVec.toNat_ofNat]
    rw [← Nat.add_mod, Nat.mul_comm s.toNat i, Nat.add_mod, Nat.mod_mul_mod, ← Nat.add_mod]
  refine ⟨?_, key 2 (by decide), key 4 (by decide)⟩
  have := key 1 (by decide)
  rw [lookup512, this]
  simp

/-- **C39** The L1 cache is the concatenation of the first dataset items, … -/
theorem C39_l1 (P : Prims) (parents : U32) (cache dest : List U32) (n : Nat) (hd : dest.length = 16 * n) (h1 : 16 ≤ cache.length)
    (h2 : cache.length ≤ 2 ^ 32) :
    generateL1Cache P parents dest cache =
      .ok ((List.range n).flatMap fun j => words (itemOf P.keccak512 cache parents.toNat (BitVec.ofNat 32 j))) :=
  generateL1Cache_eq P parents cache (by omega) (by omega) dest n hd

/-- **C39** … hence word `j` of the L1 cache is word `j mod 64` of the 2048-bit lookup at `j div 64`. -/
theorem C39_l1_lookup (P : Prims) (parents : U32) (cache dest : List U32) (n : Nat) (hd : dest.length = 64 * n) (h1 : 16 ≤ cache.length)
    (h2 : cache.length ≤ 2 ^ 32) :
    ∃ l1, generateL1Cache P parents dest cache = .ok l1 ∧ l1.length = 64 * n ∧
      ∀ i, i < n → lookup2048 P parents cache (BitVec.ofNat 32 i) = .ok ((l1.drop (64 * i)).take 64) := by
  have hlen : ∀ j, (words (itemOf P.keccak512 cache parents.toNat (BitVec.ofNat 32 j))).length = 16 := fun j => by
    rw [words_eq, wordView_length, itemOf_length]
  refine ⟨_, C39_l1 P parents cache dest (4 * n) (by omega) h1 h2, ?_, ?_⟩
  · rw [flatMap_length_const _ 16 hlen, List.length_range]; omega
  · intro i hi
    rw [(C39_lookups P parents cache h1 h2 i).2.2]
    refine congrArg Except.ok ?_
    have ha : ∀ r ∈ (List.range (4 * n)).map (fun j => words (itemOf P.keccak512 cache parents.toNat (BitVec.ofNat 32 j))), r.length = 16 := by
      intro r hr
      obtain ⟨j, _, rfl⟩ := List.mem_map.mp hr
      exact hlen j
    rw [show 64 * i = 16 * (4 * i) by omega, List.flatMap_def (l := List.range (4 * n)), flatten_drop 16 _ ha,
      show (64 : Nat) = 16 * 4 from rfl, flatten_take 16 _ (fun r hr => ha r (List.mem_of_mem_drop hr)), List.flatMap_def]
    refine congrArg List.flatten ?_
    apply List.ext_getElem
    · simp; omega
    · intro k h1 h2
      simp

/-- the hypotheses of C38 and C39 hold for the shipped sizes: an L1 cache of 4096 words, a cache of 2^22 words -/
example (P : Prims) : ∃ l1, generateL1Cache P 256 (List.replicate (64 * 64) 0) (List.replicate (2 ^ 22) 0) = .ok l1 ∧ l1.length = 64 * 64 ∧
    ∀ i, i < 64 → lookup2048 P 256 (List.replicate (2 ^ 22) 0) (BitVec.ofNat 32 i) = .ok ((l1.drop (64 * i)).take 64) :=
  C39_l1_lookup P 256 _ _ 64 List.length_replicate (by rw [List.length_replicate]; omega) (by rw [List.length_replicate]; omega)

end Verif.Props
