import Verif.Proof.LowBits
import Verif.Props.LastItem

/-! # C103: the low bits of Ethash's mix digest -/

set_option autoImplicit false

namespace Verif.Props

open Go LastItem Item

/-- the exclusive or of bits -/
def parity (l : List Bool) : Bool := l.foldl Bool.xor false

namespace Item

theorem accessMix_zero (n : Nat) (L : Nat → List U32) (s : List Byte) (hs : s.length = 64) (q : Nat) (hq : q < 32) :
    (Spec.Ethash.accessMix n L s 0).getD q 0 = Spec.leWord32 s (q % 16) := by
  have hl : (Spec.Ethash.words s).length = 16 := by rw [Dag.words_eq, Dag.wordView_length, hs]
  have hw : ∀ k < 16, (Spec.Ethash.words s).getD k 0 = Spec.leWord32 s k := by
    intro k hk
    rw [Spec.Ethash.words, List.getD_eq_getElem?_getD, List.getElem?_map, List.getElem?_range (by rw [hs]; omega)]
    rfl
  rw [Spec.Ethash.accessMix]
  by_cases h : q < 16
  · rw [List.getD_eq_getElem?_getD, List.getElem?_append_left (by omega), ← List.getD_eq_getElem?_getD, hw q h, Nat.mod_eq_of_lt h]
  · rw [List.getD_eq_getElem?_getD, List.getElem?_append_right (by omega), hl, ← List.getD_eq_getElem?_getD, hw _ (by omega)]
    exact congrArg _ (by omega)

theorem accessMix_column (n : Nat) (L : Nat → List U32) (hL : ∀ k, (L k).length = 16) (s : List Byte) (hs : s.length = 64) (a q : Nat) (hq : q < 32) :
    (Spec.Ethash.accessMix n L s (a + 1)).getD q 0 =
      Spec.Ethash.fnv ((Spec.Ethash.accessMix n L s a).getD q 0) ((L (page n L s a) ++ L (page n L s a + 1)).getD q 0) := by
  have h1 : q < (Spec.Ethash.accessMix n L s a).length := by rw [accessMix_length _ L hL s hs a]; exact hq
  have h2 : q < (L (page n L s a) ++ L (page n L s a + 1)).length := by rw [List.length_append, hL, hL]; exact hq
  rw [accessMix_succ, List.getD_eq_getElem?_getD, List.getElem?_zipWith, List.getD_eq_getElem?_getD, List.getD_eq_getElem?_getD,
    List.getElem?_eq_getElem h1, List.getElem?_eq_getElem h2]
  rfl

theorem column_lsb (n : Nat) (L : Nat → List U32) (hL : ∀ k, (L k).length = 16) (s : List Byte) (hs : s.length = 64) (q : Nat) (hq : q < 32) :
    ∀ a, ((Spec.Ethash.accessMix n L s a).getD q 0).getLsbD 0 = parity ((Spec.leWord32 s (q % 16)).getLsbD 0 ::
      (List.range a).map fun i => ((L (page n L s i) ++ L (page n L s i + 1)).getD q 0).getLsbD 0)
  | 0 => by
    rw [accessMix_zero n L s hs q hq, List.range_zero, List.map_nil]
    exact (Bool.false_xor _).symm
  | a + 1 => by
    have ih := column_lsb n L hL s hs q hq a
    rw [accessMix_column n L hL s hs a q hq, fnv_lsb, ih, List.range_succ, List.map_append, ← List.cons_append]
    unfold parity
    rw [List.foldl_append]
    rfl

/-- the last access, with the low bits -/
theorem access_low (n : Nat) (L : Nat → List U32) (hL : ∀ k, (L k).length = 16) (s : List Byte) (hs : s.length = 64) (k p : Nat) (hp : p = page n L s k)
    (hother : ∀ i < k, page n L s i ≠ p) (b j : Nat) (hb : b < 2) (hj : j < 16) (x : U32) :
    ∃ y, Spec.Ethash.accessMix n (change L (p + b) j x) s (k + 1) = (Spec.Ethash.accessMix n L s (k + 1)).set (16 * b + j) y ∧
      ∀ l, Low l y ((Spec.Ethash.accessMix n L s (k + 1)).getD (16 * b + j) 0) ↔ Low l x ((L (p + b)).getD j 0) := by
  obtain ⟨u, hu⟩ : ∃ u, u = Spec.Ethash.accessMix n L s k := ⟨_, rfl⟩
  have hev : p % 2 = 0 := by rw [hp]; exact Nat.mul_mod_left _ 2
  have hk := accessMix_change n L s p b j x hev hb k hother
  refine ⟨Spec.Ethash.fnv (u.getD (16 * b + j) 0) x, ?_, fun l => ?_⟩
  · rw [accessMix_succ, accessMix_succ, page_congr n L _ s k hk, hk, ← hp, ← hu, page_set L hL p b j x hb hj, zipWith_set]
  · rw [accessMix_column n L hL s hs k _ (by omega), ← hp, ← hu, pair_getD L hL p b j hb hj]
    exact fnv_low_right l _ _ _

end Item

attribute [local irreducible] Spec.Ethash.accessMix

namespace Item

/-- what `hashimoto` returns, with the seed hash as a variable -/
theorem hashimoto_of (P : Prims) (hash : List Byte) (hh : hash.length = 32) (nonce size : U64) (hs1 : 128 ≤ size.toNat) (hs2 : size.toNat < 2 ^ 38)
    (s : List Byte) (hs : s = P.keccak512 (hash ++ Spec.leEncode 8 nonce.toNat)) (M : Nat → List U32) (hM : ∀ k, (M k).length = 16) :
    Ethash.hashimoto P hash nonce size (fun i => .ok (M i.toNat)) =
      .ok (bytesLE (Spec.Ethash.cmix (Spec.Ethash.accessMix (size.toNat / 64) M s 64)),
        P.keccak256 (s ++ bytesLE (Spec.Ethash.cmix (Spec.Ethash.accessMix (size.toNat / 64) M s 64)))) := by
  rw [Ethash.hashimoto_eq P hash hh nonce size hs1 hs2 _ M fun k hk => ⟨by rw [BitVec.toNat_ofNat, Nat.mod_eq_of_lt (by omega)], hM k⟩]
  unfold Spec.Ethash.hashimoto Spec.Ethash.seedOf
  rw [← hs]
  dsimp only
  rw [Dag.bytes_eq]

theorem cmix_word (v : List U32) (i : Nat) (hi : i < 8) : Spec.leWord32 (bytesLE (Spec.Ethash.cmix v)) i =
    Spec.Ethash.fnv (Spec.Ethash.fnv (Spec.Ethash.fnv (v.getD (4 * i) 0) (v.getD (4 * i + 1) 0)) (v.getD (4 * i + 2) 0)) (v.getD (4 * i + 3) 0) := by
  rw [leWord_bytes _ i (by rw [Ethash.cmix_length]; exact hi), Spec.Ethash.cmix, List.getD_eq_getElem?_getD, List.getElem?_map, List.getElem?_range hi]
  rfl

end Item

/-- **C103** The lowest bit of a word of the mix digest is the parity of the lowest bits of four words of the seed hash and of four words of each
of the 64 pages read. -/
theorem C103_parity (P : Prims) (hash : List Byte) (hh : hash.length = 32) (nonce size : U64) (hs1 : 128 ≤ size.toNat) (hs2 : size.toNat < 2 ^ 38)
    (L : Nat → List U32) (hL : ∀ k, (L k).length = 16) (s : List Byte) (hs : s = P.keccak512 (hash ++ Spec.leEncode 8 nonce.toNat)) :
    ∃ mix r, Ethash.hashimoto P hash nonce size (fun i => .ok (L i.toNat)) = .ok (mix, r) ∧
      ∀ i < 8, (Spec.leWord32 mix i).getLsbD 0 = parity ((List.range 4).map fun j => parity ((Spec.leWord32 s ((4 * i + j) % 16)).getLsbD 0 ::
        (List.range 64).map fun a => ((L (page (size.toNat / 64) L s a) ++ L (page (size.toNat / 64) L s a + 1)).getD (4 * i + j) 0).getLsbD 0)) := by
  have hsl : s.length = 64 := by rw [hs]; exact P.keccak512_length _
  refine ⟨_, _, hashimoto_of P hash hh nonce size hs1 hs2 s hs L hL, fun i hi => ?_⟩
  have hc := fun q (hq : q < 32) => column_lsb (size.toNat / 64) L hL s hsl q hq 64
  rw [cmix_word _ i hi, fnv_lsb, fnv_lsb, fnv_lsb, hc _ (by omega), hc _ (by omega), hc _ (by omega), hc _ (by omega)]
  rw [show List.range 4 = [0, 1, 2, 3] from rfl]
  simp only [List.map_cons, List.map_nil]
  rw [parity.eq_1 [_, _, _, _]]
  simp only [List.foldl_cons, List.foldl_nil, Bool.false_xor]
  rfl

/-- **C103** In the setting of C101 the digests agree in the `k` lowest bits of the word in question exactly if the old and the new word do: the
lowest bit that changes is the same. -/
theorem C103_lowest (P : Prims) (hash : List Byte) (hh : hash.length = 32) (nonce size : U64) (hs1 : 128 ≤ size.toNat) (hs2 : size.toNat < 2 ^ 38)
    (L : Nat → List U32) (hL : ∀ k, (L k).length = 16) (p : Nat)
    (hp : p = page (size.toNat / 64) L (P.keccak512 (hash ++ Spec.leEncode 8 nonce.toNat)) 63)
    (hother : ∀ i < 63, page (size.toNat / 64) L (P.keccak512 (hash ++ Spec.leEncode 8 nonce.toNat)) i ≠ p)
    (b j : Nat) (hb : b < 2) (hj : j < 16) (x : U32) :
    ∃ mix r mix' r', Ethash.hashimoto P hash nonce size (fun i => .ok (L i.toNat)) = .ok (mix, r) ∧
      Ethash.hashimoto P hash nonce size (fun i => .ok (change L (p + b) j x i.toNat)) = .ok (mix', r') ∧
      ∀ i < 8, ∀ k ≤ 32, (Spec.leWord32 mix' i).toNat % 2 ^ k = (Spec.leWord32 mix i).toNat % 2 ^ k ↔
        i ≠ (16 * b + j) / 4 ∨ x.toNat % 2 ^ k = ((L (p + b)).getD j 0).toNat % 2 ^ k := by
  obtain ⟨s, hs⟩ : ∃ s, s = P.keccak512 (hash ++ Spec.leEncode 8 nonce.toNat) := ⟨_, rfl⟩
  rw [← hs] at hp hother
  have hsl : s.length = 64 := by rw [hs]; exact P.keccak512_length _
  refine ⟨_, _, _, _, hashimoto_of P hash hh nonce size hs1 hs2 s hs L hL,
    hashimoto_of P hash hh nonce size hs1 hs2 s hs _ (change_length L 16 hL _ _ _), fun i hi k hk => ?_⟩
  obtain ⟨m, hm⟩ : ∃ m, m = Spec.Ethash.accessMix (size.toNat / 64) L s 64 := ⟨_, rfl⟩
  have hml : m.length = 32 := by rw [hm]; exact accessMix_length _ L hL s hsl 64
  obtain ⟨y, hm', hy⟩ := access_low (size.toNat / 64) L hL s hsl 63 p hp hother b j hb hj x
  rw [← hm] at hm' hy
  rw [hm', ← hm, cmix_word _ i hi, cmix_word _ i hi]
  have h4 := four_low m (16 * b + j) y (by rw [hml]; omega) i k hk
  dsimp only at h4
  exact h4.trans (or_congr Iff.rfl (hy k))

-- both parities occur among the eight words (evaluated), and for the hypotheses of `C103_lowest` see `Verif/Props/LastItem.lean`
#guard (let s : List Byte := (List.range 64).map fun i => BitVec.ofNat 8 (i * i + 7)
  let L : Nat → List U32 := fun k => (List.range 16).map fun j => BitVec.ofNat 32 ((16 * k + j) * 2654435761 / 65536)
  let m := Spec.Ethash.accessMix 16777216 L s 64
  let bits := (Spec.Ethash.cmix m).map fun w => w.getLsbD 0
  let sums := (List.range 8).map fun i => parity ((List.range 4).map fun j => parity ((Spec.leWord32 s ((4 * i + j) % 16)).getLsbD 0 ::
    (List.range 64).map fun a => ((L (page 16777216 L s a) ++ L (page 16777216 L s a + 1)).getD (4 * i + j) 0).getLsbD 0))
  bits = sums && bits.contains true && bits.contains false)

end Verif.Props
