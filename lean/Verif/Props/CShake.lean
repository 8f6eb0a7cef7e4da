import Verif.Proof.CShake
import Verif.Proof.KeccakFBij
import Verif.Props.HeavyMatrix

/-! # C107: `Keccak256`, `Keccak512` and `CShake256` with the hash objects, and what they absorb -/

set_option autoImplicit false

namespace Verif.Props

open Go Hasher Spec.Sponge

/-- **C107** `Keccak256` and `Keccak512` return the digest of the sponge, and the hashers write the same to their destinations, after any use. -/
theorem C107_keccak (f : List Byte → List Byte) (hf : ∀ x : List Byte, x.length = 200 → (f x).length = 200) (b : List Byte) :
    Hasher.keccak256 f b = .ok (digest f 136 1 32 b) ∧ Hasher.keccak512 f b = .ok (digest f 72 1 64 b) ∧
    (∀ (s : Sponge) (dest : List Byte), dest.length = 32 → Prod.fst <$> call (legacyKeccak256 f) s dest b = Hasher.keccak256 f b) ∧
    (∀ (s : Sponge) (dest : List Byte), dest.length = 64 → Prod.fst <$> call (legacyKeccak512 f) s dest b = Hasher.keccak512 f b) := by
  have h1 : Hasher.keccak256 f b = .ok (digest f 136 1 32 b) := once_eq _ (good256 f hf) b 32
  have h2 : Hasher.keccak512 f b = .ok (digest f 72 1 64 b) := once_eq _ (good512 f hf) b 64
  refine ⟨h1, h2, ?_, ?_⟩
  · intro s dest hd
    obtain ⟨s', _, e⟩ := call_eq (legacyKeccak256 f) (good256 f hf) s dest b
    rw [e, h1, if_neg (by simp [legacyKeccak256, hd]), show dest.drop (legacyKeccak256 f).outputLen = [] from List.drop_eq_nil_iff.mpr (Nat.le_of_eq hd),
      List.append_nil]
    rfl
  · intro s dest hd
    obtain ⟨s', _, e⟩ := call_eq (legacyKeccak512 f) (good512 f hf) s dest b
    rw [e, h2, if_neg (by simp [legacyKeccak512, hd]), show dest.drop (legacyKeccak512 f).outputLen = [] from List.drop_eq_nil_iff.mpr (Nat.le_of_eq hd),
      List.append_nil]
    rfl

/-- **C107** `CShake256` is cSHAKE256 of the standard with an empty function name, and SHAKE256 if the personalisation is empty. -/
theorem C107_cshake (f : List Byte → List Byte) (hf : ∀ x : List Byte, x.length = 200 → (f x).length = 200) (data personal : List Byte) (size : Nat) :
    Hasher.cshake256 f data personal size = .ok (Spec.CShake.cshake256 f [] personal data size) := cshake256_eq f hf data personal size

/-- **C107** A shorter output is the front of a longer one: the size does not enter. -/
theorem C107_size (f : List Byte → List Byte) (hf : ∀ x : List Byte, x.length = 200 → (f x).length = 200) (data personal : List Byte) (m n : Nat)
    (hmn : m ≤ n) : Hasher.cshake256 f data personal m = List.take m <$> Hasher.cshake256 f data personal n := by
  rw [C107_cshake f hf, C107_cshake f hf]
  change _ = Except.ok _
  unfold Spec.CShake.cshake256
  rw [← List.map_take, List.take_range, Nat.min_eq_left hmn]

/-- **C107** What is absorbed determines the personalisation and the data. -/
theorem C107_domains (p q x y : List Byte) (hp : p.length < 2 ^ 61) (hq : q.length < 2 ^ 61)
    (h : Spec.CShake.absorbed [] p x = Spec.CShake.absorbed [] q y) : p = q ∧ x = y := by
  have big : (8 * 2 ^ 61 : Nat) < 256 ^ 255 := by norm_num
  exact (absorbed_inj (n := []) (m := []) (by simp) (by simp) (by omega) (by omega) h).2

/-- the personalisation of the first digest in HeavyHash, heavyhash.go:29 -/
def powName : List Byte := "ProofOfWorkHash".toList.map fun ch => BitVec.ofNat 8 ch.toNat

/-- the personalisation of the last digest in HeavyHash, heavyhash.go:56 -/
def heavyName : List Byte := "HeavyHash".toList.map fun ch => BitVec.ofNat 8 ch.toNat

/-- **C107** The two digests in HeavyHash never absorb the same blocks, whatever their inputs, and neither absorbs what SHAKE256 absorbs for some input. -/
theorem C107_heavy (x y z : List Byte) : Spec.CShake.absorbed [] powName x ≠ Spec.CShake.absorbed [] heavyName y ∧
    Spec.CShake.absorbed [] powName x ≠ Spec.CShake.absorbed [] [] z ∧ Spec.CShake.absorbed [] heavyName y ≠ Spec.CShake.absorbed [] [] z := by
  have l1 : powName.length < 2 ^ 61 := by decide +kernel
  have l2 : heavyName.length < 2 ^ 61 := by decide +kernel
  refine ⟨fun h => ?_, fun h => ?_, fun h => ?_⟩
  · exact absurd (C107_domains _ _ _ _ l1 l2 h).1 (by decide +kernel)
  · exact absurd (C107_domains _ _ _ _ l1 (by simp) h).1 (by decide +kernel)
  · exact absurd (C107_domains _ _ _ _ l2 (by simp) h).1 (by decide +kernel)

/-- the string that the first digest of HeavyHash is taken of -/
def powHeader (hash : List Byte) (ts nonce : U64) : List Byte :=
  hash ++ Spec.leEncode 8 ts.toNat ++ List.replicate 32 0 ++ Spec.leEncode 8 nonce.toNat

/-- **C107** HeavyHash with sponges for its digests: `Compute` returns cSHAKE256 under the one name of a string made from the first matrix of full
rank and cSHAKE256 under the other of the header. -/
theorem C107_compute {F : Type} (N : Heavy.Num F) (hz : N.big (N.ofU16 0) = false) (P : Prims) (f : List Byte → List Byte)
    (hP : ∀ d p n, P.cshake256 d p n = Spec.CShake.cshake256 f [] p d n) (fuel : Nat) (hash : List Byte) (hl : hash.length = 32)
    (ts nonce : U64) (d : Option (List Byte)) (hd : Heavy.compute N P fuel hash ts nonce = .ok d) :
    ∃ t, Heavy.calculateRank N (Spec.Heavy.candidate (Spec.Heavy.seed hash) t) = .ok 64 ∧
      (∀ t' < t, Heavy.calculateRank N (Spec.Heavy.candidate (Spec.Heavy.seed hash) t') ≠ .ok 64) ∧
      d = some (Spec.CShake.cshake256 f [] heavyName (lastHashed (Spec.Heavy.entry (Spec.Heavy.seed hash) t) (Spec.CShake.cshake256 f [] powName (powHeader hash ts nonce) 32)) 32).reverse := by
  obtain ⟨t, _, c1, c2, e⟩ := (C50_compute N hz P fuel hash hl ts nonce d).mp hd
  refine ⟨t, c1, c2, ?_⟩
  rw [e]
  unfold Spec.Heavy.digest Spec.Heavy.powHash
  dsimp only
  rw [hP, hP]
  have e1 : powName = [80, 114, 111, 111, 102, 79, 102, 87, 111, 114, 107, 72, 97, 115, 104] := by decide +kernel
  have e2 : heavyName = [72, 101, 97, 118, 121, 72, 97, 115, 104] := by decide +kernel
  rw [e1, e2]
  rfl

/-- **C107** Two attempts for which the first digest absorbs the same blocks are the same attempt. -/
theorem C107_attempts (h1 h2 : List Byte) (l1 : h1.length = 32) (l2 : h2.length = 32) (t1 t2 n1 n2 : U64)
    (h : Spec.CShake.absorbed [] powName (powHeader h1 t1 n1) = Spec.CShake.absorbed [] powName (powHeader h2 t2 n2)) :
    h1 = h2 ∧ t1 = t2 ∧ n1 = n2 := by
  have e := (C107_domains _ _ _ _ (by decide +kernel) (by decide +kernel) h).2
  unfold powHeader at e
  obtain ⟨e, en⟩ := List.append_inj e (by simp [l1, l2])
  obtain ⟨e, _⟩ := List.append_inj e (by simp [l1, l2])
  obtain ⟨eh, et⟩ := List.append_inj e (by rw [l1, l2])
  have inj : ∀ a b : U64, Spec.leEncode 8 a.toNat = Spec.leEncode 8 b.toNat → a = b := by
    intro a b hab
    rw [Spec.leEncode_eq_leBytes, Spec.leEncode_eq_leBytes] at hab
    have := congrArg leNat hab
    rw [leNat_leBytes, leNat_leBytes] at this
    exact BitVec.eq_of_toNat_eq (by omega)
  exact ⟨eh, inj _ _ et, inj _ _ en⟩

/-- the string before the input: one block -/
example : Spec.CShake.front [] heavyName = [1, 136, 1, 0, 1, 72] ++ heavyName ++ List.replicate 121 0 := by
  decide +kernel

/-- the hypothesis of `C107_compute` is met for every permutation -/
example (f : List Byte → List Byte) : ∃ P : Prims, ∀ d p n, P.cshake256 d p n = Spec.CShake.cshake256 f [] p d n :=
  ⟨{ Prims.zero with
    cshake256 := fun d p n => Spec.CShake.cshake256 f [] p d n
    cshake256_length := fun d p n => by simp [Spec.CShake.cshake256] }, fun _ _ _ => rfl⟩

/-- two personalisations, the one the front of the other, with data that continue it -/
example : Spec.CShake.absorbed [] [1] [2, 3] ≠ Spec.CShake.absorbed [] [1, 2] [3] := fun h =>
  absurd (C107_domains _ _ _ _ (by decide) (by decide) h).1 (by decide)

/-- **C107** What `Keccak256`, `Keccak512` and the hashers absorb determines their input. -/
theorem C107_keccak_blocks (r : Nat) (x y : List Byte) (h : x ++ padding r 1 x.length = y ++ padding r 1 y.length) : x = y :=
  (padded_inj r (by decide) (by decide) (by decide) (by decide) (by decide) h).2

/-- the state that a string shorter than a block is absorbed into before the permutation -/
def oneBlock (r : Nat) (d : List Byte) : List Byte := xorInto (List.replicate 200 0) (d ++ padding r 1 d.length)

/-- **C107** An input shorter than a block, as the 40 bytes for the seed of Ethash and the 64 bytes of a row of the cache, takes one
permutation, and the digest is the front of the state after it. If the permutation is one-to-one, different inputs give different states. -/
theorem C107_one_block (f : List Byte → List Byte) (hf : ∀ x : List Byte, x.length = 200 → (f x).length = 200) (r m : Nat) (hr : 2 ≤ r) (hr2 : r ≤ 200)
    (hm : m ≤ r) (d : List Byte) (hd : d.length < r) :
    digest f r 1 m d = (f (oneBlock r d)).take m ∧
    ((∀ x y : List Byte, x.length = 200 → y.length = 200 → f x = f y → x = y) →
      ∀ e : List Byte, e.length < r → f (oneBlock r d) = f (oneBlock r e) → d = e) := by
  have len : ∀ e : List Byte, e.length < r → (e ++ padding r 1 e.length).length = r := by
    intro e he
    rw [List.length_append, padding_length r hr, Nat.mod_eq_of_lt he]
    omega
  constructor
  · have hb : blocks r (d ++ padding r 1 d.length) = [d ++ padding r 1 d.length] := by
      unfold blocks
      rw [len d hd, Nat.div_self (by omega), List.range_one, List.map_singleton, Nat.mul_zero, List.drop_zero, List.take_of_length_le (by rw [len d hd])]
    have ha : absorb f r (d ++ padding r 1 d.length) = f (oneBlock r d) := by
      unfold absorb
      rw [hb]
      rfl
    have hl : (f (oneBlock r d)).length = 200 := hf _ (xorInto_length _ _)
    unfold digest
    apply List.ext_getElem?
    intro i
    by_cases hi : i < m
    · rw [List.getElem?_map, List.getElem?_range hi, List.getElem?_take, if_pos hi]
      change some (output f r 1 d i) = _
      unfold output stream
      rw [ha, Nat.div_eq_of_lt (by omega), Nat.mod_eq_of_lt (by omega), Function.iterate_zero, id, List.getD_eq_getElem?_getD,
        List.getElem?_eq_getElem (by omega)]
      rfl
    · rw [List.getElem?_eq_none (by simp; omega), List.getElem?_eq_none (by simp; omega)]
  · intro inj e he h
    have h1 : oneBlock r d = oneBlock r e := inj _ _ (xorInto_length _ _) (xorInto_length _ _) h
    apply C107_keccak_blocks r
    apply List.ext_getElem?
    intro i
    by_cases hi : i < r
    · have h2 : (oneBlock r d).getD i 0 = (oneBlock r e).getD i 0 := by rw [h1]
      have z : (List.replicate 200 (0 : Byte)).getD i 0 = 0 := by
        rw [List.getD_eq_getElem?_getD, List.getElem?_replicate, if_pos (by omega)]
        rfl
      have zx : ∀ b : Byte, 0 ^^^ b = b := fun b => BitVec.zero_xor
      unfold oneBlock at h2
      rw [xorInto_getD _ _ _ (by omega), xorInto_getD _ _ _ (by omega), z, zx, zx, List.getD_eq_getElem?_getD,
        List.getD_eq_getElem?_getD, List.getElem?_eq_getElem (by rw [len d hd]; exact hi), List.getElem?_eq_getElem (by rw [len e he]; exact hi)] at h2
      rw [List.getElem?_eq_getElem (by rw [len d hd]; exact hi), List.getElem?_eq_getElem (by rw [len e he]; exact hi)]
      exact congrArg some h2
    · rw [List.getElem?_eq_none (by rw [len d hd]; omega), List.getElem?_eq_none (by rw [len e he]; omega)]

/-- **C107** Keccak-f[1600] is one-to-one: so the header hash and the nonce are determined by the state of which Ethash's seed is the front. -/
theorem C107_keccakF (h1 h2 : List Byte) (l1 : h1.length = 32) (l2 : h2.length = 32) (n1 n2 : U64) :
    Hasher.keccak512 Spec.KeccakF.keccakF (h1 ++ Spec.leEncode 8 n1.toNat) =
      .ok ((Spec.KeccakF.keccakF (oneBlock 72 (h1 ++ Spec.leEncode 8 n1.toNat))).take 64) ∧
    (Spec.KeccakF.keccakF (oneBlock 72 (h1 ++ Spec.leEncode 8 n1.toNat)) = Spec.KeccakF.keccakF (oneBlock 72 (h2 ++ Spec.leEncode 8 n2.toNat)) →
      h1 = h2 ∧ n1 = n2) := by
  have hf : ∀ x : List Byte, x.length = 200 → (Spec.KeccakF.keccakF x).length = 200 := fun x _ => by
    unfold Spec.KeccakF.keccakF Spec.KeccakF.bytes
    rw [List.length_map, List.length_range]
  have hl : ∀ (h : List Byte) (n : U64), h.length = 32 → (h ++ Spec.leEncode 8 n.toNat).length < 72 := by
    intro h n l
    rw [List.length_append, l, Spec.leEncode_length]
    decide
  have one := C107_one_block Spec.KeccakF.keccakF hf 72 64 (by decide) (by decide) (by decide) _ (hl h1 n1 l1)
  refine ⟨by rw [(C107_keccak _ hf _).2.1, one.1], fun h => ?_⟩
  have e := one.2 KeccakF64.keccakF_inj _ (hl h2 n2 l2) h
  obtain ⟨e1, e2⟩ := List.append_inj e (by rw [l1, l2])
  refine ⟨e1, ?_⟩
  rw [Spec.leEncode_eq_leBytes, Spec.leEncode_eq_leBytes] at e2
  have := congrArg leNat e2
  rw [leNat_leBytes, leNat_leBytes] at this
  exact BitVec.eq_of_toNat_eq (by omega)

/-- the seed of Ethash: 40 bytes -/
example (f : List Byte → List Byte) (hf : ∀ x : List Byte, x.length = 200 → (f x).length = 200) (d : List Byte) (hd : d.length = 40) :
    Hasher.keccak512 f d = .ok ((f (oneBlock 72 d)).take 64) := by
  rw [(C107_keccak f hf d).2.1, (C107_one_block f hf 72 64 (by decide) (by decide) (by decide) d (by omega)).1]

/-- a permutation that is one-to-one -/
example : ∀ x y : List Byte, x.length = 200 → y.length = 200 → x.reverse = y.reverse → x = y := fun _ _ _ _ h => List.reverse_inj.mp h

end Verif.Props
