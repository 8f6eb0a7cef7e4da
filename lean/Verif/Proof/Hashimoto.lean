import Verif.Model.Hashimoto
import Verif.Proof.Generate

/-! # `hashimoto` is the published function and only asks for items that exist -/

set_option autoImplicit false

namespace Verif.Ethash

open Go Spec.Ethash Dag

/-- ethash.go:41-45 -/
theorem seed_eq (hash : List Byte) (h : hash.length = 32) (nonce : U64) :
    (do
      let seed ← copyAt (List.replicate 40 0) 0 hash
      putU64 .little seed 32 nonce) = .ok (hash ++ Spec.leEncode 8 nonce.toNat) := by
  rw [copyAt_ok _ _ _ (by simp [h]), ok_bind, putU64, if_neg (by simp [h]), if_neg (by simp [h])]
  refine congrArg Except.ok ?_
  rw [Spec.leEncode_eq_leBytes, h]
  have e1 : (List.take 0 (List.replicate 40 (0 : Byte)) ++ hash ++ List.drop (0 + 32) (List.replicate 40 0)).take 32 = hash := by
    rw [List.take_zero, List.nil_append, List.take_append_of_le_length (by omega), List.take_of_length_le (by omega)]
  rw [e1, List.drop_of_length_le (by simp [h]), List.append_nil]
  rfl

/-- ethash.go:49-52 -/
theorem mix_loop (seed : List Byte) (h : seed.length = 64) :
    forRange 0 32 (List.replicate 32 0) (mixStep seed) = .ok (words seed ++ words seed) := by
  rw [forRange_fill (fun i => BitVec.ofNat 32 (leNat ((seed.drop (4 * (i % 16))).take 4))) 32 _ (by simp)]
  · refine congrArg Except.ok ?_
    rw [words_eq]
    apply List.ext_getElem
    · simp [wordView_length, h]
    · intro i h1 h2
      have hi : i < 32 := by simpa using h1
      simp only [List.getElem_map, List.getElem_range]
      by_cases h16 : i < 16
      · rw [List.getElem_append_left (by rw [wordView_length, h]; omega), Nat.mod_eq_of_lt h16]
        simp [wordView]
      · rw [List.getElem_append_right (by rw [wordView_length, h]; omega)]
        have : i % 16 = i - 16 := by omega
        simp [wordView, h, this]
  · intro i m hi hl _
    have := getU32_at seed (i % 16) (by omega)
    unfold mixStep
    rw [← bind_assoc, this, ok_bind, upd_ok _ _ _ (by omega)]

/-- ethash.go:58-60 -/
theorem lookup_loop (lookup : Lookup) (L : Nat → List U32) (rows : Nat) (p : Nat) (hp : p < rows)
    (hL : ∀ k, k < 2 * rows → lookup (BitVec.ofNat 32 k) = .ok (L k)) (hLl : ∀ k, k < 2 * rows → (L k).length = 16)
    (temp : List U32) (ht : temp.length = 32) :
    forRange 0 2 temp (lookupStep lookup (BitVec.ofNat 32 p)) = .ok (L (p * 2) ++ L (p * 2 + 1)) := by
  have e0 : ∀ j, j < 2 → 2 * BitVec.ofNat 32 p + BitVec.ofNat 32 j = BitVec.ofNat 32 (p * 2 + j) := by
    intro j hj
    apply BitVec.eq_of_toNat_eq
    simp only [BitVec.toNat_add, BitVec.toNat_mul, BitVec.toNat_ofNat, show (2 : U32).toNat = 2 from rfl]
    omega
  have l0 := hLl (p * 2) (by omega)
  have l1 := hLl (p * 2 + 1) (by omega)
  simp only [forRange, loop, lookupStep]
  rw [e0 0 (by omega), e0 1 (by omega), Nat.add_zero, hL _ (by omega), ok_bind, hL _ (by omega),
    copyAt_ok _ _ _ (by rw [l0, ht]; simp), ok_bind, ok_bind,
    copyAt_ok _ _ _ (by simp [l0, l1, ht, hashWords]), ok_bind]
  refine congrArg Except.ok ?_
  simp only [l0, l1, hashWords, Nat.zero_mul, List.take_zero, List.nil_append, Nat.zero_add, Nat.one_mul]
  rw [List.take_append_of_le_length (by omega), List.take_of_length_le (by omega), List.drop_append, l0,
    List.drop_of_length_le (by omega), List.drop_drop, List.drop_of_length_le (by omega)]
  simp

/-- ethash.go:56-62 -/
theorem access_loop (lookup : Lookup) (L : Nat → List U32) (n : Nat) (h1 : 1 ≤ n / 2) (hr : n / 2 < 2 ^ 32)
    (hL : ∀ k, k < 2 * (n / 2) → lookup (BitVec.ofNat 32 k) = .ok (L k)) (hLl : ∀ k, k < 2 * (n / 2) → (L k).length = 16)
    (seed : List Byte) (hs : seed.length = 64) (temp : List U32) (ht : temp.length = 32) (m : Nat) :
    ∃ t, forRange 0 m (words seed ++ words seed, temp) (hashimotoStep lookup (BitVec.ofNat 32 (n / 2)) (Spec.leWord32 seed 0)) =
      .ok (accessMix n L seed m, t) ∧ (accessMix n L seed m).length = 32 := by
  obtain ⟨st, e, h2, h3, h4⟩ := forRange_inv (f := hashimotoStep lookup (BitVec.ofNat 32 (n / 2)) (Spec.leWord32 seed 0))
    (fun i st => st.1 = accessMix n L seed i ∧ st.1.length = 32 ∧ st.2.length = 32) 0 m (words seed ++ words seed, temp) (by omega)
    ⟨rfl, by simp [words_eq, wordView_length, hs], ht⟩ (by
      rintro i ⟨mix, t⟩ _ _ ⟨h2, h3, h4⟩
      simp only at h2 h3 h4
      obtain ⟨p, hp⟩ : ∃ p, p = (fnv (BitVec.ofNat 32 i ^^^ Spec.leWord32 seed 0) (mix.getD (i % 32) 0)).toNat % (n / 2) := ⟨_, rfl⟩
      have hpn : p < n / 2 := hp ▸ Nat.mod_lt _ h1
      have hg : mix[i % 32]'(by omega) = mix.getD (i % 32) 0 := by
        rw [List.getD_eq_getElem?_getD, List.getElem?_eq_getElem (by omega)]; rfl
      have l0 := hLl (p * 2) (by omega)
      have l1 := hLl (p * 2 + 1) (by omega)
      refine ⟨(List.zipWith fnv mix (L (p * 2) ++ L (p * 2 + 1)), L (p * 2) ++ L (p * 2 + 1)), ?_, ?_, ?_, ?_⟩
      · unfold hashimotoStep
        simp only [h3]
        rw [idx_ok _ _ (by omega), ok_bind, umod_rows _ _ h1 hr, ok_bind, hg, fnv_eq, ← hp,
          show mixBytes / hashBytes = 2 from rfl, lookup_loop lookup L (n / 2) p hpn hL hLl t h4, ok_bind,
          Crypto.fnvHash_eq _ _ (by simp [l0, l1, h3]), ok_bind]
        rfl
      · rw [accessMix, ← h2, ← hp]
      · simp [l0, l1, h3]
      · simp [l0, l1])
  exact ⟨st.2, by rw [e, ← h2], h2 ▸ h3⟩

/-- ethash.go:65-69 -/
theorem compress_loop (mix : List U32) (h : mix.length = 32) :
    (do
      let mix ← forRange 0 8 mix compressStep
      slc mix 0 (mix.length / 4)) = .ok (cmix mix) := by
  have hg : ∀ i (hi : i < 32), mix[i]'(by omega) = mix.getD i 0 := fun i hi => by
    rw [List.getD_eq_getElem?_getD, List.getElem?_eq_getElem (by omega)]; rfl
  obtain ⟨m, e, hl, hlo, hhi⟩ := forRange_inv (f := compressStep)
    (fun k m => m.length = 32 ∧ (∀ j, j < k → m[j]? = some (fnv (fnv (fnv (mix.getD (4 * j) 0) (mix.getD (4 * j + 1) 0))
      (mix.getD (4 * j + 2) 0)) (mix.getD (4 * j + 3) 0))) ∧ ∀ j, 4 * k ≤ j → m[j]? = mix[j]?) 0 8 mix (by omega)
    ⟨h, by omega, fun _ _ => rfl⟩ (by
      rintro k m _ hk ⟨hl, hlo, hhi⟩
      have hm : ∀ j (hj : j < 32), 4 * k ≤ j → m[j]'(by omega) = mix.getD j 0 := by
        intro j hj hj2
        have := hhi j hj2
        rw [List.getElem?_eq_getElem (by omega), List.getElem?_eq_getElem (by omega)] at this
        rw [Option.some.inj this, hg j hj]
      unfold compressStep
      refine ⟨m.set k (fnv (fnv (fnv (mix.getD (4 * k) 0) (mix.getD (4 * k + 1) 0)) (mix.getD (4 * k + 2) 0)) (mix.getD (4 * k + 3) 0)),
        ?_, by simpa using hl, ?_, ?_⟩
      · simp only
        rw [idx_ok _ _ (by omega), ok_bind, idx_ok _ _ (by omega), ok_bind, idx_ok _ _ (by omega), ok_bind, idx_ok _ _ (by omega),
          ok_bind, upd_ok _ _ _ (by omega), show 4 * k / 4 = k by omega, hm _ (by omega) (by omega), hm _ (by omega) (by omega),
          hm _ (by omega) (by omega), hm _ (by omega) (by omega), fnv_eq]
      · intro j hj
        by_cases hjk : j = k
        · subst hjk
          rw [List.getElem?_set_self (by omega)]
        · rw [List.getElem?_set_ne (by omega), hlo j (by omega)]
      · intro j hj
        rw [List.getElem?_set_ne (by omega), hhi j (by omega)])
  rw [e, ok_bind, hl, slc_ok _ _ _ (by omega) (by omega), List.drop_zero]
  refine congrArg Except.ok ?_
  apply List.ext_getElem?
  intro j
  rw [List.getElem?_take]
  by_cases hj : j < 8
  · rw [if_pos (by omega), hlo j hj, cmix]
    simp [hj]
  · rw [if_neg (by omega), List.getElem?_eq_none (by simp [cmix]; omega)]

theorem cmix_length (mix : List U32) : (cmix mix).length = 8 := by simp [cmix]

/-- ethash.go:71-74 -/
theorem digest_loop (mix : List U32) (h : mix.length = 8) :
    forRange 0 mix.length (List.replicate 32 0) (digestStep mix) = .ok (bytes mix) := by
  have := Convutil.uint32ArrayToBytes_eq mix .little
  rw [Convutil.uint32ArrayToBytes, h] at this
  rw [h, bytes_eq]
  exact this

/-- ethash.go:36-76 for a dataset of any size: the number of rows is taken modulo 2^32 -/
theorem hashimoto_all (P : Prims) (hash : List Byte) (hh : hash.length = 32) (nonce size : U64) (hs1 : size.toNat / 128 % 2 ^ 32 ≠ 0)
    (lookup : Lookup) (L : Nat → List U32)
    (hL : ∀ k, k < 2 * (size.toNat / 128 % 2 ^ 32) → lookup (BitVec.ofNat 32 k) = .ok (L k) ∧ (L k).length = 16) :
    hashimoto P hash nonce size lookup =
      .ok (Spec.Ethash.hashimoto P.keccak512 P.keccak256 (2 * (size.toNat / 128 % 2 ^ 32)) L hash nonce) := by
  obtain ⟨n, hn⟩ : ∃ n, n = 2 * (size.toNat / 128 % 2 ^ 32) := ⟨_, rfl⟩
  have hn2 : n / 2 = size.toNat / 128 % 2 ^ 32 := by omega
  have hlt : size.toNat / 128 % 2 ^ 32 < 2 ^ 32 := Nat.mod_lt _ (by omega)
  have hrows : (size / BitVec.ofNat 64 mixBytes).setWidth 32 = BitVec.ofNat 32 (n / 2) := by
    apply BitVec.eq_of_toNat_eq
    rw [BitVec.toNat_setWidth, BitVec.toNat_udiv, BitVec.toNat_ofNat, BitVec.toNat_ofNat, show mixBytes % 2 ^ 64 = 128 from rfl, hn2,
      Nat.mod_mod]
  rw [← hn] at hL ⊢
  obtain ⟨s, hs⟩ : ∃ s, s = seedOf P.keccak512 hash nonce := ⟨_, rfl⟩
  have hsl : s.length = 64 := by rw [hs, seedOf]; exact P.keccak512_length _
  have hs' : P.keccak512 (hash ++ Spec.leEncode 8 nonce.toNat) = s := hs.symm
  have hse := seed_eq hash hh nonce
  have hhead : getU32 .little s = .ok (Spec.leWord32 s 0) := by
    rw [getU32, if_pos (by omega), Spec.leWord32, Spec.leValue_eq]
    rfl
  obtain ⟨t, ea, hal⟩ := access_loop lookup L n (by omega) (by omega) (fun k hk => (hL k (by omega)).1)
    (fun k hk => (hL k (by omega)).2) s hsl
    (List.replicate 32 0) (by simp) 64
  have hc := compress_loop _ hal
  unfold hashimoto
  simp only
  rw [← bind_assoc, hse, ok_bind, hs', hhead, ok_bind, show mixBytes / 4 = 32 from rfl, mix_loop s hsl, ok_bind, hrows]
  have hwl : (words s ++ words s).length = 32 := by simp [words_eq, wordView_length, hsl]
  rw [hwl, hashimotoRounds, ea, ok_bind]
  simp only [hal]
  rw [show 32 / 4 = 8 from rfl, ← bind_assoc, hc, ok_bind, digest_loop _ (cmix_length _), ok_bind, Spec.Ethash.hashimoto, ← hs]
  rfl

/-- the published function depends on the number of items only through the number of pairs -/
theorem accessMix_pairs (n n' : Nat) (h : n / 2 = n' / 2) (L : Nat → List U32) (s : List Byte) (i : Nat) :
    accessMix n L s i = accessMix n' L s i := by
  induction i with
  | zero => rfl
  | succ i ih => rw [accessMix, accessMix, ih, h]

theorem hashimoto_eq (P : Prims) (hash : List Byte) (hh : hash.length = 32) (nonce size : U64) (hs1 : 128 ≤ size.toNat)
    (hs2 : size.toNat < 2 ^ 38) (lookup : Lookup) (L : Nat → List U32)
    (hL : ∀ k, k < 2 * (size.toNat / 128) → lookup (BitVec.ofNat 32 k) = .ok (L k) ∧ (L k).length = 16) :
    hashimoto P hash nonce size lookup = .ok (Spec.Ethash.hashimoto P.keccak512 P.keccak256 (size.toNat / 64) L hash nonce) := by
  have hm : size.toNat / 128 % 2 ^ 32 = size.toNat / 128 := Nat.mod_eq_of_lt (by omega)
  rw [hashimoto_all P hash hh nonce size (by omega) lookup L (by rw [hm]; exact hL), hm, Spec.Ethash.hashimoto, Spec.Ethash.hashimoto,
    accessMix_pairs (2 * (size.toNat / 128)) (size.toNat / 64) (by omega)]

/-- ethash.go:58 with a number of rows that is zero in 32 bits -/
theorem hashimoto_zero (P : Prims) (hash : List Byte) (hh : hash.length = 32) (nonce size : U64) (h0 : size.toNat / 128 % 2 ^ 32 = 0)
    (lookup : Lookup) : hashimoto P hash nonce size lookup = .error (.panic .divZero) := by
  have hrows : (size / BitVec.ofNat 64 mixBytes).setWidth 32 = (0 : U32) := by
    apply BitVec.eq_of_toNat_eq
    rw [BitVec.toNat_setWidth, BitVec.toNat_udiv, BitVec.toNat_ofNat, show mixBytes % 2 ^ 64 = 128 from rfl, h0]
    rfl
  have hs := P.keccak512_length (hash ++ Spec.leEncode 8 nonce.toNat)
  unfold hashimoto
  simp only
  rw [hrows, ← bind_assoc, seed_eq hash hh nonce, ok_bind, getU32, if_pos (by omega), ok_bind, show mixBytes / 4 = 32 from rfl,
    mix_loop _ hs, ok_bind, hashimotoRounds, forRange]
  simp only [loop, hashimotoStep]
  rw [idx_ok _ _ (Nat.mod_lt _ (by simp [Dag.words_eq, Dag.wordView_length, hs])), ok_bind]
  rfl

end Verif.Ethash
