import Verif.Proof.Large
import Verif.Proof.Dag
import Verif.Proof.Kawpow
import Verif.Go.Fail

/-! # Sizes, caches and L1 caches for any parameters -/

set_option autoImplicit false

namespace Verif.Dag

open Go

/-! ## The two loops for the sizes -/

theorem probablyPrime_iff (s u : U64) : probablyPrime (s / u) = true ↔ (s.toNat / u.toNat).Prime := by
  rw [probablyPrime, BitVec.toNat_udiv, decide_eq_true_iff]

/-- the number `k` steps below `s` -/
def below (u s : U64) (k : Nat) : U64 := s - BitVec.ofNat 64 k * (2 * u)

theorem below_succ (u s : U64) (k : Nat) : below u (s - 2 * u) k = below u s (k + 1) := by
  unfold below
  rw [BitVec.ofNat_add, show (BitVec.ofNat 64 k + BitVec.ofNat 64 1) * (2 * u) = BitVec.ofNat 64 k * (2 * u) + 2 * u by
    rw [BitVec.mul_comm, BitVec.mul_add, BitVec.mul_comm]
    congr 1
    exact BitVec.mul_one _]
  generalize BitVec.ofNat 64 k * (2 * u) = x
  generalize 2 * u = y
  apply BitVec.eq_of_toNat_eq
  simp only [BitVec.toNat_sub, BitVec.toNat_add]
  have := s.isLt
  have := x.isLt
  have := y.isLt
  omega

theorem below_zero (u s : U64) : below u s 0 = s := by
  unfold below
  simp

/-- the loop ends at the first number of rows that is prime -/
theorem walk_first (u : U64) (fuel : Nat) (s r : U64) (h : forever fuel s (walkStep u) = .ok r) :
    ∃ k, r = below u s k ∧ (r.toNat / u.toNat).Prime ∧ ∀ j < k, ¬ ((below u s j).toNat / u.toNat).Prime := by
  induction fuel generalizing s with
  | zero => cases h
  | succ fuel ih =>
    by_cases hp : probablyPrime (s / u) = true
    · rw [forever_ret fuel (b := s) (by rw [walkStep, if_pos hp])] at h
      injection h with h
      subst h
      exact ⟨0, (below_zero u s).symm, (probablyPrime_iff s u).mp hp, fun j hj => absurd hj (Nat.not_lt_zero _)⟩
    · rw [forever_cont fuel (s' := s - 2 * u) (by rw [walkStep, if_neg hp])] at h
      obtain ⟨k, h1, h2, h3⟩ := ih _ h
      refine ⟨k + 1, by rw [h1, below_succ], h2, fun j hj => ?_⟩
      cases j with
      | zero => rw [below_zero]; exact fun h => hp ((probablyPrime_iff s u).mpr h)
      | succ j => rw [← below_succ]; exact h3 j (by omega)

theorem twice (u : U64) (hu : u.toNat < 2 ^ 63) : (2 * u).toNat = 2 * u.toNat := by
  rw [BitVec.toNat_mul]
  show 2 * u.toNat % 2 ^ 64 = _
  omega

/-- from two rows on the loop goes down to two or three -/
theorem walk_down (u : U64) (h0 : 0 < u.toNat) (hu : u.toNat < 2 ^ 63) (k : Nat) : ∀ (s : U64), 2 * u.toNat ≤ s.toNat → s.toNat < 2 * u.toNat * (k + 1) →
    ∀ fuel, k ≤ fuel → ∃ r, forever fuel s (walkStep u) = .ok r := by
  induction k with
  | zero => intro s h1 h2; omega
  | succ k ih =>
    intro s h1 h2 fuel hf
    obtain ⟨f, rfl⟩ : ∃ f, fuel = f + 1 := ⟨fuel - 1, by omega⟩
    by_cases hp : probablyPrime (s / u) = true
    · exact ⟨s, forever_ret f (by rw [walkStep, if_pos hp])⟩
    rw [forever_cont f (s' := s - 2 * u) (by rw [walkStep, if_neg hp])]
    have h4 : 4 * u.toNat ≤ s.toNat := by
      by_contra hlt
      refine hp ((probablyPrime_iff s u).mpr ?_)
      have a1 : 2 ≤ s.toNat / u.toNat := (Nat.le_div_iff_mul_le h0).mpr h1
      have a2 : s.toNat / u.toNat < 4 := (Nat.div_lt_iff_lt_mul h0).mpr (by omega)
      obtain h | h : s.toNat / u.toNat = 2 ∨ s.toNat / u.toNat = 3 := by omega
      · rw [h]; exact Nat.prime_two
      · rw [h]; exact Nat.prime_three
    have hs : (s - 2 * u).toNat = s.toNat - 2 * u.toNat := by
      rw [BitVec.toNat_sub, twice u hu]
      have := s.isLt
      omega
    rw [Nat.mul_succ] at h2
    exact ih _ (by omega) (by omega) f (by omega)

/-- below two rows the loop goes up to the end of the 64-bit numbers; for rows of more than 2^62 bytes in several steps -/
theorem walk_up (u : U64) (h0 : 2 ^ 62 < u.toNat) (hu : u.toNat < 2 ^ 63) (k : Nat) : ∀ (s : U64), s.toNat < 2 * u.toNat →
    2 * u.toNat ≤ s.toNat + 2 * k → ∀ fuel, k + 1 ≤ fuel → ∃ r, forever fuel s (walkStep u) = .ok r := by
  induction k with
  | zero => intro s h1 h2; omega
  | succ k ih =>
    intro s h1 h2 fuel hf
    obtain ⟨f, rfl⟩ : ∃ f, fuel = f + 1 := ⟨fuel - 1, by omega⟩
    by_cases hp : probablyPrime (s / u) = true
    · exact ⟨s, forever_ret f (by rw [walkStep, if_pos hp])⟩
    rw [forever_cont f (s' := s - 2 * u) (by rw [walkStep, if_neg hp])]
    have hs : (s - 2 * u).toNat = s.toNat + (2 ^ 64 - 2 * u.toNat) := by
      rw [BitVec.toNat_sub, twice u hu]
      omega
    by_cases h : (s - 2 * u).toNat < 2 * u.toNat
    · exact ih _ h (by omega) f (by omega)
    · exact walk_down u (by omega) hu 1 _ (by omega) (by have := (s - 2 * u).isLt; omega) f (by omega)

/-- the loop ends for all rows of less than 2^63 bytes -/
theorem walk_ends (u : U64) (h0 : 0 < u.toNat) (hu : u.toNat < 2 ^ 63) (s : U64) (fuel : Nat) (hf : 2 ^ 63 < fuel) :
    ∃ r, forever fuel s (walkStep u) = .ok r := by
  have big : ∀ s : U64, s.toNat < 2 * u.toNat * (2 ^ 63 - 1 + 1) := by
    intro s
    have := s.isLt
    omega
  by_cases h2 : 2 * u.toNat ≤ s.toNat
  · exact walk_down u h0 hu (2 ^ 63 - 1) s h2 (big s) fuel (by omega)
  by_cases h3 : u.toNat ≤ 2 ^ 62
  · obtain ⟨f, rfl⟩ : ∃ f, fuel = f + 1 := ⟨fuel - 1, by omega⟩
    by_cases hp : probablyPrime (s / u) = true
    · exact ⟨s, forever_ret f (by rw [walkStep, if_pos hp])⟩
    rw [forever_cont f (s' := s - 2 * u) (by rw [walkStep, if_neg hp])]
    have hs : (s - 2 * u).toNat = s.toNat + (2 ^ 64 - 2 * u.toNat) := by
      rw [BitVec.toNat_sub, twice u hu]
      omega
    exact walk_down u h0 hu (2 ^ 63 - 1) _ (by omega) (big _) f (by omega)
  · exact walk_up u (by omega) hu u.toNat s (by omega) (by omega) fuel (by omega)

/-- it never ends for longer rows: there are never two of them -/
theorem walk_hangs (u : U64) (hu : 2 ^ 63 ≤ u.toNat) (fuel : Nat) (s : U64) : forever fuel s (walkStep u) = .error .fuel := by
  induction fuel generalizing s with
  | zero => rfl
  | succ fuel ih =>
    have hp : ¬ probablyPrime (s / u) = true := by
      rw [probablyPrime_iff]
      have : s.toNat / u.toNat < 2 := (Nat.div_lt_iff_lt_mul (by omega)).mpr (by have := s.isLt; omega)
      exact fun h => absurd h.two_le (by omega)
    rw [forever_cont fuel (s' := s - 2 * u) (by rw [walkStep, if_neg hp])]
    exact ih _

/-! ## Caches of any length -/

/-- a loop that fails in its iteration `t` -/
theorem forRange_err_from {σ : Type} {f : Nat → σ → Go σ} (I : Nat → σ → Prop) (lo n t : Nat) (hlo : lo ≤ t) (ht : t < n) (s : σ) (e : Stop)
    (h0 : I lo s) (hs : ∀ i m, lo ≤ i → i < t → I i m → ∃ m', f i m = .ok m' ∧ I (i + 1) m') (he : ∀ m, I t m → f t m = .error e) :
    forRange lo n s f = .error e := by
  obtain ⟨m, e1, hm⟩ := forRange_inv (f := f) I lo t s hlo h0 hs
  unfold forRange at *
  obtain ⟨d, hd⟩ : ∃ d, n - lo = (t - lo) + (d + 1) := ⟨n - t - 1, by omega⟩
  rw [hd, loop_add, e1, ok_bind, loop, show lo + (t - lo) = t by omega, he m hm]
  rfl

/-- a length that is not a multiple of 64 bytes: the digest of the last row has no room -/
theorem generateCache_ragged (P : Prims) (rounds : Int) (dest : List U32) (seed : List Byte) (h : dest.length % 16 ≠ 0) :
    generateCache P rounds dest seed = .error (.panic .slice) := by
  have hl : (byteView dest).length = 4 * dest.length := bytesLE_length dest
  rw [generateCache]
  have : generateCacheBytes P rounds (byteView dest) seed = .error (.panic .slice) := by
    unfold generateCacheBytes
    dsimp only
    by_cases h16 : dest.length < 16
    · rw [keccak512At, if_pos (by rw [hl]; omega)]
      rfl
    · rw [keccak512At, if_neg (by rw [hl]; omega), ok_bind]
      rw [forRange_err_from (fun _ (c : List Byte) => c.length = 4 * dest.length) 1 _ (dest.length / 16) (by omega) (by rw [hl, hashBytes]; omega) _
        (.panic .slice) ?_ ?_ ?_]
      · rfl
      · rw [List.length_append, List.length_append, List.length_take, List.length_drop, P.keccak512_length, hl]
        omega
      · intro i m h1 h2 hm
        rw [chainStep]
        rw [slc_ok _ _ _ (by rw [hashBytes]; omega) (by rw [hashBytes]; omega), ok_bind, keccak512At, if_neg (by rw [hashBytes]; omega)]
        refine ⟨_, rfl, ?_⟩
        rw [List.length_append, List.length_append, List.length_take, List.length_drop, P.keccak512_length, hm, hashBytes]
        omega
      · intro m hm
        rw [chainStep]
        rw [slc_ok _ _ _ (by rw [hashBytes]; omega) (by rw [hashBytes]; omega), ok_bind, keccak512At, if_pos (by rw [hashBytes]; omega)]
        rfl
  rw [this]
  rfl

/-- no room for the first row -/
theorem generateCache_short (P : Prims) (rounds : Int) (dest : List U32) (seed : List Byte) (h : dest.length < 16) :
    generateCache P rounds dest seed = .error (.panic .slice) := by
  have hl : (byteView dest).length = 4 * dest.length := bytesLE_length dest
  rw [generateCache]
  have : generateCacheBytes P rounds (byteView dest) seed = .error (.panic .slice) := by
    unfold generateCacheBytes
    dsimp only
    rw [keccak512At, if_pos (by rw [hl]; omega)]
    rfl
  rw [this]
  rfl

/-! ## L1 caches of any length -/

/-- generate.go:70-85 for a destination of any length: the items that fit, then what was there -/
theorem generateL1Cache_all (P : Prims) (parents : U32) (dest cache : List U32) (hc : cache.length / 16 % 2 ^ 32 ≠ 0) :
    generateL1Cache P parents dest cache =
      .ok (((List.range (dest.length / 16)).flatMap fun j => Spec.Ethash.words (Spec.Large.itemAt P.keccak512 cache parents.toNat (BitVec.ofNat 32 j))) ++
        dest.drop (16 * (dest.length / 16))) := by
  obtain ⟨W, hW⟩ : ∃ W : Nat → List Byte, W = fun j => Spec.Large.itemAt P.keccak512 cache parents.toNat (BitVec.ofNat 32 j) := ⟨_, rfl⟩
  have hWl : ∀ j, (W j).length = 64 := by intro j; rw [hW]; exact itemAt_length ..
  have hl : (byteView dest).length = 4 * dest.length := bytesLE_length dest
  have hfl : ∀ i, ((List.range i).flatMap W).length = 64 * i := by
    intro i
    rw [flatMap_length_const W 64 hWl, List.length_range]
  have key : forRange 0 (dest.length / 16) (byteView dest) (l1Step P parents cache) =
      .ok ((List.range (dest.length / 16)).flatMap W ++ (byteView dest).drop (64 * (dest.length / 16))) := by
    obtain ⟨c, h1, h2⟩ := forRange_inv (f := l1Step P parents cache)
      (fun i (c : List Byte) => c = (List.range i).flatMap W ++ (byteView dest).drop (64 * i)) 0
      (dest.length / 16) (byteView dest) (Nat.zero_le _) (by simp) (by
        rintro i m _ hi rfl
        refine ⟨_, ?_, rfl⟩
        have hi' : 64 * i + 64 ≤ 4 * dest.length := by omega
        rw [l1Step, generateDatasetItem_all P parents cache _ hc, ok_bind]
        have := hWl i
        rw [hW] at this
        dsimp only at this
        rw [copyAt_ok _ _ _ (by rw [this, List.length_append, hfl, List.length_drop, hl, hashBytes]; omega), this, hashBytes, Nat.mul_comm i 64,
          List.take_left' (hfl i), List.drop_append, hfl, List.drop_eq_nil_of_le (by rw [hfl]; omega), List.nil_append, List.drop_drop,
          List.range_succ, List.flatMap_append, List.flatMap_singleton]
        rw [show 64 * i + (64 * i + 64 - 64 * i) = 64 * (i + 1) by omega]
        rw [hW])
    rw [h1, h2]
  rw [generateL1Cache]
  rw [hl, show 4 * dest.length / hashBytes = dest.length / 16 by rw [hashBytes]; omega, key, ok_bind]
  refine congrArg Except.ok ?_
  have e1 : (List.range (dest.length / 16)).flatMap W = bytesLE ((List.range (dest.length / 16)).flatMap fun j => Spec.Ethash.words (W j)) := by
    rw [bytesLE, List.flatMap_assoc]
    refine congrArg (fun f => List.flatMap f _) ?_
    funext j
    show _ = bytesLE _
    rw [words_eq, bytesLE_wordView _ (by rw [hWl])]
  have e2 : ∀ n, n ≤ dest.length → (byteView dest).drop (4 * n) = bytesLE (dest.drop n) := by
    intro n hn
    have : byteView dest = bytesLE (dest.take n) ++ bytesLE (dest.drop n) := by
      rw [byteView_eq]
      unfold bytesLE
      rw [← List.flatMap_append, List.take_append_drop]
    rw [this]
    exact List.drop_left' (by rw [bytesLE_length, List.length_take]; omega)
  have e3 : ∀ a b : List U32, bytesLE a ++ bytesLE b = bytesLE (a ++ b) := by
    intro a b
    unfold bytesLE
    rw [List.flatMap_append]
  rw [e1, show 64 * (dest.length / 16) = 4 * (16 * (dest.length / 16)) by omega, e2 _ (by omega), e3, wordView_bytesLE, hW]

end Verif.Dag

namespace Verif.Progpow

open Go

/-- without an L1 cache the first read of the first lane panics -/
theorem hash_noL1 (cfg : Config) (hp : cfg.periodLength ≠ 0) (hl : 0 < cfg.laneCount) (hl32 : cfg.laneCount < 2 ^ 32)
    (hr : 0 < cfg.registerCount) (hr32 : cfg.registerCount < 2 ^ 32) (hrc : 0 < cfg.roundCount) (hca : 0 < cfg.roundCacheAccesses)
    (hcb : cfg.cacheBytes / 4 ≠ 0) (height seed datasetSize : U64) (h : numItems datasetSize ≠ 0)
    (lookup : Lookup) (dag : U32 → List U32) (hd : ∀ i, lookup i = .ok (dag i)) :
    Progpow.hash cfg height seed datasetSize lookup [] = .error (.panic .index) := by
  have hnz : ((datasetSize / (2 * 128)).setWidth 32 : U32).toNat ≠ 0 := by
    rw [BitVec.toNat_setWidth, BitVec.toNat_udiv, show ((2 * 128 : U64)).toNat = 256 from rfl]
    exact h
  have hl0 : (BitVec.ofNat 32 cfg.laneCount).toNat ≠ 0 := by rw [BitVec.toNat_ofNat]; omega
  unfold Progpow.hash
  rw [initMix_ok, ok_bind, udiv_ok _ _ (by
    intro h
    exact hp (BitVec.eq_of_toNat_eq h)), ok_bind]
  obtain ⟨mix, hmix⟩ : ∃ m, m = Spec.Progpow.fillMix cfg.params seed.toNat := ⟨_, rfl⟩
  have hrows := fillMix_rows cfg seed.toNat
  rw [← hmix] at hrows ⊢
  have hlen : 0 < mix.length := by rw [hrows.1]; exact hl
  have hrow : 0 < mix[0].length := by rw [hrows.2 _ (List.getElem_mem _)]; exact hr
  have hround : Progpow.round cfg (height / cfg.periodLength) (BitVec.ofNat 32 0) mix datasetSize lookup [] =
      .error (.panic .index) := by
    obtain ⟨st, k, src, dst, e, _, hrel, hps, _⟩ := initMixRngState_ok (height / cfg.periodLength) (BitVec.ofNat 32 cfg.registerCount)
    have hR : (BitVec.ofNat 32 cfg.registerCount).toNat = cfg.registerCount := by rw [BitVec.toNat_ofNat]; omega
    rw [hR] at hrel hps
    obtain ⟨v, st1, e1, hv, hrel1⟩ := nextSrc_ok hrel hr (by dsimp only; omega)
    obtain ⟨w, st2, e2, _, _⟩ := nextDst_ok hrel1 hr (by dsimp only; omega)
    have hvlt : v.toNat < cfg.registerCount := by
      have hsl : src.length = cfg.registerCount := by rw [hps.length_eq, List.length_range]
      rw [hv, List.getD_eq_getElem?_getD, List.getElem?_eq_getElem (by rw [hsl]; exact Nat.mod_lt _ hr), Option.getD_some]
      exact List.mem_range.1 (hps.mem_iff.1 (List.getElem_mem _))
    have hop : opStep cfg [] 0 (st, mix) = .error (.panic .index) := by
      obtain ⟨n, hn⟩ : ∃ n, cfg.laneCount = n + 1 := ⟨cfg.laneCount - 1, by omega⟩
      have hlane : cacheLane cfg [] v w st2.nextRng.1 0 mix = .error (.panic .index) := by
        rw [cacheLane, idx_ok _ _ hlen, ok_bind, idx_ok _ _ (by rw [hrows.2 _ (List.getElem_mem _)]; exact hvlt), ok_bind,
          umod_ok _ _ (fun h => hcb (BitVec.eq_of_toNat_eq h)), ok_bind]
        rfl
      rw [opStep, if_pos hca, cacheOp]
      dsimp only
      rw [e1, ok_bind]
      dsimp only
      rw [e2, ok_bind]
      dsimp only
      rw [hn, forRange, Nat.sub_zero, loop, hlane]
      rfl
    obtain ⟨m, hm⟩ : ∃ m, max cfg.roundCacheAccesses cfg.roundMathOperations = m + 1 :=
      ⟨max cfg.roundCacheAccesses cfg.roundMathOperations - 1, by omega⟩
    unfold Progpow.round
    rw [e, ok_bind, umod_ok _ _ hl0, ok_bind, show (BitVec.ofNat 32 0 % BitVec.ofNat 32 cfg.laneCount).toNat = 0 by
        rw [BitVec.toNat_umod, BitVec.toNat_ofNat, Nat.zero_mod], idx_ok _ _ hlen, ok_bind, idx_ok _ _ hrow, ok_bind]
    dsimp only
    rw [umod_ok _ _ hnz, ok_bind, hd, ok_bind, if_neg (by omega), hm, forRange, Nat.sub_zero, loop, hop]
    rfl
  obtain ⟨m, hm⟩ : ∃ m, cfg.roundCount = m + 1 := ⟨cfg.roundCount - 1, by omega⟩
  rw [hm, forRange, Nat.sub_zero, loop, hashRound, hround]
  rfl

theorem kawpow_noL1 (hash : List Byte) (hh : 32 ≤ hash.length) (height nonce datasetSize : U64) (h : numItems datasetSize ≠ 0)
    (lookup : Lookup) (dag : U32 → List U32) (hd : ∀ i, lookup i = .ok (dag i)) :
    kawpow hash height nonce datasetSize lookup [] = .error (.panic .index) := by
  unfold kawpow
  rw [kawpowInitialize_ok hash hh nonce, ok_bind]
  dsimp only
  rw [hash_noL1 kawpowCfg (by decide) (by decide) (by decide) (by decide) (by decide) (by decide) (by decide) (by decide) height _ datasetSize h
    lookup dag hd]
  rfl

theorem firopow_noL1 (hash : List Byte) (hh : 32 ≤ hash.length) (height nonce datasetSize : U64) (h : numItems datasetSize ≠ 0)
    (lookup : Lookup) (dag : U32 → List U32) (hd : ∀ i, lookup i = .ok (dag i)) :
    firopow hash height nonce datasetSize lookup [] = .error (.panic .index) := by
  unfold firopow
  rw [firopowInitialize_ok hash hh nonce, ok_bind]
  dsimp only
  rw [hash_noL1 firopowCfg (by decide) (by decide) (by decide) (by decide) (by decide) (by decide) (by decide) (by decide) height _ datasetSize h
    lookup dag hd]
  rfl

theorem kawpow_zero (hash : List Byte) (hh : 32 ≤ hash.length) (height nonce datasetSize : U64) (h : numItems datasetSize = 0)
    (lookup : Lookup) (l1 : List U32) : kawpow hash height nonce datasetSize lookup l1 = .error (.panic .divZero) := by
  unfold kawpow
  rw [kawpowInitialize_ok hash hh nonce, ok_bind]
  dsimp only
  rw [hash_zero kawpowCfg (by decide) (by decide) (by decide) (by decide) (by decide) height _ datasetSize h]
  rfl

theorem firopow_zero (hash : List Byte) (hh : 32 ≤ hash.length) (height nonce datasetSize : U64) (h : numItems datasetSize = 0)
    (lookup : Lookup) (l1 : List U32) : firopow hash height nonce datasetSize lookup l1 = .error (.panic .divZero) := by
  unfold firopow
  rw [firopowInitialize_ok hash hh nonce, ok_bind]
  dsimp only
  rw [hash_zero firopowCfg (by decide) (by decide) (by decide) (by decide) (by decide) height _ datasetSize h]
  rfl

end Verif.Progpow
