import Verif.Proof.Hashimoto
import Verif.Proof.Octopus
import Verif.Proof.ProgpowHash
import Verif.Spec.Large

/-! # Caches and datasets of any size -/

set_option autoImplicit false

namespace Verif.Go

/-- a loop that follows a partial function step by step and stops with `e` where it is undefined -/
theorem forRange_option {σ τ : Type} {f : Nat → σ → Go σ} {g : Nat → τ → Option τ} (e : Stop) (Rel : τ → σ → Prop) (G : Nat → Option τ)
    (t : τ) (s : σ) (h0 : G 0 = some t) (hG : ∀ i, G (i + 1) = (G i).bind (g i)) (hr : Rel t s) (n : Nat)
    (hs : ∀ i t s, i < n → Rel t s →
      (g i t = none ∧ f i s = .error e) ∨ ∃ t' s', g i t = some t' ∧ f i s = .ok s' ∧ Rel t' s') :
    (G n = none ∧ forRange 0 n s f = .error e) ∨ ∃ t' s', G n = some t' ∧ forRange 0 n s f = .ok s' ∧ Rel t' s' := by
  simp only [forRange, Nat.sub_zero]
  induction n with
  | zero => exact Or.inr ⟨t, s, h0, rfl, hr⟩
  | succ n ih =>
    rw [loop_succ_last, Nat.zero_add, hG]
    rcases ih (fun i t s hi => hs i t s (by omega)) with ⟨h1, h2⟩ | ⟨t', s', h1, h2, h3⟩
    · left
      rw [h1, h2]
      exact ⟨rfl, rfl⟩
    · rw [h1, h2]
      exact hs n t' s' (by omega) h3

end Verif.Go

namespace Verif.Dag

open Go Spec.Ethash

/-! ## the cache -/

section cache

variable (P : Prims) (seed : List Byte)

/-- what the loops keep: the rows are the cache, and the buffer has 64 bytes -/
def RowsRel (n : Nat) (o : List (List Byte)) (st : List Byte × List Byte) : Prop :=
  st.1 = o.flatten ∧ st.2.length = 64 ∧ o.length = n ∧ ∀ r ∈ o, r.length = 64

/-- generate.go:59-65 -/
theorem memoStep_all (n : Nat) (h32 : n % 2 ^ 32 ≠ 0) (o : List (List Byte)) (st : List Byte × List Byte) (j : Nat) (hj : j < n)
    (h : RowsRel n o st) :
    (Spec.Large.replaceRow P.keccak512 n o j = none ∧ memoStep P n j st = .error (.panic .slice)) ∨
      ∃ o' st', Spec.Large.replaceRow P.keccak512 n o j = some o' ∧ memoStep P n j st = .ok st' ∧ RowsRel n o' st' := by
  obtain ⟨c, temp⟩ := st
  obtain ⟨hc, ht, ho, ha⟩ := h
  simp only at hc ht
  subst hc
  have hl := flatten_length_const 64 o ha
  rw [ho] at hl
  have hoj : (o.getD j []).length = 64 := by
    rw [List.getD_eq_getElem?_getD, List.getElem?_eq_getElem (by omega)]
    exact ha _ (List.getElem_mem (by omega))
  have hgd : ∀ k (hk : k < o.length), o[k] = o.getD k [] := fun k hk => by
    rw [List.getD_eq_getElem?_getD, List.getElem?_eq_getElem hk]; rfl
  obtain ⟨R, hR⟩ : ∃ R, R = n % 2 ^ 32 := ⟨_, rfl⟩
  have hRn : R ≤ n := hR ▸ Nat.mod_le _ _
  have hR32 : R < 2 ^ 32 := hR ▸ Nat.mod_lt _ (by omega)
  have hR' : BitVec.ofNat 32 n = BitVec.ofNat 32 R := by
    apply BitVec.eq_of_toNat_eq
    rw [BitVec.toNat_ofNat, BitVec.toNat_ofNat, hR, Nat.mod_mod]
  obtain ⟨q, hq⟩ : ∃ q, q = Spec.leValue ((o.getD j []).take 4) % R := ⟨_, rfl⟩
  have hqR : q < R := hq ▸ Nat.mod_lt _ (by omega)
  obtain ⟨v, hv⟩ : ∃ v, v = q % 2 ^ 26 := ⟨_, rfl⟩
  have hvq : v ≤ q := hv ▸ Nat.mod_le _ _
  have hv26 : v < 2 ^ 26 := hv ▸ Nat.mod_lt _ (by omega)
  obtain ⟨s, hs⟩ : ∃ s, s = (j + n - 1) % n := ⟨_, rfl⟩
  have hsn : s < n := hs ▸ Nat.mod_lt _ (by omega)
  have hw : (slc o.flatten (j * hashBytes) o.flatten.length >>= getU32 .little) =
      .ok (BitVec.ofNat 32 (Spec.leValue ((o.getD j []).take 4))) := by
    have := getU32_at o.flatten (16 * j) (by omega)
    rw [hashBytes, show j * 64 = 16 * j * 4 by omega, this, show 4 * (16 * j) = 64 * j by omega]
    have hb := flatten_block 64 o ha j (by omega)
    rw [← hgd j (by omega), ← hb, List.take_take, Spec.leValue_eq]
    rfl
  have hwlt : Spec.leValue ((o.getD j []).take 4) < 2 ^ 32 := by
    rw [Spec.leValue_eq]
    have := leNat_lt ((o.getD j []).take 4)
    rw [List.length_take, hoj] at this
    exact this
  have hoff : (BitVec.ofNat 32 q * BitVec.ofNat 32 hashBytes).toNat = 64 * v := by
    simp only [BitVec.toNat_mul, BitVec.toNat_ofNat, hashBytes]; omega
  have hoff2 : (BitVec.ofNat 32 q * BitVec.ofNat 32 hashBytes + BitVec.ofNat 32 hashBytes).toNat = (64 * v + 64) % 2 ^ 32 := by
    simp only [BitVec.toNat_add, BitVec.toNat_mul, BitVec.toNat_ofNat, hashBytes]; omega
  have hls : (o[s]'(by omega)).length = 64 := ha _ (List.getElem_mem _)
  have hlv : (o[v]'(by omega)).length = 64 := ha _ (List.getElem_mem _)
  have hspec : Spec.Large.replaceRow P.keccak512 n o j = if v = 2 ^ 26 - 1 then none
      else some (o.set j (P.keccak512 (List.zipWith (· ^^^ ·) (o[s]'(by omega)) (o[v]'(by omega))))) := by
    rw [Spec.Large.replaceRow]
    simp only [← hR, ← hq, ← hv, ← hs, ← hgd s (by omega), ← hgd v (by omega)]
  rw [hspec]
  unfold memoStep
  simp only
  rw [← bind_assoc, hw, ok_bind, hR', umod_rows _ _ (by omega) hR32, ok_bind, BitVec.toNat_ofNat, Nat.mod_eq_of_lt hwlt, ← hq,
    hoff, hoff2, ← hs, show s * hashBytes = 64 * s by rw [hashBytes]; omega, show 64 * s + hashBytes = 64 * s + 64 from rfl,
    slc_block 64 o ha s (by omega), ok_bind]
  by_cases hlast : v = 2 ^ 26 - 1
  · left
    refine ⟨if_pos hlast, ?_⟩
    rw [slc, if_neg (by omega)]
    rfl
  · right
    refine ⟨_, (o.set j (P.keccak512 (List.zipWith (· ^^^ ·) (o[s]'(by omega)) (o[v]'(by omega)))) |>.flatten,
      List.zipWith (· ^^^ ·) (o[s]'(by omega)) (o[v]'(by omega))), if_neg hlast, ?_, rfl,
      by rw [List.length_zipWith, hls, hlv]; rfl, by simpa using ho, all_set P ha j _⟩
    rw [Nat.mod_eq_of_lt (show 64 * v + 64 < 2 ^ 32 by omega), slc_block 64 o ha v (by omega), ok_bind, xorBytes]
    simp only [hls, hlv, ht]
    rw [if_neg (by omega), ok_bind, List.drop_of_length_le (by omega), List.append_nil,
      show j * hashBytes = 64 * j by rw [hashBytes]; omega, keccak512At_block P o ha j (by omega), ok_bind]
    rfl

/-- generate.go:58-66 -/
theorem memoPass_all (n : Nat) (h32 : n % 2 ^ 32 ≠ 0) (o : List (List Byte)) (st : List Byte × List Byte) (i : Nat) (h : RowsRel n o st) :
    (Spec.Large.cacheRound P.keccak512 n o n = none ∧ memoPass P n i st = .error (.panic .slice)) ∨
      ∃ o' st', Spec.Large.cacheRound P.keccak512 n o n = some o' ∧ memoPass P n i st = .ok st' ∧ RowsRel n o' st' :=
  forRange_option (g := fun i o => Spec.Large.replaceRow P.keccak512 n o i) (.panic .slice) (RowsRel n)
    (Spec.Large.cacheRound P.keccak512 n o) o st rfl (fun _ => rfl) h n fun i o st hi h => memoStep_all P n h32 o st i hi h

/-- generate.go:34-68 -/
theorem generateCacheBytes_all (rounds : Int) (n : Nat) (h32 : n % 2 ^ 32 ≠ 0) (buf : List Byte) (hb : buf.length = 64 * n) :
    (Spec.Large.mkcache P.keccak512 n seed rounds.toNat = none ∧ generateCacheBytes P rounds buf seed = .error (.panic .slice)) ∨
      ∃ o, Spec.Large.mkcache P.keccak512 n seed rounds.toNat = some o ∧ generateCacheBytes P rounds buf seed = .ok o.flatten ∧
        o.length = n ∧ ∀ r ∈ o, r.length = 64 := by
  have hn : 1 ≤ n := by
    rcases Nat.eq_zero_or_pos n with h | h
    · exact absurd (by omega) h32
    · exact h
  have hc := chain_loop P seed n hn buf hb
  have hcl : (chain P.keccak512 seed n).length = n := by rw [chain_eq]; simp
  have hca : ∀ r ∈ chain P.keccak512 seed n, r.length = 64 := by
    rw [chain_eq]
    intro r hr
    obtain ⟨i, _, rfl⟩ := List.mem_map.mp hr
    exact chainRow_length P seed i
  have key := forRange_option (f := memoPass P n) (g := fun _ o => Spec.Large.cacheRound P.keccak512 n o n) (.panic .slice) (RowsRel n)
    (Spec.Large.mkcache P.keccak512 n seed) (chain P.keccak512 seed n)
    ((chain P.keccak512 seed n).flatten, List.replicate hashBytes 0) rfl (fun _ => rfl)
    ⟨rfl, by simp [hashBytes], hcl, hca⟩ rounds.toNat fun i o st _ h => memoPass_all P n h32 o st i h
  unfold generateCacheBytes
  simp only [hb]
  rw [show (64 * n + hashBytes - 1) / hashBytes = n by simp only [hashBytes]; omega,
    show 64 * n / hashBytes = n by simp only [hashBytes]; omega, ← bind_assoc, hc, ok_bind]
  rcases key with ⟨h1, h2⟩ | ⟨o, st, h1, h2, h3, _, h5, h6⟩
  · exact Or.inl ⟨h1, by rw [h2]; rfl⟩
  · exact Or.inr ⟨o, h1, by rw [h2, ok_bind, h3]; rfl, h5, h6⟩

theorem generateCache_all (rounds : Int) (n : Nat) (h32 : n % 2 ^ 32 ≠ 0) (dest : List U32) (hd : dest.length = 16 * n) :
    (Spec.Large.mkcache P.keccak512 n seed rounds.toNat = none ∧ generateCache P rounds dest seed = .error (.panic .slice)) ∨
      ∃ o, Spec.Large.mkcache P.keccak512 n seed rounds.toNat = some o ∧ generateCache P rounds dest seed = .ok (o.flatMap words) ∧
        o.length = n ∧ ∀ r ∈ o, r.length = 64 := by
  rcases generateCacheBytes_all P seed rounds n h32 (bytesLE dest) (by rw [bytesLE_length, hd]; omega) with
    ⟨h1, h2⟩ | ⟨o, h1, h2, h3, h4⟩
  · exact Or.inl ⟨h1, by rw [generateCache, byteView_eq, h2]; rfl⟩
  · refine Or.inr ⟨o, h1, ?_, h3, h4⟩
    rw [generateCache, byteView_eq, h2, ok_bind, words_flatten _ h4]
    rfl

/-- a number of rows that is a multiple of 2^32 is zero in 32 bits -/
theorem generateCache_zero (rounds : Int) (hr : 0 < rounds) (n : Nat) (hn : 1 ≤ n) (h32 : n % 2 ^ 32 = 0) (dest : List U32)
    (hd : dest.length = 16 * n) : generateCache P rounds dest seed = .error (.panic .divZero) := by
  have hb : (bytesLE dest).length = 64 * n := by rw [bytesLE_length, hd]; omega
  have hc := chain_loop P seed n hn (bytesLE dest) hb
  have hcl : (chain P.keccak512 seed n).length = n := by rw [chain_eq]; simp
  have hca : ∀ r ∈ chain P.keccak512 seed n, r.length = 64 := by
    rw [chain_eq]
    intro r hr
    obtain ⟨i, _, rfl⟩ := List.mem_map.mp hr
    exact chainRow_length P seed i
  obtain ⟨c, hcc⟩ : ∃ c, c = (chain P.keccak512 seed n).flatten := ⟨_, rfl⟩
  have hclen : c.length = 64 * n := by rw [hcc, flatten_length_const 64 _ hca, hcl]
  rw [generateCache, byteView_eq]
  unfold generateCacheBytes
  simp only [hb]
  rw [show (64 * n + hashBytes - 1) / hashBytes = n by simp only [hashBytes]; omega,
    show 64 * n / hashBytes = n by simp only [hashBytes]; omega, ← bind_assoc, hc, ok_bind, ← hcc]
  have h0 : BitVec.ofNat 32 n = 0 := by
    apply BitVec.eq_of_toNat_eq
    rw [BitVec.toNat_ofNat, h32]
    rfl
  have hstep : memoStep P n 0 (c, List.replicate hashBytes 0) = .error (.panic .divZero) := by
    have := getU32_at c 0 (by omega)
    unfold memoStep
    simp only
    rw [Nat.zero_mul] at this ⊢
    rw [← bind_assoc, this, ok_bind, h0]
    rfl
  have hpass : memoPass P n 0 (c, List.replicate hashBytes 0) = .error (.panic .divZero) := by
    obtain ⟨m, rfl⟩ : ∃ m, n = m + 1 := ⟨n - 1, by omega⟩
    rw [memoPass, forRange, Nat.sub_zero, loop, hstep]
    rfl
  obtain ⟨m, hm⟩ : ∃ m, rounds.toNat = m + 1 := ⟨rounds.toNat - 1, by omega⟩
  rw [hm, forRange, Nat.sub_zero, loop, hpass]
  rfl

end cache

end Verif.Dag

namespace Verif.Progpow

open Go Crypto

/-- with a number of items that is zero in 32 bits the first round divides by zero -/
theorem hash_zero (cfg : Config) (hp : cfg.periodLength ≠ 0) (hl : 0 < cfg.laneCount) (hl32 : cfg.laneCount < 2 ^ 32)
    (hr : 0 < cfg.registerCount) (hrc : 0 < cfg.roundCount) (height seed datasetSize : U64) (h : numItems datasetSize = 0)
    (lookup : Lookup) (l1 : List U32) : Progpow.hash cfg height seed datasetSize lookup l1 = .error (.panic .divZero) := by
  have hzero : ((datasetSize / (2 * 128)).setWidth 32 : U32) = 0 := by
    apply BitVec.eq_of_toNat_eq
    rw [BitVec.toNat_setWidth, BitVec.toNat_udiv, show ((2 * 128 : U64)).toNat = 256 from rfl]
    exact h
  have hl0 : (BitVec.ofNat 32 cfg.laneCount).toNat ≠ 0 := by rw [BitVec.toNat_ofNat]; omega
  unfold Progpow.hash
  rw [initMix_ok, ok_bind, udiv_ok _ _ (by
    intro h
    exact hp (BitVec.eq_of_toNat_eq h)), ok_bind]
  obtain ⟨mix, hmix⟩ : ∃ m, m = Spec.Progpow.fillMix cfg.params seed.toNat := ⟨_, rfl⟩
  have hrows := fillMix_rows cfg seed.toNat
  rw [← hmix] at hrows ⊢
  have hlen : 0 < mix.length := by rw [hrows.1]; exact hl
  have hrow : 0 < mix[0].length := by rw [hrows.2 _ (List.getElem_mem _)]; exact hr
  have hround : Progpow.round cfg (height / cfg.periodLength) (BitVec.ofNat 32 0) mix datasetSize lookup l1 =
      .error (.panic .divZero) := by
    obtain ⟨st, k, src, dst, e, _⟩ := initMixRngState_ok (height / cfg.periodLength) (BitVec.ofNat 32 cfg.registerCount)
    unfold Progpow.round
    rw [e, ok_bind, umod_ok _ _ hl0, ok_bind, show (BitVec.ofNat 32 0 % BitVec.ofNat 32 cfg.laneCount).toNat = 0 by
        rw [BitVec.toNat_umod, BitVec.toNat_ofNat, Nat.zero_mod], idx_ok _ _ hlen, ok_bind, idx_ok _ _ hrow, ok_bind, hzero]
    rfl
  obtain ⟨m, hm⟩ : ∃ m, cfg.roundCount = m + 1 := ⟨cfg.roundCount - 1, by omega⟩
  rw [hm, forRange, Nat.sub_zero, loop, hashRound, hround]
  rfl

end Verif.Progpow
