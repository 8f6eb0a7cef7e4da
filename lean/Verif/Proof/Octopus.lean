import Mathlib.Algebra.BigOperators.Group.List.Basic
import Mathlib.Algebra.BigOperators.Ring.List
import Verif.Proof.Generate
import Verif.Proof.OctopusMath
import Verif.Proof.Siphash

/-! # `octopus` is the published function and only asks for items that exist -/

set_option autoImplicit false

namespace Verif.Octopus

open Go Spec.Octopus Spec.Ethash Siphash Dag

/-! ## the coefficients -/

theorem rounds_succ (n : Nat) : ∀ v, Spec.Sip.rounds (n + 1) v = Spec.Sip.round (Spec.Sip.rounds n v) := by
  induction n with
  | zero => intro v; rfl
  | succ n ih => intro v; rw [Spec.Sip.rounds, ih, Spec.Sip.rounds]

theorem low_mod (x : U64) : ((x &&& 0xffffffff) % powMod).setWidth 32 = BitVec.ofNat 32 (x.toNat % 2 ^ 32 % p) := by
  apply BitVec.eq_of_toNat_eq
  rw [BitVec.toNat_setWidth, BitVec.toNat_umod, BitVec.toNat_and, powMod_toNat, BitVec.toNat_ofNat,
    show (0xffffffff : U64).toNat = 2 ^ 32 - 1 from rfl, Nat.and_two_pow_sub_one_eq_mod]

/-- octopus.go:95-98 -/
theorem data_loop (i : Nat) (hi : i < 32) (hs : SipHasher) (c : Nat → Nat)
    (hc : ∀ j, j < 32 → c (32 * j + i) = (Spec.Sip.lanes (Spec.Sip.rounds (j + 1) (toSpec hs))).toNat % 2 ^ 32 % p)
    (d : List U32) (hd : d.length = 1024) :
    ∃ s, forRange 0 32 (hs, d) (dataStep i) = .ok s ∧ s.2.length = 1024 ∧
      ∀ k, k < 1024 → s.2[k]? = if k % 32 = i then some (BitVec.ofNat 32 (c k)) else d[k]? := by
  obtain ⟨s, e, h1, h2, h3⟩ := forRange_inv (f := dataStep i)
    (fun j s => toSpec s.1 = Spec.Sip.rounds j (toSpec hs) ∧ s.2.length = 1024 ∧
      ∀ k, k < 1024 → s.2[k]? = if k % 32 = i ∧ k / 32 < j then some (BitVec.ofNat 32 (c k)) else d[k]?)
    0 32 (hs, d) (by omega) ⟨rfl, hd, fun k _ => by rw [if_neg (by omega)]⟩ (by
      rintro j ⟨h, m⟩ _ hj ⟨h1, h2, h3⟩
      simp only at h1 h2 h3
      refine ⟨(sipRound h, m.set (j * 32 + i) (BitVec.ofNat 32 (c (32 * j + i)))), ?_, ?_, by simpa using h2, ?_⟩
      · simp only [dataStep, powWarpSize]
        rw [upd_ok _ _ _ (by omega), ok_bind, low_mod, xorLanes_spec, sipRound_spec, h1, ← rounds_succ, hc j hj]
        rfl
      · simp only
        rw [sipRound_spec, h1, rounds_succ]
      · intro k hk
        simp only
        by_cases hki : k = j * 32 + i
        · subst hki
          rw [List.getElem?_set_self (by omega), if_pos (by omega), Nat.mul_comm j 32]
        · rw [List.getElem?_set_ne (by omega), h3 k hk]
          by_cases h4 : k % 32 = i ∧ k / 32 < j
          · rw [if_pos h4, if_pos (by omega)]
          · rw [if_neg h4, if_neg (by omega)])
  refine ⟨s, e, h2, fun k hk => ?_⟩
  rw [h3 k hk]
  by_cases h4 : k % 32 = i
  · rw [if_pos h4, if_pos (by omega)]
  · rw [if_neg h4, if_neg (by omega)]

/-- octopus.go:91-99 -/
theorem warp_loop (hash : List Byte) (nonce : U64) (d : List U32) (hd : d.length = 1024) :
    forRange 0 32 d (warpStep (word hash 0) (word hash 1) (word hash 2) (word hash 3) (nonce / BitVec.ofNat 64 32)) =
      .ok ((List.range 1024).map fun k => BitVec.ofNat 32 (coeff hash (nonce.toNat / 32) k)) := by
  obtain ⟨m, e, h1, h2⟩ := forRange_inv
    (f := warpStep (word hash 0) (word hash 1) (word hash 2) (word hash 3) (nonce / BitVec.ofNat 64 32))
    (fun i m => m.length = 1024 ∧
      ∀ k, k < 1024 → k % 32 < i → m[k]? = some (BitVec.ofNat 32 (coeff hash (nonce.toNat / 32) k)))
    0 32 d (by omega) ⟨hd, fun k _ _ => by omega⟩ (by
      rintro i m _ hi ⟨h1, h2⟩
      have hn : nonce / BitVec.ofNat 64 32 * BitVec.ofNat 64 powWarpSize + BitVec.ofNat 64 i =
          BitVec.ofNat 64 (32 * (nonce.toNat / 32) + i) := by
        apply BitVec.eq_of_toNat_eq
        have := nonce.isLt
        simp only [BitVec.toNat_add, BitVec.toNat_mul, BitVec.toNat_udiv, BitVec.toNat_ofNat, powWarpSize]
        rw [Nat.mod_eq_of_lt (show 32 < 2 ^ 64 by decide)]
        omega
      obtain ⟨s, e, h3, h4⟩ := data_loop i hi
        (hash24 (newSipHasher ⟨word hash 0, word hash 1, word hash 2, word hash 3⟩) (BitVec.ofNat 64 (32 * (nonce.toNat / 32) + i)))
        (coeff hash (nonce.toNat / 32)) (by
          intro j hj
          rw [coeff, hash24_spec, show (32 * j + i) / 32 = j by omega, show (32 * j + i) % 32 = i by omega]
          rfl) m h1
      refine ⟨s.2, ?_, h3, ?_⟩
      · simp only [warpStep]
        rw [hn, show powDataPerThread = 32 from rfl, e, ok_bind]
        rfl
      · intro k hk hki
        rw [h4 k hk]
        by_cases h5 : k % 32 = i
        · rw [if_pos h5]
        · rw [if_neg h5, h2 k hk (by omega)])
  rw [e]
  refine congrArg Except.ok ?_
  apply List.ext_getElem?
  intro k
  by_cases hk : k < 1024
  · rw [h2 k hk (Nat.mod_lt _ (by omega))]
    simp [hk]
  · rw [List.getElem?_eq_none (by omega), List.getElem?_eq_none (by simp; omega)]

/-! ## evaluation -/

/-- octopus.go:103-106 and 109-112 -/
theorem pow_loop (w w2 : U64) (hw : w.toNat < p) (hw2 : w2.toNat < p) (lo hi : Nat) (hle : lo ≤ hi) (s : U64 × U64)
    (h1 : s.1.toNat < p) (h2 : s.2.toNat < p) :
    ∃ r, forRange lo hi s (powStep w w2) = .ok r ∧ r.1.toNat = s.1.toNat * w.toNat ^ (hi - lo) % p ∧
      r.2.toNat = s.2.toNat * w2.toNat ^ (hi - lo) % p := by
  obtain ⟨r, e, a1, a2⟩ := forRange_inv (f := powStep w w2)
    (fun i r => r.1.toNat = s.1.toNat * w.toNat ^ (i - lo) % p ∧ r.2.toNat = s.2.toNat * w2.toNat ^ (i - lo) % p)
    lo hi s hle ⟨by simp [Nat.mod_eq_of_lt h1], by simp [Nat.mod_eq_of_lt h2]⟩ (by
      rintro i ⟨x, y⟩ hi1 _ ⟨a1, a2⟩
      simp only at a1 a2
      have hx : x.toNat < p := by rw [a1]; exact Nat.mod_lt _ (by decide)
      have hy : y.toNat < p := by rw [a2]; exact Nat.mod_lt _ (by decide)
      refine ⟨_, rfl, ?_, ?_⟩
      · simp only
        rw [mulMod _ _ hx hw, a1, Nat.mod_mul_mod, mul_assoc, ← pow_succ, show i + 1 - lo = i - lo + 1 by omega]
      · simp only
        rw [mulMod _ _ hy hw2, a2, Nat.mod_mul_mod, mul_assoc, ← pow_succ, show i + 1 - lo = i - lo + 1 by omega])
  exact ⟨r, e, a1, a2⟩

/-- octopus.go:119-122 -/
theorem horner_loop (c : Nat → Nat) (hc : ∀ k, c k < p) (x : U64) (hx : x.toNat < p) :
    forRange 0 1024 0 (hornerStep ((List.range 1024).map fun k => BitVec.ofNat 32 (c k)) x) =
      .ok (BitVec.ofNat 64 (polynomial c x.toNat)) := by
  obtain ⟨pv, e, h⟩ := forRange_inv (f := hornerStep ((List.range 1024).map fun k => BitVec.ofNat 32 (c k)) x)
    (fun j pv => pv.toNat = ((List.range j).map fun k => c (1024 - j + k) * x.toNat ^ k).sum % p)
    0 1024 (0 : U64) (by omega) rfl (by
      intro j pv _ hj h
      have hpv : pv.toNat < p := by rw [h]; exact Nat.mod_lt _ (by decide)
      refine ⟨(pv * x + (BitVec.ofNat 32 (c (1024 - j - 1))).setWidth 64) % powMod, ?_, ?_⟩
      · simp only [hornerStep, show powN = 1024 from rfl]
        rw [idx_ok _ _ (by simp; omega), ok_bind]
        simp only [List.getElem_map, List.getElem_range]
        rfl
      · have hcj := hc (1024 - j - 1)
        have hp : p = 1032193 := rfl
        have h1 : ((BitVec.ofNat 32 (c (1024 - j - 1))).setWidth 64 : U64).toNat = c (1024 - j - 1) := by
          rw [BitVec.toNat_setWidth, BitVec.toNat_ofNat]
          omega
        have h2 : pv.toNat * x.toNat + c (1024 - j - 1) < 2 ^ 64 := by
          have : pv.toNat * x.toNat ≤ p * p := Nat.mul_le_mul hpv.le hx.le
          rw [hp] at this
          omega
        rw [BitVec.toNat_umod, BitVec.toNat_add, BitVec.toNat_mul, h1, powMod_toNat, Nat.mod_add_mod, Nat.mod_eq_of_lt h2, h,
          List.range_succ_eq_map, List.map_cons, List.sum_cons, List.map_map, pow_zero, mul_one,
          Nat.add_comm, Nat.add_mod, Nat.mod_mul_mod, ← Nat.add_mod]
        have hsum : ((List.range j).map ((fun k => c (1024 - (j + 1) + k) * x.toNat ^ k) ∘ Nat.succ)).sum =
            ((List.range j).map fun k => c (1024 - j + k) * x.toNat ^ k).sum * x.toNat := by
          rw [← List.sum_map_mul_right]
          refine congrArg List.sum (List.map_congr_left ?_)
          intro k hk
          simp only [Function.comp_apply]
          rw [show 1024 - (j + 1) + k.succ = 1024 - j + k by omega, pow_succ, mul_assoc]
        rw [hsum, Nat.add_zero, show 1024 - (j + 1) = 1024 - j - 1 by omega])
  rw [e]
  refine congrArg Except.ok (BitVec.eq_of_toNat_eq ?_)
  have hp : polynomial c x.toNat < p := Nat.mod_lt _ (by decide)
  rw [h, BitVec.toNat_ofNat, Nat.mod_eq_of_lt (lt_trans hp (by decide)), polynomial]
  simp

theorem coeff_lt (hash : List Byte) (warp k : Nat) : coeff hash warp k < p := Nat.mod_lt _ (by decide)

theorem polynomial_lt (c : Nat → Nat) (x : Nat) : polynomial c x < p := Nat.mod_lt _ (by decide)

/-- octopus.go:117 -/
theorem point_eq (a b c wpow w2pow : U64) (ha : a.toNat < p) (hb : b.toNat < p) (hc : c.toNat < p) (w T : Nat)
    (h1 : wpow.toNat = w ^ T % p) (h2 : w2pow.toNat = w ^ (2 * T) % p) :
    ((a * w2pow + b * wpow + c) % powMod).toNat = point a.toNat b.toNat c.toNat w T := by
  have hp : p = 1032193 := rfl
  have l1 : wpow.toNat < p := by rw [h1]; exact Nat.mod_lt _ (by decide)
  have l2 : w2pow.toNat < p := by rw [h2]; exact Nat.mod_lt _ (by decide)
  have b1 : a.toNat * w2pow.toNat ≤ p * p := Nat.mul_le_mul ha.le l2.le
  have b2 : b.toNat * wpow.toNat ≤ p * p := Nat.mul_le_mul hb.le l1.le
  have b3 : a.toNat * w2pow.toNat + b.toNat * wpow.toNat + c.toNat < 2 ^ 64 := by
    rw [hp] at b1 b2 hc
    omega
  rw [BitVec.toNat_umod, powMod_toNat, BitVec.toNat_add, BitVec.toNat_add, BitVec.toNat_mul, BitVec.toNat_mul, ← Nat.add_mod,
    Nat.mod_add_mod, Nat.mod_eq_of_lt b3, h1, h2, point]
  simp only [Nat.add_mod, Nat.mul_mod, Nat.mod_mod]

/-- octopus.go:101-130, for any coefficients -/
theorem evaluate_any (C : Nat → Nat) (hClt : ∀ k, C k < p) (a b c w nonce : U64) (ha : a.toNat < p) (hb : b.toNat < p) (hc : c.toNat < p)
    (hw : w.toNat < p) :
    evaluate a b c w nonce ((List.range 1024).map fun k => BitVec.ofNat 32 (C k)) =
      .ok (fold ((List.range 32).map fun i => polynomial C (point a.toNat b.toNat c.toNat w.toNat (nonce.toNat % 32 + 32 * i))),
        ((List.range 32).map fun i => polynomial C (point a.toNat b.toNat c.toNat w.toNat (nonce.toNat % 32 + 32 * i))).map (BitVec.ofNat 32)) := by
  obtain ⟨t, ht⟩ : ∃ t, t = nonce.toNat % 32 := ⟨_, rfl⟩
  have htn : (nonce % BitVec.ofNat 64 powWarpSize).toNat = t := by
    rw [BitVec.toNat_umod, ht]
    rfl
  have ht32 : t < 32 := ht ▸ Nat.mod_lt _ (by omega)
  have hw2 := mulMod w w hw hw
  have hw2lt := mulMod_lt w w
  obtain ⟨⟨ra, rb⟩, e1, r1, r2⟩ := pow_loop w (w * w % powMod) hw hw2lt 0 t (by omega) (1, 1) (by decide) (by decide)
  simp only at r1 r2
  have h1 : ra.toNat < p := by rw [r1]; exact Nat.mod_lt _ (by decide)
  have h2 : rb.toNat < p := by rw [r2]; exact Nat.mod_lt _ (by decide)
  obtain ⟨⟨qa, qb⟩, e2, q1, q2⟩ := pow_loop w (w * w % powMod) hw hw2lt t 32 (by omega) (ra, rb) h1 h2
  simp only at q1 q2
  have hsq : ∀ n, (w * w % powMod).toNat ^ n % p = w.toNat ^ (2 * n) % p := by
    intro n
    rw [hw2, ← Nat.pow_mod, ← pow_two, ← pow_mul]
  have r1' : ra.toNat = w.toNat ^ t % p := by
    rw [r1, Nat.sub_zero]
    exact congrArg (· % p) (one_mul _)
  have r2' : rb.toNat = w.toNat ^ (2 * t) % p := by
    rw [r2, Nat.sub_zero, ← hsq]
    exact congrArg (· % p) (one_mul _)
  have q1' : qa.toNat = w.toNat ^ 32 % p := by
    rw [q1, r1', Nat.mod_mul_mod, ← pow_add, show t + (32 - t) = 32 by omega]
  have q2' : qb.toNat = w.toNat ^ 64 % p := by
    rw [q2, r2', Nat.mul_mod, hsq, Nat.mod_mod, ← Nat.mul_mod, ← pow_add, show 2 * t + 2 * (32 - t) = 64 by omega]
  have hq1 : qa.toNat < p := by rw [q1]; exact Nat.mod_lt _ (by decide)
  have hq2 : qb.toNat < p := by rw [q2]; exact Nat.mod_lt _ (by decide)
  obtain ⟨V, hV⟩ : ∃ V : Nat → Nat, V = fun i => polynomial C (point a.toNat b.toNat c.toNat w.toNat (t + 32 * i)) := ⟨_, rfl⟩
  have hVlt : ∀ i, V i < p := fun i => by rw [hV]; exact polynomial_lt _ _
  have hvals : ((List.range 32).map fun i => polynomial C (point a.toNat b.toNat c.toNat w.toNat (nonce.toNat % 32 + 32 * i))) =
      (List.range 32).map V := by
    rw [hV, ht]
  obtain ⟨s, e3, s1, s2, s3, s4⟩ := forRange_inv
    (f := evalStep a b c qa qb ((List.range 1024).map fun k => BitVec.ofNat 32 (C k)))
    (fun i s => (i < 32 → s.wpow.toNat = w.toNat ^ (t + 32 * i) % p ∧ s.w2pow.toNat = w.toNat ^ (2 * (t + 32 * i)) % p) ∧
      s.result = fold ((List.range i).map V) ∧ s.resBuf.length = 32 ∧ ∀ k, k < i → s.resBuf[k]? = some (BitVec.ofNat 32 (V k)))
    0 32 ⟨ra, rb, 0, List.replicate 32 0⟩ (by omega)
    ⟨fun _ => ⟨by simpa using r1', by simpa using r2'⟩, rfl, by simp, by intros; omega⟩ (by
      rintro i ⟨wpow, w2pow, result, resBuf⟩ _ hi ⟨s1, s2, s3, s4⟩
      simp only at s1 s2 s3 s4
      obtain ⟨g1, g2⟩ := s1 hi
      have hpt := point_eq a b c wpow w2pow ha hb hc w.toNat (t + 32 * i) g1 g2
      have hptlt : ((a * w2pow + b * wpow + c) % powMod).toNat < p := by rw [hpt]; exact Nat.mod_lt _ (by decide)
      have hh := horner_loop C hClt _ hptlt
      rw [hpt, show polynomial C (point a.toNat b.toNat c.toNat w.toNat (t + 32 * i)) = V i by rw [hV]] at hh
      have hpv : (BitVec.ofNat 64 (V i)).setWidth 32 = BitVec.ofNat 32 (V i) := by
        apply BitVec.eq_of_toNat_eq
        rw [BitVec.toNat_setWidth, BitVec.toNat_ofNat, BitVec.toNat_ofNat,
          Nat.mod_eq_of_lt (show V i < 2 ^ 64 from lt_trans (hVlt i) (by decide))]
      have hfold : Crypto.fnv1Uint64 result (BitVec.ofNat 64 (V i)) = fold ((List.range (i + 1)).map V) := by
        rw [s2, fold, fold, List.range_succ, List.map_append, List.foldl_append]
        rfl
      have hbuf : ∀ k, k < i + 1 → (resBuf.set i (BitVec.ofNat 32 (V i)))[k]? = some (BitVec.ofNat 32 (V k)) := by
        intro k hk
        by_cases hki : k = i
        · subst hki
          rw [List.getElem?_set_self (by omega)]
        · rw [List.getElem?_set_ne (by omega), s4 k (by omega)]
      simp only [evalStep]
      rw [show powN = 1024 from rfl, hh, ok_bind, upd_ok _ _ _ (by omega), ok_bind, hpv, hfold]
      by_cases hlast : i + 1 < powDataPerThread
      · rw [if_pos hlast]
        refine ⟨_, rfl, fun _ => ⟨?_, ?_⟩, rfl, by simpa using s3, hbuf⟩
        · simp only
          rw [mulMod _ _ (by rw [g1]; exact Nat.mod_lt _ (by decide)) hq1, g1, q1', ← Nat.mul_mod, ← pow_add,
            show t + 32 * i + 32 = t + 32 * (i + 1) by omega]
        · simp only
          rw [mulMod _ _ (by rw [g2]; exact Nat.mod_lt _ (by decide)) hq2, g2, q2', ← Nat.mul_mod, ← pow_add,
            show 2 * (t + 32 * i) + 64 = 2 * (t + 32 * (i + 1)) by omega]
      · rw [if_neg hlast]
        have : powDataPerThread = 32 := rfl
        exact ⟨_, rfl, fun h => absurd h (by omega), rfl, by simpa using s3, hbuf⟩)
  rw [evaluate]
  simp only [htn]
  rw [e1, ok_bind]
  rw [show powWarpSize = 32 from rfl, e2, ok_bind]
  rw [show powDataPerThread = 32 from rfl, e3, ok_bind, s2, hvals]
  refine congrArg (fun l => Except.ok (_, l)) ?_
  apply List.ext_getElem?
  intro k
  by_cases hk : k < 32
  · rw [s4 k hk]
    simp [hk]
  · rw [List.getElem?_eq_none (by omega), List.getElem?_eq_none (by simp; omega)]

/-- octopus.go:101-130 -/
theorem evaluate_eq (hash : List Byte) (a b c w nonce : U64) (ha : a.toNat < p) (hb : b.toNat < p) (hc : c.toNat < p)
    (hw : w.toNat < p) :
    evaluate a b c w nonce ((List.range 1024).map fun k => BitVec.ofNat 32 (coeff hash (nonce.toNat / 32) k)) =
      .ok (fold (values hash a.toNat b.toNat c.toNat w.toNat nonce.toNat),
        (values hash a.toNat b.toNat c.toNat w.toNat nonce.toNat).map (BitVec.ofNat 32)) :=
  evaluate_any _ (coeff_lt _ _) a b c w nonce ha hb hc hw

/-! ## mixing -/

theorem bytesLE_append (u v : List U32) : bytesLE (u ++ v) = bytesLE u ++ bytesLE v := by simp [bytesLE]

/-- octopus.go:137-140 and 146 -/
theorem words_repeat (half : List Byte) (h : half.length = 64) :
    Convutil.words32 .little (half ++ half ++ half ++ half) = words half ++ words half ++ words half ++ words half := by
  have h1 : Convutil.words32 .little (half ++ half ++ half ++ half) = wordView (half ++ half ++ half ++ half) := rfl
  have h2 := bytesLE_wordView half (by omega)
  rw [h1, words_eq]
  conv_lhs => rw [← h2]
  rw [← bytesLE_append, ← bytesLE_append, ← bytesLE_append, wordView_bytesLE]

/-- octopus.go:153-156 -/
theorem nodeWord_loop (tmp : List U32) (ht : tmp.length = 16) (n : Nat) (mix : List U32) (hm : 16 * n + 16 ≤ mix.length) :
    ∃ m, forRange 0 16 mix (nodeWordStep tmp n) = .ok m ∧ m.length = mix.length ∧
      ∀ k, m[k]? = if 16 * n ≤ k ∧ k < 16 * n + 16 then some (fnv (mix.getD k 0) (tmp.getD (k - 16 * n) 0)) else mix[k]? := by
  obtain ⟨m, e, h1, h2⟩ := forRange_inv (f := nodeWordStep tmp n)
    (fun l m => m.length = mix.length ∧ ∀ k, m[k]? = if 16 * n ≤ k ∧ k < 16 * n + l then
      some (fnv (mix.getD k 0) (tmp.getD (k - 16 * n) 0)) else mix[k]?)
    0 16 mix (by omega) ⟨rfl, fun k => by rw [if_neg (by omega)]⟩ (by
      rintro l m _ hl ⟨h1, h2⟩
      have hi : n * mixNodes * 4 + l = 16 * n + l := by
        rw [show mixNodes = 4 from rfl]; omega
      have hg : m[16 * n + l]'(by omega) = mix.getD (16 * n + l) 0 := by
        have := h2 (16 * n + l)
        rw [if_neg (by omega), List.getElem?_eq_getElem (by omega), List.getElem?_eq_getElem (by omega)] at this
        rw [Option.some.inj this, List.getD_eq_getElem?_getD, List.getElem?_eq_getElem (by omega)]
        rfl
      have ht2 : tmp[l]'(by omega) = tmp.getD l 0 := by
        rw [List.getD_eq_getElem?_getD, List.getElem?_eq_getElem (by omega)]
        rfl
      refine ⟨m.set (16 * n + l) (fnv (mix.getD (16 * n + l) 0) (tmp.getD l 0)), ?_, by simpa using h1, ?_⟩
      · unfold nodeWordStep
        rw [hi, idx_ok _ _ (by omega), ok_bind, idx_ok _ _ (by omega), ok_bind, upd_ok _ _ _ (by omega), hg, ht2, fnv_eq]
      · intro k
        by_cases hk : k = 16 * n + l
        · subst hk
          rw [List.getElem?_set_self (by omega), if_pos (by omega), show 16 * n + l - 16 * n = l by omega]
        · rw [List.getElem?_set_ne (by omega), h2 k]
          by_cases h3 : 16 * n ≤ k ∧ k < 16 * n + l
          · rw [if_pos h3, if_pos (by omega)]
          · rw [if_neg h3, if_neg (by omega)])
  exact ⟨m, e, h1, h2⟩

/-- octopus.go:149-157 -/
theorem node_loop (lookup : Lookup) (L : Nat → List U32) (N : Nat)
    (hL : ∀ k, k < 4 * N → lookup (BitVec.ofNat 32 k) = .ok (L k) ∧ (L k).length = 16) (q : Nat) (hq : q < N)
    (mix : List U32) (hm : mix.length = 64) :
    forRange 0 4 mix (nodeStep lookup (BitVec.ofNat 32 q)) =
      .ok (List.zipWith fnv mix (L (4 * q) ++ L (4 * q + 1) ++ L (4 * q + 2) ++ L (4 * q + 3))) := by
  obtain ⟨m, e, h1, h2⟩ := forRange_inv (f := nodeStep lookup (BitVec.ofNat 32 q))
    (fun n m => m.length = 64 ∧ ∀ k, k < 64 → m[k]? = if k < 16 * n then
      some (fnv (mix.getD k 0) ((L (4 * q + k / 16)).getD (k % 16) 0)) else mix[k]?)
    0 4 mix (by omega) ⟨hm, fun k _ => by rw [if_neg (by omega)]⟩ (by
      rintro n m _ hn ⟨h1, h2⟩
      have hidx : BitVec.ofNat 32 q * BitVec.ofNat 32 mixNodes + BitVec.ofNat 32 n = BitVec.ofNat 32 (4 * q + n) := by
        apply BitVec.eq_of_toNat_eq
        simp only [BitVec.toNat_add, BitVec.toNat_mul, BitVec.toNat_ofNat, show mixNodes = 4 from rfl]
        omega
      obtain ⟨hl1, hl2⟩ := hL (4 * q + n) (by omega)
      obtain ⟨m', e, h3, h4⟩ := nodeWord_loop (L (4 * q + n)) hl2 n m (by omega)
      refine ⟨m', ?_, by rw [h3, h1], ?_⟩
      · unfold nodeStep
        rw [hidx, hl1, ok_bind, show mixNodes = 4 from rfl, slc_ok _ _ _ (by omega) (by omega), ok_bind,
          show ((m.take ((n + 1) * 4 * 4)).drop (n * 4 * 4)).length = 16 by simp [h1]; omega, e]
      · intro k hk
        rw [h4 k]
        by_cases h5 : 16 * n ≤ k ∧ k < 16 * n + 16
        · rw [if_pos h5, if_pos (by omega), show k / 16 = n by omega, show k % 16 = k - 16 * n by omega]
          have := h2 k hk
          rw [if_neg (by omega)] at this
          rw [List.getD_eq_getElem?_getD, this, ← List.getD_eq_getElem?_getD]
        · rw [if_neg h5, h2 k hk]
          by_cases h6 : k < 16 * n
          · rw [if_pos h6, if_pos (by omega)]
          · rw [if_neg h6, if_neg (by omega)])
  rw [e]
  refine congrArg Except.ok ?_
  have l0 := (hL (4 * q) (by omega)).2
  have l1 := (hL (4 * q + 1) (by omega)).2
  have l2 := (hL (4 * q + 2) (by omega)).2
  have l3 := (hL (4 * q + 3) (by omega)).2
  have hpage : ∀ k, k < 64 → (L (4 * q) ++ L (4 * q + 1) ++ L (4 * q + 2) ++ L (4 * q + 3))[k]? =
      some ((L (4 * q + k / 16)).getD (k % 16) 0) := by
    intro k hk
    have key : ∀ (l : List U32) (i : Nat), l.length = 16 → i < 16 → l[i]? = some (l.getD i 0) := by
      intro l i hl hi
      rw [List.getD_eq_getElem?_getD, List.getElem?_eq_getElem (by omega)]
      rfl
    rcases (show k / 16 = 0 ∨ k / 16 = 1 ∨ k / 16 = 2 ∨ k / 16 = 3 by omega) with h | h | h | h
    · rw [h, List.getElem?_append_left (by simp [l0, l1, l2]; omega), List.getElem?_append_left (by simp [l0, l1]; omega),
        List.getElem?_append_left (by omega), show k % 16 = k by omega, Nat.add_zero, key _ _ l0 (by omega)]
    · rw [h, List.getElem?_append_left (by simp [l0, l1, l2]; omega), List.getElem?_append_left (by simp [l0, l1]; omega),
        List.getElem?_append_right (by omega), l0, show k % 16 = k - 16 by omega, key _ _ l1 (by omega)]
    · rw [h, List.getElem?_append_left (by simp [l0, l1, l2]; omega), List.getElem?_append_right (by simp [l0, l1]; omega),
        show k % 16 = k - (L (4 * q) ++ L (4 * q + 1)).length by simp [l0, l1]; omega, key _ _ l2 (by simp [l0, l1]; omega)]
    · rw [h, List.getElem?_append_right (by simp [l0, l1, l2]; omega),
        show k % 16 = k - (L (4 * q) ++ L (4 * q + 1) ++ L (4 * q + 2)).length by simp [l0, l1, l2]; omega,
        key _ _ l3 (by simp [l0, l1, l2]; omega)]
  apply List.ext_getElem?
  intro k
  by_cases hk : k < 64
  · have hmk : mix[k]? = some (mix.getD k 0) := by
      rw [List.getD_eq_getElem?_getD, List.getElem?_eq_getElem (by omega)]
      rfl
    rw [h2 k hk, if_pos (by omega), List.getElem?_zipWith, hmk, hpage k hk]
  · rw [List.getElem?_eq_none (by omega), List.getElem?_eq_none (by simp [hm, l0, l1, l2, l3]; omega)]

/-- octopus.go:147-158 -/
theorem access_loop (lookup : Lookup) (L : Nat → List U32) (N : Nat) (hN1 : 1 ≤ N) (hN : N < 2 ^ 32)
    (hL : ∀ k, k < 4 * N → lookup (BitVec.ofNat 32 k) = .ok (L k) ∧ (L k).length = 16)
    (vs : List Nat) (hvs : vs.length = 32) (half : List Byte) (hh : half.length = 64) (n : Nat) (hn : n ≤ 32) :
    forRange 0 n (words half ++ words half ++ words half ++ words half)
        (accessStep lookup (Spec.leWord32 half 0) (BitVec.ofNat 32 N) (vs.map (BitVec.ofNat 32))) =
      .ok (Spec.Octopus.accessMix N L vs half n) ∧ (Spec.Octopus.accessMix N L vs half n).length = 64 := by
  obtain ⟨m, e, h1, h2⟩ := forRange_inv
    (f := accessStep lookup (Spec.leWord32 half 0) (BitVec.ofNat 32 N) (vs.map (BitVec.ofNat 32)))
    (fun i m => m = Spec.Octopus.accessMix N L vs half i ∧ m.length = 64)
    0 n (words half ++ words half ++ words half ++ words half) (by omega)
    ⟨rfl, by simp [words_eq, wordView_length, hh]⟩ (by
      rintro i m _ hi ⟨h1, h2⟩
      have hg : m[i % mixWords]'(by rw [show mixWords = 64 from rfl]; omega) = m.getD i 0 := by
        rw [List.getD_eq_getElem?_getD, List.getElem?_eq_getElem (by omega)]
        simp only [show mixWords = 64 from rfl, Nat.mod_eq_of_lt (show i < 64 by omega)]
        rfl
      have hv : (vs.map (BitVec.ofNat 32))[i]'(by simp [hvs]; omega) = BitVec.ofNat 32 (vs.getD i 0) := by
        rw [List.getElem_map, List.getD_eq_getElem?_getD, List.getElem?_eq_getElem (by omega)]
        rfl
      obtain ⟨q, hq⟩ : ∃ q, q = (fnv (Spec.leWord32 half 0 ^^^ BitVec.ofNat 32 i ^^^ BitVec.ofNat 32 (vs.getD i 0))
        (m.getD i 0)).toNat % N := ⟨_, rfl⟩
      have hqN : q < N := hq ▸ Nat.mod_lt _ hN1
      refine ⟨List.zipWith fnv m (L (4 * q) ++ L (4 * q + 1) ++ L (4 * q + 2) ++ L (4 * q + 3)), ?_, ?_, ?_⟩
      · unfold accessStep
        rw [idx_ok _ _ (by simp [hvs]; omega), ok_bind, idx_ok _ _ (by rw [show mixWords = 64 from rfl]; omega), ok_bind,
          umod_rows _ _ hN1 hN, ok_bind, hg, hv, fnv_eq, ← hq, show mixNodes = 4 from rfl,
          node_loop lookup L N hL q hqN m h2]
      · rw [Spec.Octopus.accessMix, ← h1, ← hq]
      · have l0 := (hL (4 * q) (by omega)).2
        have l1 := (hL (4 * q + 1) (by omega)).2
        have l2 := (hL (4 * q + 2) (by omega)).2
        have l3 := (hL (4 * q + 3) (by omega)).2
        simp [h2, l0, l1, l2, l3])
  exact ⟨by rw [e, h1], h1 ▸ h2⟩

theorem reduce4_eq (mix : List U32) (h : mix.length = 64) (k : Nat) (hk : k < 16) : reduce4 mix (k * 4) = .ok (reduce mix k) := by
  have hg : ∀ i (hi : i < 64), mix[i]'(by omega) = mix.getD i 0 := fun i hi => by
    rw [List.getD_eq_getElem?_getD, List.getElem?_eq_getElem (by omega)]; rfl
  unfold reduce4
  rw [Nat.mul_comm k 4, idx_ok _ _ (by omega), ok_bind, idx_ok _ _ (by omega), ok_bind, idx_ok _ _ (by omega), ok_bind,
    idx_ok _ _ (by omega), ok_bind, hg _ (by omega), hg _ (by omega), hg _ (by omega), hg _ (by omega)]
  rfl

/-- octopus.go:160-176 -/
theorem compress_loop (mix : List U32) (h : mix.length = 64) :
    forRange 0 8 (List.replicate 8 0) (compressStep mix) = .ok (Spec.Octopus.cmix mix) := by
  rw [forRange_fill (fun i => fnv (reduce mix i) (reduce mix (8 + i))) 8 _ (by simp)]
  · rfl
  · intro i m hi hm _
    unfold compressStep
    rw [reduce4_eq mix h i (by omega), ok_bind, reduce4_eq mix h (8 + i) (by omega), ok_bind, upd_ok _ _ _ (by omega)]
    rfl

theorem repeat_loop (half : List Byte) : forRange 0 4 [] (repeatStep half) = .ok (half ++ half ++ half ++ half) := by
  simp [forRange, loop, repeatStep]

/-- octopus.go:137-181 -/
theorem mixing_all (P : Prims) (half : List Byte) (hh : half.length = 64) (vs : List Nat) (hvs : vs.length = 32) (size : U64)
    (hs1 : size.toNat / 256 % 2 ^ 32 ≠ 0) (lookup : Lookup) (L : Nat → List U32)
    (hL : ∀ k, k < 4 * (size.toNat / 256 % 2 ^ 32) → lookup (BitVec.ofNat 32 k) = .ok (L k) ∧ (L k).length = 16) :
    mixing P half (vs.map (BitVec.ofNat 32)) size lookup =
      .ok (P.keccak256 (half ++ bytes (Spec.Octopus.cmix (Spec.Octopus.accessMix (size.toNat / 256 % 2 ^ 32) L vs half 32)))) := by
  obtain ⟨N, hN⟩ : ∃ N, N = size.toNat / 256 % 2 ^ 32 := ⟨_, rfl⟩
  have hN32 : N < 2 ^ 32 := hN ▸ Nat.mod_lt _ (by omega)
  rw [← hN] at hL hs1 ⊢
  have hpages : (size / BitVec.ofNat 64 (4 * mixWords)).setWidth 32 = BitVec.ofNat 32 N := by
    apply BitVec.eq_of_toNat_eq
    rw [BitVec.toNat_setWidth, BitVec.toNat_udiv, BitVec.toNat_ofNat, BitVec.toNat_ofNat,
      show 4 * mixWords % 2 ^ 64 = 256 from rfl, hN, Nat.mod_mod]
  have hhead : getU32 .little ((half.take 4).drop 0) = .ok (Spec.leWord32 half 0) := by
    rw [getU32, if_pos (by simp; omega), Spec.leWord32, Spec.leValue_eq, List.drop_zero, List.drop_zero,
      List.take_take]
    rfl
  obtain ⟨ea, hal⟩ := access_loop lookup L N (by omega) hN32 hL vs hvs half hh 32 (by omega)
  rw [mixing]
  simp only
  rw [repeat_loop, ok_bind, hpages, slc_ok _ _ _ (by omega) (by omega), ok_bind, hhead, ok_bind, Convutil.bytesToUint32Array_eq,
    ok_bind, words_repeat half hh, show powAccesses = 32 from rfl, ea, ok_bind, compress_loop _ hal, ok_bind,
    Convutil.uint32ArrayToBytes_eq, ok_bind, slc_ok _ _ _ (by omega) (by simp [hh, nodeBytes]), ok_bind, bytes_eq]
  refine congrArg (fun x => Except.ok (P.keccak256 (x ++ _))) ?_
  rw [List.drop_zero, List.append_assoc, List.append_assoc, List.take_append_of_le_length (by rw [hh]; exact Nat.le_refl _),
    List.take_of_length_le (by rw [hh]; exact Nat.le_refl _)]

/-- octopus.go:132-135 -/
theorem initHalfMix_eq (P : Prims) (hash : List Byte) (h : hash.length = 32) (result : U64) :
    initHalfMix P hash result = .ok (P.keccak512 (hash ++ Spec.leEncode 8 result.toNat)) := by
  rw [initHalfMix, show nodeBytes = 64 from rfl, copyAt_ok _ _ _ (by simp [h]), ok_bind, putU64, if_neg (by simp [h]),
    if_neg (by simp [h]), ok_bind]
  have e1 : (List.take 0 (List.replicate 64 (0 : Byte)) ++ hash ++ List.drop (0 + hash.length) (List.replicate 64 0)).take hash.length
      = hash := by
    rw [List.take_zero, List.nil_append, List.take_append_of_le_length (by omega), List.take_of_length_le (by omega)]
  have e8 : (bytesOf .little 8 result).length = 8 := bytesOf_length _ _ _
  rw [e1, slc_ok _ _ _ (by omega) (by simp [h, e8]), ok_bind, List.drop_zero]
  refine congrArg (fun x => Except.ok (P.keccak512 x)) ?_
  rw [List.take_append_of_le_length (by simp [e8]), List.take_of_length_le (by simp [e8]), Spec.leEncode_eq_leBytes]
  rfl

theorem word_get (hash : List Byte) (h : hash.length = 32) (k : Nat) (hk : k < 4) :
    (slc hash (8 * k) (8 * k + 8) >>= getU64 .little) = .ok (word hash k) := by
  have hl : ((hash.take (8 * k + 8)).drop (8 * k)).length = 8 := by simp [h]; omega
  rw [slc_ok _ _ _ (by omega) (by omega), ok_bind, getU64, if_pos (by omega), List.take_of_length_le (by omega), word,
    Spec.leValue_eq, List.drop_take, show 8 * k + 8 - 8 * k = 8 by omega]
  rfl

/-- octopus.go:79-135: everything before the dataset is touched -/
theorem octopus_reduce (P : Prims) (fuel : Nat) (hf : 64 < fuel) (hash : List Byte) (hh : hash.length = 32) (nonce size : U64)
    (lookup : Lookup) :
    ∃ c, IsC (generator (word hash 0).toNat) (generator (word hash 1).toNat) (word hash 2).toNat c ∧
      ∃ vs, vs = values hash (generator (word hash 0).toNat) (generator (word hash 1).toNat) c (generator (word hash 3).toNat)
        nonce.toNat ∧
      octopus P fuel hash nonce size lookup =
        mixing P (P.keccak512 (hash ++ Spec.leEncode 8 (fold vs).toNat)) (vs.map (BitVec.ofNat 32)) size lookup := by
  obtain ⟨c, ec, hc1, hc2⟩ := computeC_eq fuel hf (BitVec.ofNat 64 (generator (word hash 0).toNat))
    (BitVec.ofNat 64 (generator (word hash 1).toNat)) (word hash 2) (by rw [generator_toNat]; exact generator_lt _)
    (by rw [generator_toNat]; exact generator_pos _) (by rw [generator_toNat]; exact generator_lt _)
  rw [generator_toNat, generator_toNat] at hc1
  have hcn : (BitVec.ofNat 64 c).toNat = c := by
    rw [BitVec.toNat_ofNat]
    exact Nat.mod_eq_of_lt (lt_trans hc2 (by decide))
  have ev := evaluate_eq hash (BitVec.ofNat 64 (generator (word hash 0).toNat)) (BitVec.ofNat 64 (generator (word hash 1).toNat))
    (BitVec.ofNat 64 c) (BitVec.ofNat 64 (generator (word hash 3).toNat)) nonce (by rw [generator_toNat]; exact generator_lt _)
    (by rw [generator_toNat]; exact generator_lt _) (by rw [hcn]; exact hc2) (by rw [generator_toNat]; exact generator_lt _)
  rw [generator_toNat, generator_toNat, generator_toNat, hcn] at ev
  refine ⟨c, hc1, _, rfl, ?_⟩
  have w0 := word_get hash hh 0 (by omega)
  have w1 := word_get hash hh 1 (by omega)
  have w2 := word_get hash hh 2 (by omega)
  have w3 := word_get hash hh 3 (by omega)
  simp only [Nat.mul_zero, Nat.zero_add, Nat.mul_one, Nat.reduceMul, Nat.reduceAdd] at w0 w1 w2 w3
  rw [octopus]
  simp only
  rw [w0, ok_bind, w1, ok_bind, w2, ok_bind, w3, ok_bind, remap_eq fuel hf, ok_bind, remap_eq fuel hf, ok_bind, ec, ok_bind,
    remap_eq fuel hf, ok_bind, show powWarpSize = 32 from rfl, warp_loop hash nonce (List.replicate powN 0)
      (by rw [List.length_replicate]; rfl), ok_bind, ev, ok_bind, initHalfMix_eq P hash hh, ok_bind]

theorem octopus_all (P : Prims) (fuel : Nat) (hf : 64 < fuel) (hash : List Byte) (hh : hash.length = 32) (nonce size : U64)
    (hs1 : size.toNat / 256 % 2 ^ 32 ≠ 0) (lookup : Lookup) (L : Nat → List U32)
    (hL : ∀ k, k < 4 * (size.toNat / 256 % 2 ^ 32) → lookup (BitVec.ofNat 32 k) = .ok (L k) ∧ (L k).length = 16) :
    ∃ c, IsC (generator (word hash 0).toNat) (generator (word hash 1).toNat) (word hash 2).toNat c ∧
      octopus P fuel hash nonce size lookup = .ok (digest P.keccak512 P.keccak256 (size.toNat / 256 % 2 ^ 32) L hash nonce.toNat
        (generator (word hash 0).toNat) (generator (word hash 1).toNat) c (generator (word hash 3).toNat)) := by
  obtain ⟨c, hc, vs, hvs, e⟩ := octopus_reduce P fuel hf hash hh nonce size lookup
  refine ⟨c, hc, ?_⟩
  rw [e, mixing_all P _ (P.keccak512_length _) vs (by simp [hvs, values]) size hs1 lookup L hL, hvs]
  rfl

theorem octopus_eq (P : Prims) (fuel : Nat) (hf : 64 < fuel) (hash : List Byte) (hh : hash.length = 32) (nonce size : U64)
    (hs1 : 256 ≤ size.toNat) (hs2 : size.toNat < 2 ^ 38) (lookup : Lookup) (L : Nat → List U32)
    (hL : ∀ k, k < 4 * (size.toNat / 256) → lookup (BitVec.ofNat 32 k) = .ok (L k) ∧ (L k).length = 16) :
    ∃ c, IsC (generator (word hash 0).toNat) (generator (word hash 1).toNat) (word hash 2).toNat c ∧
      octopus P fuel hash nonce size lookup = .ok (digest P.keccak512 P.keccak256 (size.toNat / 256) L hash nonce.toNat
        (generator (word hash 0).toNat) (generator (word hash 1).toNat) c (generator (word hash 3).toNat)) := by
  have hm : size.toNat / 256 % 2 ^ 32 = size.toNat / 256 := Nat.mod_eq_of_lt (by omega)
  have h := octopus_all P fuel hf hash hh nonce size (by omega) lookup L (by rw [hm]; exact hL)
  rwa [hm] at h

/-- octopus.go:148 with no page -/
theorem mixing_small (P : Prims) (half : List Byte) (hh : half.length = 64) (rb : List U32) (hvs : rb.length = 32) (size : U64)
    (hs : size.toNat / 256 % 2 ^ 32 = 0) (lookup : Lookup) : mixing P half rb size lookup = .error (.panic .divZero) := by
  have hpages : (size / BitVec.ofNat 64 (4 * mixWords)).setWidth 32 = (0 : U32) := by
    apply BitVec.eq_of_toNat_eq
    rw [BitVec.toNat_setWidth, BitVec.toNat_udiv, BitVec.toNat_ofNat, show 4 * mixWords % 2 ^ 64 = 256 from rfl,
      hs]
    rfl
  rw [mixing]
  simp only
  rw [repeat_loop, ok_bind, hpages, slc_ok _ _ _ (by omega) (by omega), ok_bind, getU32, if_pos (by simp; omega), ok_bind,
    Convutil.bytesToUint32Array_eq, ok_bind, words_repeat half hh, show powAccesses = 32 from rfl, forRange]
  simp only [loop, accessStep]
  rw [idx_ok _ _ (by omega), ok_bind, idx_ok _ _ (by simp [words_eq, wordView_length, hh]), ok_bind]
  rfl

theorem octopus_small (P : Prims) (fuel : Nat) (hf : 64 < fuel) (hash : List Byte) (hh : hash.length = 32) (nonce size : U64)
    (hs : size.toNat / 256 % 2 ^ 32 = 0) (lookup : Lookup) : octopus P fuel hash nonce size lookup = .error (.panic .divZero) := by
  obtain ⟨c, _, vs, hvs, e⟩ := octopus_reduce P fuel hf hash hh nonce size lookup
  rw [e, mixing_small P _ (P.keccak512_length _) _ (by simp [hvs, values]) size hs]

end Verif.Octopus
