import Verif.Proof.ProgpowMath
import Verif.Go.Update

/-! # The register sequences of ProgPoW -/

set_option autoImplicit false

namespace Verif.Progpow

open Go Crypto
open Spec.Progpow (Gen Params)

theorem umod_ok {w : Nat} (a b : BitVec w) (h : b.toNat ≠ 0) : umod a b = .ok (a % b) := by
  rw [umod, if_neg]; intro e; subst e; simp at h

theorem udiv_ok {w : Nat} (a b : BitVec w) (h : b.toNat ≠ 0) : udiv a b = .ok (a / b) := by
  rw [udiv, if_neg]; intro e; subst e; simp at h

theorem swap_ok (l : List U32) (i j : Nat) (hi : i < l.length) (hj : j < l.length) :
    ∃ l', swap l i j = .ok l' ∧ l'.map (·.toNat) = Spec.Progpow.swap (l.map (·.toNat)) i j ∧ l'.length = l.length ∧ l'.Perm l := by
  refine ⟨(l.set i l[j]).set j l[i], ?_, ?_, by simp, List.set_set_perm hi hj⟩
  · unfold swap
    rw [idx_ok _ _ hj, idx_ok _ _ hi]
    simp only [ok_bind]
    rw [upd_ok _ _ _ hi]
    simp only [ok_bind]
    rw [upd_ok _ _ _ (by simpa using hj)]
  · unfold Spec.Progpow.swap
    simp [List.map_set, hi, hj, List.getD_eq_getElem?_getD]

theorem shuffle_succ (i : Nat) (k : Spec.Progpow.Kiss) (src dst : List Nat) :
    Spec.Progpow.shuffle (i + 2) k (src, dst) =
      Spec.Progpow.shuffle (i + 1) k.step.step
        (Spec.Progpow.swap src (i + 1) (k.step.step.out.toNat % (i + 2)), Spec.Progpow.swap dst (i + 1) (k.step.out.toNat % (i + 2))) := rfl

/-- the shuffle, for any number of registers -/
theorem shuffle_ok (size : U32) (rng : Kiss99) (src dst : List U32) (hs : src.length = size.toNat) (hd : dst.length = size.toNat) :
    ∃ rng' src' dst', forRange 0 (size.toNat - 1) (rng, src, dst) (shuffleStep size) = .ok (rng', src', dst') ∧
      (rng'.abs, src'.map (·.toNat), dst'.map (·.toNat)) =
        Spec.Progpow.shuffle size.toNat rng.abs (src.map (·.toNat), dst.map (·.toNat)) ∧
      src'.Perm src ∧ dst'.Perm dst := by
  obtain ⟨⟨rng', src', dst'⟩, e, h⟩ := forRange_inv (f := shuffleStep size)
    (fun k s => Spec.Progpow.shuffle (size.toNat - k) s.1.abs (s.2.1.map (·.toNat), s.2.2.map (·.toNat)) =
        Spec.Progpow.shuffle size.toNat rng.abs (src.map (·.toNat), dst.map (·.toNat)) ∧
      s.2.1.length = size.toNat ∧ s.2.2.length = size.toNat ∧ s.2.1.Perm src ∧ s.2.2.Perm dst)
    0 (size.toNat - 1) (rng, src, dst) (by omega) ⟨rfl, hs, hd, .refl _, .refl _⟩ (by
      rintro k ⟨g, s, d⟩ _ hk ⟨h, ls, ld, ps, pd⟩
      simp only at h ls ld ps pd
      have hlt := size.isLt
      have hi : (size - BitVec.ofNat 32 k).toNat = size.toNat - k := by
        rw [BitVec.toNat_sub, BitVec.toNat_ofNat]; omega
      have hi1 : (size - BitVec.ofNat 32 k - 1).toNat = size.toNat - k - 1 := by
        rw [BitVec.toNat_sub, hi, show (1 : U32).toNat = 1 from rfl]; omega
      obtain ⟨m, hm⟩ : ∃ m, size.toNat - k = m + 2 := ⟨size.toNat - k - 2, by omega⟩
      obtain ⟨d', ed, hd', ld', pd'⟩ := swap_ok d (m + 1) (g.next.1.toNat % (m + 2)) (by omega)
        (by have := Nat.mod_lt g.next.1.toNat (show 0 < m + 2 by omega); omega)
      obtain ⟨s', es, hs', ls', ps'⟩ := swap_ok s (m + 1) (g.next.2.next.1.toNat % (m + 2)) (by omega)
        (by have := Nat.mod_lt g.next.2.next.1.toNat (show 0 < m + 2 by omega); omega)
      refine ⟨(g.next.2.next.2, s', d'), ?_, ?_, ls'.trans ls, ld'.trans ld, ps'.trans ps, pd'.trans pd⟩
      · unfold shuffleStep
        simp only
        rw [umod_ok _ _ (by rw [hi]; omega)]
        simp only [ok_bind]
        rw [BitVec.toNat_umod, hi1, hi, hm, show m + 2 - 1 = m + 1 by omega, ed]
        simp only [ok_bind]
        rw [umod_ok _ _ (by rw [hi]; omega)]
        simp only [ok_bind]
        rw [BitVec.toNat_umod, hi, hm, es]
        rfl
      · simp only
        rw [← h, hm, shuffle_succ, show size.toNat - (k + 1) = m + 1 by omega, hs', hd', Kiss99.next_snd, Kiss99.next_snd,
          Kiss99.next_fst, Kiss99.next_fst, Kiss99.next_snd])
  refine ⟨rng', src', dst', e, ?_, h.2.2.2.1, h.2.2.2.2⟩
  have h1 := h.1
  simp only at h1
  rw [← h1]
  by_cases hz : size.toNat = 0
  · rw [hz]; rfl
  · rw [show size.toNat - (size.toNat - 1) = 1 by omega]; rfl

/-- the numbers below a bound, as 32-bit words -/
def iota (n : Nat) : List U32 := (List.range n).map (BitVec.ofNat 32)

theorem iota_map (n : Nat) (h : n < 2 ^ 32) : (iota n).map (·.toNat) = List.range n := by
  unfold iota
  rw [List.map_map]
  conv => rhs; rw [← List.map_id (List.range n)]
  apply List.map_congr_left
  intro a ha
  have := List.mem_range.1 ha
  simp; omega

theorem seq_ok (n : Nat) :
    forRange 0 n (List.replicate n (0 : U32), List.replicate n (0 : U32)) seqStep = .ok (iota n, iota n) := by
  obtain ⟨⟨c, d⟩, e, h⟩ := forRange_inv (f := seqStep)
    (fun i s => s.1 = iota i ++ List.replicate (n - i) 0 ∧ s.2 = iota i ++ List.replicate (n - i) 0) 0 n
    (List.replicate n (0 : U32), List.replicate n (0 : U32)) (by omega) ⟨by simp [iota], by simp [iota]⟩ (by
      rintro i ⟨c, d⟩ _ hi ⟨h1, h2⟩
      simp only at h1 h2
      subst h1 h2
      have hlen : i < (iota i ++ List.replicate (n - i) (0 : U32)).length := by simp [iota]; omega
      have hset : (iota i ++ List.replicate (n - i) (0 : U32)).set i (BitVec.ofNat 32 i) =
          iota (i + 1) ++ List.replicate (n - (i + 1)) 0 := by
        rw [List.set_append_right _ _ (by simp [iota])]
        obtain ⟨m, hm⟩ : ∃ m, n - i = m + 1 := ⟨n - i - 1, by omega⟩
        rw [hm, show n - (i + 1) = m by omega, List.replicate_succ]
        simp [iota, List.range_succ]
      refine ⟨(_, _), ?_, hset, hset⟩
      unfold seqStep
      simp only
      rw [upd_ok _ _ _ hlen]
      rfl)
  rw [e, show c = iota n by simpa using h.1, show d = iota n by simpa using h.2]

theorem ofNat_shift (seed : U64) : ((seed >>> 32).setWidth 32 : U32) = BitVec.ofNat 32 (seed.toNat / 2 ^ 32) := by
  apply BitVec.eq_of_toNat_eq
  simp [Nat.shiftRight_eq_div_pow]

theorem ofNat_low (seed : U64) : (seed.setWidth 32 : U32) = BitVec.ofNat 32 seed.toNat := by
  apply BitVec.eq_of_toNat_eq
  simp

theorem seedRng_abs (seed : U64) : (seedRng seed).abs = Spec.Progpow.seedKiss seed.toNat := by
  unfold seedRng Spec.Progpow.seedKiss Kiss99.abs
  rw [ofNat_shift, ofNat_low]
  simp only [fnv1a_eq, fnvOffsetBasis, Spec.Progpow.fnvBasis]

/-- the generator of a round and the state of the program generation -/
structure Rel (R : Nat) (src dst : List Nat) (g : Gen) (st : MixRngState) : Prop where
  size : st.size.toNat = R
  lsrc : src.length = R
  ldst : dst.length = R
  src : st.srcSequence.map (·.toNat) = src
  dst : st.dstSequence.map (·.toNat) = dst
  csrc : st.srcCounter.toNat = g.srcs
  cdst : st.dstCounter.toNat = g.dsts
  rng : st.rng.abs = g.kiss

theorem initMixRngState_ok (seed : U64) (size : U32) :
    ∃ st k src dst, initMixRngState seed size = .ok st ∧
      Spec.Progpow.shuffle size.toNat (Spec.Progpow.seedKiss seed.toNat) (List.range size.toNat, List.range size.toNat) = (k, src, dst) ∧
      Rel size.toNat src dst ⟨k, 0, 0⟩ st ∧ src.Perm (List.range size.toNat) ∧ dst.Perm (List.range size.toNat) := by
  have hl : (iota size.toNat).length = size.toNat := by simp [iota]
  obtain ⟨rng', src', dst', e, h, ps, pd⟩ := shuffle_ok size (seedRng seed) (iota size.toNat) (iota size.toNat) hl hl
  rw [seedRng_abs, iota_map _ size.isLt] at h
  have ps' := ps.map (·.toNat)
  have pd' := pd.map (·.toNat)
  rw [iota_map _ size.isLt] at ps' pd'
  refine ⟨{ size := size, srcCounter := 0, dstCounter := 0, srcSequence := src', dstSequence := dst', rng := rng' }, rng'.abs,
    src'.map (·.toNat), dst'.map (·.toNat), ?_, h.symm, ?_, ps', pd'⟩
  · unfold initMixRngState
    simp only
    rw [seq_ok]
    simp only [ok_bind]
    rw [e]
    rfl
  · exact ⟨rfl, by rw [ps'.length_eq]; simp, by rw [pd'.length_eq]; simp, rfl, rfl, rfl, rfl, rfl⟩

section
variable {R : Nat} {src dst : List Nat} {g : Gen} {st : MixRngState}

theorem nextSrc_ok (h : Rel R src dst g st) (hR : 0 < R) (hb : g.srcs + 1 < 2 ^ 32) :
    ∃ v st', st.nextSrc = .ok (v, st') ∧ v.toNat = src.getD (g.srcs % R) 0 ∧ Rel R src dst ⟨g.kiss, g.srcs + 1, g.dsts⟩ st' := by
  have hl : st.srcSequence.length = R := by rw [← h.lsrc, ← h.src]; simp
  have hlt : g.srcs % R < st.srcSequence.length := by rw [hl]; exact Nat.mod_lt _ hR
  refine ⟨st.srcSequence[g.srcs % R], { st with srcCounter := st.srcCounter + 1 }, ?_, ?_, ?_⟩
  · unfold MixRngState.nextSrc
    rw [umod_ok _ _ (by rw [h.size]; omega)]
    simp only [ok_bind]
    rw [BitVec.toNat_umod, h.csrc, h.size, idx_ok _ _ hlt]
    rfl
  · rw [← h.src, List.getD_eq_getElem?_getD, List.getElem?_map, List.getElem?_eq_getElem hlt]; rfl
  · refine ⟨h.size, h.lsrc, h.ldst, h.src, h.dst, ?_, h.cdst, h.rng⟩
    simp only
    rw [BitVec.toNat_add, h.csrc, show (1 : U32).toNat = 1 from rfl, Nat.mod_eq_of_lt hb]

theorem nextDst_ok (h : Rel R src dst g st) (hR : 0 < R) (hb : g.dsts + 1 < 2 ^ 32) :
    ∃ v st', st.nextDst = .ok (v, st') ∧ v.toNat = dst.getD (g.dsts % R) 0 ∧ Rel R src dst ⟨g.kiss, g.srcs, g.dsts + 1⟩ st' := by
  have hl : st.dstSequence.length = R := by rw [← h.ldst, ← h.dst]; simp
  have hlt : g.dsts % R < st.dstSequence.length := by rw [hl]; exact Nat.mod_lt _ hR
  refine ⟨st.dstSequence[g.dsts % R], { st with dstCounter := st.dstCounter + 1 }, ?_, ?_, ?_⟩
  · unfold MixRngState.nextDst
    rw [umod_ok _ _ (by rw [h.size]; omega)]
    simp only [ok_bind]
    rw [BitVec.toNat_umod, h.cdst, h.size, idx_ok _ _ hlt]
    rfl
  · rw [← h.dst, List.getD_eq_getElem?_getD, List.getElem?_map, List.getElem?_eq_getElem hlt]; rfl
  · refine ⟨h.size, h.lsrc, h.ldst, h.src, h.dst, h.csrc, ?_, h.rng⟩
    simp only
    rw [BitVec.toNat_add, h.cdst, show (1 : U32).toNat = 1 from rfl, Nat.mod_eq_of_lt hb]

theorem nextRng_ok (h : Rel R src dst g st) :
    st.nextRng.1 = g.kiss.step.out ∧ Rel R src dst ⟨g.kiss.step, g.srcs, g.dsts⟩ st.nextRng.2 := by
  refine ⟨?_, h.size, h.lsrc, h.ldst, h.src, h.dst, h.csrc, h.cdst, ?_⟩
  · show st.rng.next.1 = _
    rw [Kiss99.next_fst, h.rng]
  · show st.rng.next.2.abs = _
    rw [Kiss99.next_snd, h.rng]

end

end Verif.Progpow
