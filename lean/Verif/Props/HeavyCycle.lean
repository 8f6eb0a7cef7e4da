import Verif.Proof.HeavySeparate
import Verif.Proof.HeavyFused
import Verif.Proof.HeavyRegular
import Verif.Props.HeavyFloat

/-! # C93: the generator of HeavyHash has a single cycle, and `Compute` returns for every hash but zero -/

set_option autoImplicit false

namespace Verif.Props

open Go Heavy Spec.Heavy

attribute [local irreducible] F64.round F64.one epsilon F64.ofNat

/-- **C93.** Calling the generator `n` times from a state other than zero gives back the state exactly when `n` is a multiple of `2^256 - 1`. -/
theorem C93_period (h : Heavy.Xoshiro) (h0 : h ≠ newXoshiro 0 0 0 0) (n : Nat) : (fun h : Heavy.Xoshiro => h.next.1)^[n] h = h ↔ 2 ^ 256 - 1 ∣ n := by
  have hi : ∀ n, (fun h : Heavy.Xoshiro => h.next.1)^[n] h = h.iter n := by
    intro n
    induction n with
    | zero => rfl
    | succ n ih => rw [Function.iterate_succ_apply', ih]; rfl
  have hinj : ∀ a b : Heavy.Xoshiro, a.toSpec = b.toSpec → a = b := by
    rintro ⟨a0, a1, a2, a3⟩ ⟨b0, b1, b2, b3⟩ he
    simpa [Heavy.Xoshiro.toSpec] using he
  have hp : (2 ^ 256 - 1 : Nat) = Xoshiro.period := by unfold Xoshiro.period; rfl
  rw [hi, hp, ← Xoshiro.after_eq_iff h.toSpec (fun he => h0 (hinj _ _ he)) n, ← iter_spec]
  exact ⟨fun e => by rw [e], fun e => hinj _ _ e⟩

/-- From a state other than zero the generator reaches every state other than zero, and this at every stride of a power of two. -/
theorem C93_orbit (k : Nat) (s u : XState) (hs : s ≠ ⟨0, 0, 0, 0⟩) (hu : u ≠ ⟨0, 0, 0, 0⟩) : ∃ t < 2 ^ 256 - 1, s.after (2 ^ k * t) = u := by
  have hp : (2 ^ 256 - 1 : Nat) = Xoshiro.period := by unfold Xoshiro.period; rfl
  rw [hp]
  exact Xoshiro.orbit _ (Xoshiro.coprime_period k) s u hs hu

theorem candidate_shift (s : XState) (m t : Nat) : candidate (s.after (256 * m)) t = candidate s (m + t) := by
  unfold candidate
  apply List.map_congr_left
  intro i _
  apply List.map_congr_left
  intro j _
  unfold entry
  rw [word_add, show 256 * m + (256 * t + 4 * i + j / 16) = 256 * (m + t) + 4 * i + j / 16 by omega]

/-- All hashes other than zero draw from the same cycle of matrices: the matrices of one are those of the other from some number on. -/
theorem C93_matrices (s u : XState) (hs : s ≠ ⟨0, 0, 0, 0⟩) (hu : u ≠ ⟨0, 0, 0, 0⟩) :
    ∃ m < 2 ^ 256 - 1, ∀ t, candidate s (m + t) = candidate u t := by
  obtain ⟨m, hm, h⟩ := C93_orbit 8 s u hs hu
  refine ⟨m, hm, fun t => ?_⟩
  rw [← candidate_shift, ← h]; rfl

/-- the arithmetics for which a matrix of full rank is exhibited: doubles with operations rounded one by one, doubles with the fused operation -/
theorem full_rank (N : Num F64) (hN : N = separate ∨ N = fused) : calculateRank N (candidate ⟨1, 0, 0, 0⟩ 0) = .ok 64 := by
  rcases hN with rfl | rfl
  · exact Eval.separate_rank
  · exact Eval.fused_rank

theorem returns_of {F : Type} (N : Num F) (hz : N.big (N.ofU16 0) = false) (hf : calculateRank N (candidate ⟨1, 0, 0, 0⟩ 0) = .ok 64)
    (P : Prims) (hash : List Byte) (hl : hash.length = 32) (hne : hash ≠ List.replicate 32 0) (ts nonce : U64) :
    ∃ d, d.length = 32 ∧ ∀ fuel, 2 ^ 256 ≤ fuel → compute N P fuel hash ts nonce = .ok (some d) := by
  obtain ⟨t, ht, h⟩ := C93_matrices (seed hash) ⟨1, 0, 0, 0⟩ (C49_other_hash hash hl hne 0) (by decide)
  obtain ⟨d, hd, h'⟩ := C49_returns N hz P hash hl ts nonce t (by rw [← Nat.add_zero t, h 0]; exact hf)
  exact ⟨d, hd, fun fuel hfuel => h' fuel (by omega)⟩

/-- `Compute` returns a digest for every 32-byte hash other than zero, whatever the timestamp and the nonce, within `2^256` evaluations of the
loop condition of matrix.go:21 -/
theorem C93_returns (N : Num F64) (hN : N = separate ∨ N = fused) (P : Prims) (hash : List Byte) (hl : hash.length = 32)
    (hne : hash ≠ List.replicate 32 0) (ts nonce : U64) :
    ∃ d, d.length = 32 ∧ ∀ fuel, 2 ^ 256 ≤ fuel → compute N P fuel hash ts nonce = .ok (some d) :=
  returns_of N ((zeroLike_of N hN).not_big _ (zeroLike_of N hN).zero) (full_rank N hN) P hash hl hne ts nonce

/-- `Compute` returns a digest exactly for the 32-byte hashes other than zero -/
theorem C93_iff (N : Num F64) (hN : N = separate ∨ N = fused) (P : Prims) (hash : List Byte) (ts nonce : U64) :
    (∃ fuel d, compute N P fuel hash ts nonce = .ok (some d)) ↔ hash.length = 32 ∧ hash ≠ List.replicate 32 0 := by
  constructor
  · rintro ⟨fuel, d, h⟩
    have hl : hash.length = 32 := by
      by_contra hl
      unfold compute at h
      rw [if_pos hl] at h
      exact absurd h (by simp [pure, Except.pure])
    refine ⟨hl, fun he => ?_⟩
    rw [he, C81_zero_hash N hN P ts nonce fuel] at h
    cases h
  · rintro ⟨hl, hne⟩
    obtain ⟨d, _, h⟩ := C93_returns N hN P hash hl hne ts nonce
    exact ⟨_, d, h _ (Nat.le_refl _)⟩

/-- the same in exact arithmetic -/
theorem C93_exact (P : Prims) (hash : List Byte) (hl : hash.length = 32) (hne : hash ≠ List.replicate 32 0) (ts nonce : U64) :
    ∃ d, d.length = 32 ∧ ∀ fuel, 2 ^ 256 ≤ fuel → compute (exact ℚ) P fuel hash ts nonce = .ok (some d) := by
  refine returns_of (exact ℚ) (by simp [exact]) ?_ P hash hl hne ts nonce
  rw [calculateRank_eq _ (candidate_square _ _)]
  refine congrArg Except.ok ?_
  refine Eq.trans (congrArg Matrix.rank ?_) (Eval.exact_full ⟨1, 0, 0, 0⟩ rfl)
  funext i j
  have := ent_candidate ⟨1, 0, 0, 0⟩ 0 i.val j.val i.isLt j.isLt
  exact congrArg (Nat.cast : Nat → ℚ) this

/-! the hypotheses hold for the hash of 32 bytes 1 -/

example : List.replicate 32 (1 : Byte) ≠ List.replicate 32 0 := by decide

example (P : Prims) : ∃ d, d.length = 32 ∧ ∀ fuel, 2 ^ 256 ≤ fuel → compute separate P fuel (List.replicate 32 1) 5 7 = .ok (some d) :=
  C93_returns separate (Or.inl rfl) P _ (by simp) (by decide) 5 7

example : (⟨1, 2, 3, 4⟩ : XState).after (2 ^ 256 - 1) = ⟨1, 2, 3, 4⟩ := by
  have hp : (2 ^ 256 - 1 : Nat) = Xoshiro.period := by unfold Xoshiro.period; rfl
  rw [hp]
  exact Xoshiro.after_period _

example : ∃ t < 2 ^ 256 - 1, (⟨1, 2, 3, 4⟩ : XState).after (2 ^ 8 * t) = ⟨5, 6, 7, 8⟩ := C93_orbit 8 _ _ (by decide) (by decide)

end Verif.Props
