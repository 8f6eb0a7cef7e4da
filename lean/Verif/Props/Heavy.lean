import Verif.Proof.HeavyDigest
import Verif.Proof.HeavyRank

/-! # Properties of HeavyHash (C49-C52) -/

set_option autoImplicit false

namespace Verif.Props

open Go Heavy Spec Spec.Heavy

/-! ## C51: xoshiro256++ -/

/-- **C51.** One call of the generator performs the published xoshiro256++ transition and returns the published output. -/
theorem C51_next (s : XState) :
    (newXoshiro s.s0 s.s1 s.s2 s.s3).next.1 = newXoshiro s.step.s0 s.step.s1 s.step.s2 s.step.s3 ∧
      (newXoshiro s.s0 s.s1 s.s2 s.s3).next.2 = s.out := by
  refine ⟨?_, next_out _⟩
  have h := next_state (newXoshiro s.s0 s.s1 s.s2 s.s3)
  have e : (newXoshiro s.s0 s.s1 s.s2 s.s3).toSpec = s := rfl
  rw [e] at h
  rw [← h]; rfl

/-- the inverse transition -/
def xback (s : XState) : XState :=
  let t := s.s3.rotateRight 45
  let s0 := s.s0 ^^^ t
  let y := s.s1 ^^^ s.s2
  let s1 := y ^^^ y <<< 17 ^^^ y <<< 34 ^^^ y <<< 51
  ⟨s0, s1, s.s1 ^^^ s0 ^^^ s1, s1 ^^^ t⟩

theorem xor_cancel (a b : U64) : a ^^^ (a ^^^ b) = b := by rw [← BitVec.xor_assoc, BitVec.xor_self, BitVec.zero_xor]

theorem xor_left_comm (a b c : U64) : a ^^^ (b ^^^ c) = b ^^^ (a ^^^ c) := by
  rw [← BitVec.xor_assoc, BitVec.xor_comm a b, BitVec.xor_assoc]

/-- identities of exclusive or -/
macro "xor_ac" : tactic =>
  `(tactic| simp only [BitVec.xor_assoc, BitVec.xor_comm, xor_left_comm, BitVec.xor_self, BitVec.xor_zero, BitVec.zero_xor, xor_cancel])

theorem shl17 (y : U64) : (y ^^^ y <<< 17 ^^^ y <<< 34 ^^^ y <<< 51) <<< 17 = y <<< 17 ^^^ y <<< 34 ^^^ y <<< 51 := by
  rw [BitVec.shiftLeft_xor_distrib, BitVec.shiftLeft_xor_distrib, BitVec.shiftLeft_xor_distrib, ← BitVec.shiftLeft_add,
    ← BitVec.shiftLeft_add, ← BitVec.shiftLeft_add, show y <<< (51 + 17) = 0#64 from BitVec.shiftLeft_eq_zero (by omega), BitVec.xor_zero]

theorem unshift (x : U64) :
    let y := x ^^^ x <<< 17
    y ^^^ y <<< 17 ^^^ y <<< 34 ^^^ y <<< 51 = x := by
  dsimp only
  simp only [BitVec.shiftLeft_xor_distrib, ← BitVec.shiftLeft_add]
  rw [show x <<< (17 + 51) = 0#64 from BitVec.shiftLeft_eq_zero (by omega), BitVec.xor_zero]
  norm_num
  generalize x <<< 17 = a
  generalize x <<< 34 = b
  generalize x <<< 51 = c
  xor_ac

/-- The transition is a bijection of the 256-bit states. -/
theorem C51_bijective : Function.Bijective XState.step := by
  apply Function.bijective_iff_has_inverse.2
  refine ⟨xback, ?_, ?_⟩
  · rintro ⟨a, b, c, d⟩
    have e1 : (a ^^^ b ^^^ c) ^^^ (a ^^^ c ^^^ b <<< 17) = b ^^^ b <<< 17 := by
      generalize b <<< 17 = q
      xor_ac
    have e2 := unshift b
    dsimp only at e2
    simp only [XState.step, xback, Bits.rotateRight_rotateLeft, e1, e2, XState.mk.injEq]
    refine ⟨?_, trivial, ?_, ?_⟩ <;> xor_ac
  · rintro ⟨a, b, c, d⟩
    simp only [XState.step, xback]
    generalize ht : d.rotateRight 45 = t
    have hd : t.rotateLeft 45 = d := by rw [← ht, Bits.rotateLeft_rotateRight]
    generalize hy : b ^^^ c = y
    have hs := shl17 y
    generalize hx : y ^^^ y <<< 17 ^^^ y <<< 34 ^^^ y <<< 51 = x at hs ⊢
    have hxy : x ^^^ x <<< 17 = y := by
      rw [hs, ← hx]
      generalize y <<< 17 = p
      generalize y <<< 34 = q
      generalize y <<< 51 = r
      xor_ac
    have hc : b ^^^ y = c := by rw [← hy, xor_cancel]
    have hz : x <<< 17 = x ^^^ y := by rw [← hxy, xor_cancel]
    simp only [XState.mk.injEq]
    refine ⟨?_, ?_, ?_, ?_⟩
    · xor_ac
    · xor_ac
    · rw [hz, ← hc]; xor_ac
    · rw [xor_cancel, hd]

/-- The zero state is the only fixed point. -/
theorem C51_fixed_point (s : XState) : s.step = s ↔ s = ⟨0, 0, 0, 0⟩ := by
  constructor
  · obtain ⟨a, b, c, d⟩ := s
    intro h
    simp only [XState.step, XState.mk.injEq] at h
    obtain ⟨h0, h1, h2, h3⟩ := h
    have hbd : b ^^^ d = 0 := by
      have := congrArg (a ^^^ ·) h0
      simp only [BitVec.xor_assoc, xor_cancel, BitVec.xor_self] at this
      exact this
    rw [hbd] at h3
    have hd : d = 0 := by rw [← h3]; rfl
    subst hd
    have hb : b = 0 := by simpa using hbd
    subst hb
    have hac : a ^^^ c = 0 := by simpa using h1
    have h2' : a ^^^ c ^^^ (0 : U64) <<< 17 = c := h2
    rw [hac] at h2'
    have hc : c = 0 := by rw [← h2']; decide
    subst hc
    have ha : a = 0 := by simpa using hac
    subst ha
    rfl
  · rintro rfl; decide

/-- From a non-zero state the generator never reaches the zero state. -/
theorem C51_never_zero (s : XState) (h : s ≠ ⟨0, 0, 0, 0⟩) (n : Nat) : s.after n ≠ ⟨0, 0, 0, 0⟩ := by
  induction n with
  | zero => exact h
  | succ n ih =>
    intro hz
    apply ih
    apply C51_bijective.1
    rw [show (s.after n).step = s.after (n + 1) from rfl, hz]
    decide

example : (⟨1, 2, 3, 4⟩ : XState).step ≠ ⟨1, 2, 3, 4⟩ := by decide
example : (⟨0, 0, 0, 1⟩ : XState).after 3 ≠ ⟨0, 0, 0, 0⟩ := C51_never_zero _ (by decide) 3
/-- first vector of xoshiro256plusplus_test.go -/
example : (List.range 4).map (⟨0, 0, 0, 1⟩ : XState).word = [0x0000000000800000, 0x0000000000800011, 0x0002200000800011, 0x0002200044000020] := by
  decide +kernel

/-! ## C52: rank -/

/-- **C52.** In exact arithmetic (here: any field, a number being "big" when it is not zero) the elimination routine returns the rank of
the matrix, for every 64 × 64 matrix. -/
theorem C52_rank (K : Type) [Field K] [DecidableEq K] (mat : List (List U16)) (hl : mat.length = 64) (hr : ∀ r ∈ mat, r.length = 64) :
    calculateRank (exact K) mat =
      .ok (Matrix.of fun i j : Fin 64 => ((((mat.getD i []).getD j 0).toNat : Nat) : K)).rank :=
  calculateRank_eq mat ⟨hl, hr⟩

/-- the identity matrix has rank 64, the zero matrix rank 0 -/
example : calculateRank (exact ℚ) ((List.range 64).map fun i => (List.range 64).map fun j => if i = j then 1 else 0) = .ok 64 := by
  rw [C52_rank ℚ _ (by simp) (by simp)]
  congr 1
  rw [show (Matrix.of fun i j : Fin 64 => ((((((List.range 64).map fun i => (List.range 64).map fun j => if i = j then (1 : U16) else 0).getD i []).getD j 0).toNat : Nat) : ℚ))
    = (1 : Matrix (Fin 64) (Fin 64) ℚ) from ?_]
  · rw [Matrix.rank_one]; simp
  · funext i j
    simp only [Matrix.of_apply, List.getD_eq_getElem?_getD, List.getElem?_map, List.getElem?_range i.isLt, Option.map_some, Option.getD_some,
      List.getElem?_range j.isLt, Matrix.one_apply]
    by_cases h : i = j
    · subst h; simp
    · rw [if_neg h, if_neg (fun e => h (Fin.ext e))]; simp

/-! ## C50: the digest -/

/-- **C50.** `Compute` returns exactly when one of the candidate matrices has full rank according to the elimination routine, and
then the digest is the specified one for the first such matrix. The specification computes the product in the natural numbers, so
the 16-bit accumulators do not wrap. (`big 0 = false`: `math.Abs(0) > 1e-9` is false.) -/
theorem C50_compute {F : Type} (N : Num F) (hz : N.big (N.ofU16 0) = false) (P : Prims) (fuel : Nat) (hash : List Byte) (hl : hash.length = 32)
    (ts nonce : U64) (d : Option (List Byte)) :
    compute N P fuel hash ts nonce = .ok d ↔
      ∃ t, t + 1 < fuel ∧ calculateRank N (candidate (seed hash) t) = .ok 64 ∧
        (∀ t' < t, calculateRank N (candidate (seed hash) t') ≠ .ok 64) ∧
        d = some (digest P (entry (seed hash) t) hash ts nonce) := by
  unfold compute
  rw [if_neg (by omega)]
  rcases newMatrix_cases N hz fuel (leWord64 hash 0) (leWord64 hash 1) (leWord64 hash 2) (leWord64 hash 3) with ⟨t, h1, h2, h3, h4⟩ | ⟨h1, h2⟩
  · rw [heavyHash_draw N P fuel hash hl ts nonce t h4, ok_bind]
    constructor
    · intro e
      have : some (digest P (entry (seed hash) t) hash ts nonce) = d := by injection e
      exact ⟨t, h1, h2, h3, this.symm⟩
    · rintro ⟨t', k1, k2, k3, rfl⟩
      have : t' = t := by
        rcases Nat.lt_trichotomy t' t with h | h | h
        · exact absurd k2 (h3 t' h)
        · exact h
        · exact absurd h2 (k3 t h)
      rw [this]; rfl
  · constructor
    · intro e
      rw [heavyHash_eq N P fuel hash hl, h2] at e
      exact absurd e (by simp)
    · rintro ⟨t, k1, k2, _⟩
      exact absurd k2 (h1 t k1)

/-- In exact arithmetic: the matrix is the first candidate of rank 64. -/
theorem C50_exact (P : Prims) (fuel : Nat) (hash : List Byte) (hl : hash.length = 32) (ts nonce : U64) (d : Option (List Byte)) :
    compute (exact ℚ) P fuel hash ts nonce = .ok d ↔
      ∃ t, t + 1 < fuel ∧ (Matrix.of fun i j : Fin 64 => ((entry (seed hash) t i j : Nat) : ℚ)).rank = 64 ∧
        (∀ t' < t, (Matrix.of fun i j : Fin 64 => ((entry (seed hash) t' i j : Nat) : ℚ)).rank ≠ 64) ∧
        d = some (digest P (entry (seed hash) t) hash ts nonce) := by
  have hr : ∀ t, calculateRank (exact ℚ) (candidate (seed hash) t) =
      .ok (Matrix.of fun i j : Fin 64 => ((entry (seed hash) t i j : Nat) : ℚ)).rank := by
    intro t
    rw [calculateRank_eq _ (candidate_square _ _)]
    congr 2
    funext i j
    show (((ent (candidate (seed hash) t) i j) : Nat) : ℚ) = _
    rw [ent_candidate _ _ _ _ i.isLt j.isLt]; rfl
  rw [C50_compute (exact ℚ) (by simp [exact]) P fuel hash hl ts nonce d]
  simp only [hr, Except.ok.injEq, ne_eq]

/-- The product entries are nibbles: the exact sums are at most 14400, well below `2^16`. The nibble 15 does not occur, so no nibble of the
intermediate hash is complemented. -/
theorem C50_bound (s : XState) (t : Nat) (h : List Byte) (i : Nat) :
    ((List.range 64).map fun j => entry s t i j * nibble h j).sum ≤ 14400 ∧ product (entry s t) h i ≤ 14 := by
  have key : ∀ n, ((List.range n).map fun j => entry s t i j * nibble h j).sum ≤ 225 * n := by
    intro n
    induction n with
    | zero => simp
    | succ n ih =>
      rw [sum_range_succ]
      have h1 : entry s t i n < 16 := Nat.mod_lt _ (by omega)
      have := Nat.mul_le_mul (Nat.le_of_lt_succ h1) (Nat.le_of_lt_succ (nibble_lt h n))
      omega
  have := key 64
  refine ⟨by omega, ?_⟩
  unfold product
  omega

/-! ## C49: termination -/

/-- **C49.** The property "`Compute` returns for every 32-byte hash" is false: on the all-zero hash it does not return, whatever the
timestamp and nonce and however many iterations are allowed. -/
theorem C49_zero_hash {F : Type} (N : Num F) (hz : N.big (N.ofU16 0) = false) (P : Prims) (ts nonce : U64) (fuel : Nat) :
    compute N P fuel (List.replicate 32 0) ts nonce = .error .fuel := by
  have hs : seed (List.replicate 32 0) = ⟨0, 0, 0, 0⟩ := by decide
  have ha : ∀ n, (⟨0, 0, 0, 0⟩ : XState).after n = ⟨0, 0, 0, 0⟩ := by
    intro n
    induction n with
    | zero => rfl
    | succ n ih => show ((⟨0, 0, 0, 0⟩ : XState).after n).step = _; rw [ih]; decide
  have hd : ∀ t, candidate ⟨0, 0, 0, 0⟩ t = zeroMat := by
    intro t
    have he : ∀ i j, entry ⟨0, 0, 0, 0⟩ t i j = 0 := by
      intro i j
      unfold entry XState.word
      rw [ha]
      have : (XState.out ⟨0, 0, 0, 0⟩).toNat = 0 := by decide
      rw [this]; simp
    unfold candidate zeroMat
    simp only [he]
    rw [List.map_const', List.map_const']; simp
  rcases newMatrix_cases N hz fuel 0 0 0 0 with ⟨t, _, h2, _⟩ | ⟨_, h2⟩
  · rw [hd, rank_zeroMat N hz] at h2
    exact absurd h2 (by simp)
  · unfold compute
    rw [if_neg (by simp), heavyHash_eq N P fuel _ (by simp)]
    have w : ∀ i < 4, leWord64 (List.replicate 32 0) i = 0 := by decide
    rw [w 0 (by omega), w 1 (by omega), w 2 (by omega), w 3 (by omega), h2]; rfl

/-- Every other 32-byte hash seeds the generator with a state from which it never reaches the zero state. -/
theorem C49_other_hash (hash : List Byte) (hl : hash.length = 32) (hne : hash ≠ List.replicate 32 0) (n : Nat) :
    (seed hash).after n ≠ ⟨0, 0, 0, 0⟩ := by
  apply C51_never_zero
  intro h
  apply hne
  simp only [seed, XState.mk.injEq] at h
  have w : ∀ i < 4, leWord64 hash i = 0 → (hash.drop (8 * i)).take 8 = List.replicate 8 0 := by
    intro i hi hw
    have hlen : ((hash.drop (8 * i)).take 8).length = 8 := by simp; omega
    apply leNat_inj _ _ (by simp; omega)
    have h1 := congrArg BitVec.toNat hw
    have hlt := leNat_lt ((hash.drop (8 * i)).take 8)
    rw [hlen] at hlt
    rw [leWord64, leValue_eq, BitVec.toNat_ofNat, Nat.mod_eq_of_lt (by norm_num at hlt ⊢; exact hlt)] at h1
    rw [h1]; decide
  have w0 := w 0 (by omega) h.1
  have w1 := w 1 (by omega) h.2.1
  have w2 := w 2 (by omega) h.2.2.1
  have w3 := w 3 (by omega) h.2.2.2
  have d3 : hash.drop 24 = List.replicate 8 0 := by rw [← w3, List.take_of_length_le (by simp; omega)]
  have d2 : hash.drop 16 = List.replicate 16 0 := by
    rw [← List.take_append_drop 8 (hash.drop 16), w2, List.drop_drop, d3]; rfl
  have d1 : hash.drop 8 = List.replicate 24 0 := by
    rw [← List.take_append_drop 8 (hash.drop 8), w1, List.drop_drop, d2]; rfl
  rw [← List.take_append_drop 8 hash, d1, show hash.take 8 = List.replicate 8 0 by simpa using w0]
  rfl

/-- When some candidate matrix has full rank, `Compute` returns for all sufficiently large iteration bounds. -/
theorem C49_returns {F : Type} (N : Num F) (hz : N.big (N.ofU16 0) = false) (P : Prims) (hash : List Byte) (hl : hash.length = 32)
    (ts nonce : U64) (t : Nat) (ht : calculateRank N (candidate (seed hash) t) = .ok 64) :
    ∃ d, d.length = 32 ∧ ∀ fuel, t + 1 < fuel → compute N P fuel hash ts nonce = .ok (some d) := by
  classical
  have hex : ∃ t, calculateRank N (candidate (seed hash) t) = .ok 64 := ⟨t, ht⟩
  refine ⟨digest P (entry (seed hash) (Nat.find hex)) hash ts nonce, ?_, fun fuel hf => ?_⟩
  · unfold digest
    dsimp only
    rw [List.length_reverse, P.cshake256_length]
  · rw [C50_compute N hz P fuel hash hl]
    have := Nat.find_le (h := hex) (n := t) ht
    exact ⟨Nat.find hex, by omega, Nat.find_spec hex, fun t' ht' => Nat.find_min hex ht', rfl⟩

/-! The hypothesis of `C49_returns` and the right-hand side of `C50_compute` are met by the hashes of heavyhash_test.go with
`float64` arithmetic: `Test/Heavy.lean` evaluates the model on them and compares the digests. -/

example (N : Num Nat) (hz : N.big (N.ofU16 0) = false) : compute N Prims.zero 1000 (List.replicate 32 0) 5 7 = .error .fuel :=
  C49_zero_hash N hz _ _ _ _

end Verif.Props
