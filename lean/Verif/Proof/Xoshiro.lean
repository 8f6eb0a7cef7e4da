import Verif.Proof.Pratt
import Verif.Spec.Heavy
import Mathlib.Algebra.Module.Hom
import Mathlib.Dynamics.PeriodicPts.Defs
import Mathlib.Data.Fintype.EquivFin

/-! # The transition of xoshiro256 has one cycle besides the zero state

The transition is linear over the field of two elements. A polynomial of degree 256 vanishes on it, so that its powers are powers of `x` modulo
that polynomial. -/

set_option autoImplicit false

namespace Verif.Xoshiro

open Spec.Heavy Gf2

/-! ### states as a group -/

theorem state_ext {s t : XState} (h0 : s.s0 = t.s0) (h1 : s.s1 = t.s1) (h2 : s.s2 = t.s2) (h3 : s.s3 = t.s3) : s = t := by
  cases s; cases t; simp_all

instance : Add XState := ⟨fun s t => ⟨s.s0 ^^^ t.s0, s.s1 ^^^ t.s1, s.s2 ^^^ t.s2, s.s3 ^^^ t.s3⟩⟩

instance : Zero XState := ⟨⟨0, 0, 0, 0⟩⟩

instance : Neg XState := ⟨fun s => s⟩

/-- states with exclusive or -/
instance : AddCommGroup XState where
  add_assoc _ _ _ := state_ext (BitVec.xor_assoc _ _ _) (BitVec.xor_assoc _ _ _) (BitVec.xor_assoc _ _ _) (BitVec.xor_assoc _ _ _)
  zero_add _ := state_ext BitVec.zero_xor BitVec.zero_xor BitVec.zero_xor BitVec.zero_xor
  add_zero _ := state_ext BitVec.xor_zero BitVec.xor_zero BitVec.xor_zero BitVec.xor_zero
  neg_add_cancel _ := state_ext BitVec.xor_self BitVec.xor_self BitVec.xor_self BitVec.xor_self
  add_comm _ _ := state_ext (BitVec.xor_comm _ _) (BitVec.xor_comm _ _) (BitVec.xor_comm _ _) (BitVec.xor_comm _ _)
  nsmul := nsmulRec
  zsmul := zsmulRec

theorem zero_def : (0 : XState) = ⟨0, 0, 0, 0⟩ := rfl

theorem add_def (s t : XState) : s + t = ⟨s.s0 ^^^ t.s0, s.s1 ^^^ t.s1, s.s2 ^^^ t.s2, s.s3 ^^^ t.s3⟩ := rfl

theorem add_self (s : XState) : s + s = 0 := neg_add_cancel s

theorem xor4 (a b c d : BitVec 64) : (a ^^^ b) ^^^ (c ^^^ d) = (a ^^^ c) ^^^ (b ^^^ d) := by
  rw [BitVec.xor_assoc, BitVec.xor_assoc, ← BitVec.xor_assoc b, BitVec.xor_comm b c, BitVec.xor_assoc]

theorem rotateLeft_xor (a b : BitVec 64) (r : Nat) : (a ^^^ b).rotateLeft r = a.rotateLeft r ^^^ b.rotateLeft r := by
  ext i hi
  simp only [BitVec.getElem_rotateLeft, BitVec.getElem_xor]
  split <;> rfl

theorem step_add (s t : XState) : (s + t).step = s.step + t.step := by
  simp only [add_def, XState.step, BitVec.shiftLeft_xor_distrib, XState.mk.injEq]
  refine ⟨?_, ?_, ?_, ?_⟩
  · rw [xor4 s.s0, xor4]
  · rw [xor4 s.s0, xor4]
  · rw [xor4 s.s0, xor4]
  · rw [xor4, rotateLeft_xor]

/-- the transition -/
def T : AddMonoid.End XState where
  toFun := XState.step
  map_zero' := by decide
  map_add' := step_add

theorem T_apply (s : XState) : T s = s.step := rfl

theorem pow_apply (n : Nat) (s : XState) : (T ^ n) s = s.after n := by
  induction n with
  | zero => rfl
  | succ n ih => rw [pow_succ', AddMonoid.End.coe_mul, Function.comp_apply, ih]; rfl

theorem end_add_self (x : AddMonoid.End XState) : x + x = 0 := by
  ext1 s
  exact add_self _

/-! ### states as numbers -/

/-- the state with the words in a number -/
def unpack (w : Nat) : XState := ⟨BitVec.ofNat 64 w, BitVec.ofNat 64 (w >>> 64), BitVec.ofNat 64 (w >>> 128), BitVec.ofNat 64 (w >>> 192)⟩

theorem unpack_zero : unpack 0 = 0 := by decide

theorem unpack_xor (a b : Nat) : unpack (a ^^^ b) = unpack a + unpack b := by
  unfold unpack
  rw [add_def]
  simp only [Nat.shiftRight_xor_distrib, BitVec.ofNat_xor]

/-- word `i` of a number -/
def word (w i : Nat) : Nat := Nat.mod (Nat.shiftRight w i) 18446744073709551616

/-- a number from words -/
def join (a b c d : Nat) : Nat :=
  Nat.add a (Nat.add (Nat.shiftLeft b 64) (Nat.add (Nat.shiftLeft c 128) (Nat.shiftLeft d 192)))

/-- the transition on numbers -/
def stepN (w : Nat) : Nat :=
  force (word w 0) fun a => force (word w 64) fun b => force (word w 128) fun c => force (word w 192) fun d =>
    join (Nat.xor (Nat.xor a b) d) (Nat.xor (Nat.xor a b) c)
      (Nat.xor (Nat.xor a c) (Nat.mod (Nat.shiftLeft b 17) 18446744073709551616))
      (Nat.lor (Nat.mod (Nat.shiftLeft (Nat.xor b d) 45) 18446744073709551616) (Nat.shiftRight (Nat.xor b d) 19))

theorem word_eq (w i : Nat) : word w i = (BitVec.ofNat 64 (w >>> i)).toNat := by
  rw [BitVec.toNat_ofNat]; rfl

theorem join_eq (a b c d : Nat) : join a b c d = a + (b * 2 ^ 64 + (c * 2 ^ 128 + d * 2 ^ 192)) := by
  rw [← Nat.shiftLeft_eq, ← Nat.shiftLeft_eq, ← Nat.shiftLeft_eq]; rfl

theorem unpack_join (a b c d : BitVec 64) : unpack (join a.toNat b.toNat c.toNat d.toNat) = ⟨a, b, c, d⟩ := by
  have ha := a.isLt
  have hb := b.isLt
  have hc := c.isLt
  have hd := d.isLt
  rw [join_eq]
  unfold unpack
  simp only [Nat.shiftRight_eq_div_pow]
  apply state_ext <;> apply BitVec.eq_of_toNat_eq <;> simp only [BitVec.toNat_ofNat] <;> omega

theorem unpack_step (w : Nat) : unpack (stepN w) = (unpack w).step := by
  obtain ⟨a, ha⟩ : ∃ a : BitVec 64, a = BitVec.ofNat 64 w := ⟨_, rfl⟩
  obtain ⟨b, hb⟩ : ∃ b : BitVec 64, b = BitVec.ofNat 64 (w >>> 64) := ⟨_, rfl⟩
  obtain ⟨c, hc⟩ : ∃ c : BitVec 64, c = BitVec.ofNat 64 (w >>> 128) := ⟨_, rfl⟩
  obtain ⟨d, hd⟩ : ∃ d : BitVec 64, d = BitVec.ofNat 64 (w >>> 192) := ⟨_, rfl⟩
  have e : stepN w = join (a ^^^ b ^^^ d).toNat (a ^^^ b ^^^ c).toNat (a ^^^ c ^^^ (b <<< 17)).toNat ((b ^^^ d).rotateLeft 45).toNat := by
    unfold stepN
    rw [force_eq, force_eq, force_eq, force_eq, word_eq, word_eq, word_eq, word_eq, ← hb, ← hc, ← hd,
      show BitVec.ofNat 64 (w >>> 0) = a from ha.symm]
    simp only [BitVec.toNat_xor, BitVec.toNat_shiftLeft, BitVec.toNat_rotateLeft]
    rfl
  rw [e, unpack_join]
  unfold unpack XState.step
  rw [← ha, ← hb, ← hc, ← hd]

/-- the value of the polynomial `p` at the transition, on the state `w`: Horner's rule -/
def evalLoop (p w i : Nat) : Nat → Nat :=
  Nat.rec (fun acc => acc) (fun i next acc => force (Nat.xor (stepN acc) (Nat.mul w (bit p i))) next) i

theorem evalLoop_eq (p w i acc : Nat) : unpack (evalLoop p w i acc) = (T ^ i) (unpack acc) + (ev T (p % 2 ^ i)) (unpack w) := by
  induction i generalizing acc with
  | zero =>
    show unpack acc = _
    rw [pow_zero, Nat.pow_zero, Nat.mod_one, ev_zero]
    exact (add_zero _).symm
  | succ i ih =>
    show unpack (force (stepN acc ^^^ w * bit p i) (evalLoop p w i)) = _
    rw [force_eq, ih, unpack_xor, unpack_step, bit_eq, ev_low end_add_self, pow_succ, AddMonoid.End.coe_mul, Function.comp_apply, T_apply, map_add, add_assoc]
    congr 1
    show _ = (if p / 2 ^ i % 2 = 1 then T ^ i else 0) (unpack w) + _
    congr 1
    rcases Nat.mod_two_eq_zero_or_one (p / 2 ^ i) with h | h <;> rw [h]
    · rw [Nat.mul_zero, unpack_zero, map_zero, if_neg (by omega)]; rfl
    · rw [Nat.mul_one, if_pos rfl]

/-- the polynomial -/
def poly : Nat := 0x10003c03c3f3ecb1904b4edcf26259f850280002bcefd1a5e9d116f2bb0f0f001

/-- it vanishes on the basis -/
def vanishes (n : Nat) : Bool := Nat.rec true (fun j next => cond (Nat.beq (evalLoop poly (Nat.pow 2 j) 257 0) 0) next false) n

theorem vanishes_of (n : Nat) (h : vanishes n = true) (j : Nat) (hj : j < n) : evalLoop poly (2 ^ j) 257 0 = 0 := by
  induction n with
  | zero => omega
  | succ n ih =>
    have h' : cond (Nat.beq (evalLoop poly (2 ^ n) 257 0) 0) (vanishes n) false = true := h
    cases hb : Nat.beq (evalLoop poly (2 ^ n) 257 0) 0 with
    | false => rw [hb] at h'; exact absurd h' Bool.false_ne_true
    | true =>
      rw [hb] at h'
      by_cases hjn : j = n
      · subst hjn; exact Nat.eq_of_beq_eq_true hb
      · exact ih h' (by omega)

theorem vanishes_all : vanishes 256 = true := by decide +kernel

theorem additive_zero (f : Nat → XState) (h0 : f 0 = 0) (hx : ∀ a b, f (a ^^^ b) = f a + f b) (n : Nat) (hb : ∀ j < n, f (2 ^ j) = 0) (w : Nat) :
    f (w % 2 ^ n) = 0 := by
  induction n with
  | zero => rw [Nat.pow_zero, Nat.mod_one, h0]
  | succ n ih =>
    rw [low_split, hx, ih fun j hj => hb j (by omega), add_zero]
    rcases Nat.mod_two_eq_zero_or_one (w / 2 ^ n) with h | h <;> rw [h]
    · rw [Nat.mul_zero, h0]
    · rw [Nat.mul_one, hb n (by omega)]

/-- every state is a number below `2^256` -/
theorem exists_unpack (s : XState) : ∃ w < 2 ^ 256, s = unpack w := by
  refine ⟨join s.s0.toNat s.s1.toNat s.s2.toNat s.s3.toNat, ?_, (unpack_join _ _ _ _).symm⟩
  have h0 := s.s0.isLt
  have h1 := s.s1.isLt
  have h2 := s.s2.isLt
  have h3 := s.s3.isLt
  rw [join_eq]
  omega

theorem poly_zero : ev T poly = 0 := by
  ext1 s
  obtain ⟨w, hw, rfl⟩ := exists_unpack s
  have := additive_zero (fun w => ev T poly (unpack w)) (by
      show ev T poly (unpack 0) = 0
      rw [unpack_zero, map_zero]) (by
      intro a b
      show ev T poly (unpack (a ^^^ b)) = _
      rw [unpack_xor, map_add]) 256 (by
      intro j hj
      have h := evalLoop_eq poly (2 ^ j) 257 0
      rw [vanishes_of 256 vanishes_all j hj, unpack_zero, map_zero, zero_add, Nat.mod_eq_of_lt (by decide)] at h
      exact h.symm) w
  rw [Nat.mod_eq_of_lt hw] at this
  exact this

/-! ### the order -/

/-- the number of states other than zero -/
def period : Nat := 2 ^ 256 - 1

theorem power (e : Nat) (he : e < 2 ^ 256) : ev T (powLoop 256 poly e 256 1) = T ^ e :=
  ev_power end_add_self T 256 poly e 256 poly_zero (by decide) (by decide) (by decide) he

theorem pow_period : T ^ period = 1 := by
  have h : powLoop 256 poly (2 ^ 256 - 1) 256 1 = 1 := by decide +kernel
  rw [← power period (by decide), show period = 2 ^ 256 - 1 from rfl, h, ev_one]

/-- the prime factors `q` of the period with the inverses of `x^(period / q) - 1` -/
def certificate : List (Nat × Nat) :=
  [(3, 0x54d6a48aae687fb68b7f13ce6607e276afab085596734aa97762f281b25ed783),
   (5, 0x9b17f5767b72e1a3c673d4c3e369b20235e972559753b37fdedc95dc103781f),
   (17, 0xf4646ef27133b2d46393a4c40448d75b8f3adcab0a20793ef8bb26f5b81e7ecf),
   (257, 0x618e9a9a97b4105e9870464ee696824b10a336ec58f59159b1165cabfe23cd76),
   (65537, 0x5b7382b05dc5a20686e618650a39fab806017ce589bb2d98cf9b5a05139e793f),
   (641, 0x56ced9120f236c15fdd49ed161d46abc0269afa58693de573c5dcc0645c4b0ff),
   (6700417, 0x1c10854fe79f6066b6b1fe5c68be2282e701b5777ef01c8fd5b0ea5458d18c36),
   (274177, 0x24d5461cfd63732f63b6b60adc840b312db07c0c8c7b46872d3955d70f9e6ac5),
   (67280421310721, 0xc3bc6f4888606c0bfb4a6ce96aa43d28506b49c1c962aba2928641dd24af8cf8),
   (59649589127497217, 0x2b0b5d0e0d5dcbfd343a0c7c13920e58856efc82f8b6f3e99a6368bb225afce6),
   (5704689200685129054721, 0xca8fcba3c0dd08871d4e3f7290e3e7fb8436109b90a55fd4bc6fe9d31b611e5)]

theorem certificate_ok : (certificate.all fun c =>
    Nat.beq (mul 256 poly (Nat.xor (powLoop 256 poly (Nat.div (2 ^ 256 - 1) c.1) 256 1) 1) c.2) 1 && Nat.ble c.2 (2 ^ 256 - 1)) = true := by
  decide +kernel

theorem certificate_factors : certificate.map Prod.fst = Pratt.factors := by decide

/-- no state but zero has a shorter period -/
theorem no_shorter (q : Nat) (hq : q.Prime) (hd : q ∣ period) (s : XState) (h : (T ^ (period / q)) s = s) : s = 0 := by
  have hm := Pratt.mem_factors q hq hd
  rw [← certificate_factors] at hm
  obtain ⟨c, hc, rfl⟩ := List.mem_map.1 hm
  have hok := List.all_eq_true.1 certificate_ok c hc
  rw [Bool.and_eq_true] at hok
  have h1 : mul 256 poly (powLoop 256 poly (period / c.1) 256 1 ^^^ 1) c.2 = 1 := Nat.eq_of_beq_eq_true hok.1
  have h2 : c.2 < 2 ^ 256 := Nat.lt_of_le_of_lt (Nat.le_of_ble_eq_true hok.2) (by decide)
  have h3 := ev_mul end_add_self T 256 poly (powLoop 256 poly (period / c.1) 256 1 ^^^ 1) c.2 poly_zero h2
  rw [h1, ev_one, ev_xor end_add_self, power _ (Nat.lt_of_le_of_lt (Nat.div_le_self _ _) (by decide)), ev_one] at h3
  have h4 : (T ^ (period / c.1) + 1 : AddMonoid.End XState) s = 0 := by
    show (T ^ (period / c.1)) s + s = 0
    rw [h, add_self]
  have h5 : (1 : AddMonoid.End XState) s = ev T c.2 ((T ^ (period / c.1) + 1 : AddMonoid.End XState) s) :=
    congrArg (fun f : AddMonoid.End XState => f s) h3
  rw [h4, map_zero] at h5
  exact h5

theorem after_add (s : XState) (m n : Nat) : s.after (m + n) = (s.after m).after n := by
  rw [← pow_apply, ← pow_apply, ← pow_apply, Nat.add_comm, pow_add]; rfl

theorem after_eq_iterate (s : XState) (n : Nat) : s.after n = XState.step^[n] s := by
  induction n with
  | zero => rfl
  | succ n ih => rw [Function.iterate_succ_apply', ← ih]; rfl

theorem after_period (s : XState) : s.after period = s := by
  rw [← pow_apply, pow_period]; rfl

attribute [irreducible] period

theorem period_pos : 0 < period := by unfold period; decide

/-- the period of every state but zero -/
theorem minimalPeriod (s : XState) (hs : s ≠ 0) : Function.minimalPeriod XState.step s = period := by
  have hdvd : Function.minimalPeriod XState.step s ∣ period :=
    Function.IsPeriodicPt.minimalPeriod_dvd (by
      show XState.step^[period] s = s
      rw [← after_eq_iterate, after_period])
  by_contra hne
  obtain ⟨k, hk⟩ := hdvd
  have hk1 : k ≠ 1 := by
    rintro rfl
    exact hne (by rw [hk, Nat.mul_one])
  obtain ⟨q, hq, l, hl⟩ := Nat.exists_prime_and_dvd hk1
  have hqd : q ∣ period := ⟨Function.minimalPeriod XState.step s * l, by rw [hk, hl, Nat.mul_left_comm]⟩
  refine hs (no_shorter q hq hqd s ?_)
  have hdiv : period / q = Function.minimalPeriod XState.step s * l := by
    refine Nat.div_eq_of_eq_mul_right hq.pos ?_
    conv_lhs => rw [hk, hl]
    rw [Nat.mul_left_comm]
  rw [hdiv, pow_apply, after_eq_iterate]
  exact (Function.isPeriodicPt_minimalPeriod XState.step s).mul_const l

theorem after_eq_iff (s : XState) (hs : s ≠ 0) (n : Nat) : s.after n = s ↔ period ∣ n := by
  rw [after_eq_iterate, ← minimalPeriod s hs]
  exact ⟨fun h => Function.IsPeriodicPt.minimalPeriod_dvd h, fun h => (Function.isPeriodicPt_minimalPeriod XState.step s).trans_dvd h⟩

/-! ### the orbit -/

/-- the number of a state -/
def pack (s : XState) : Nat := join s.s0.toNat s.s1.toNat s.s2.toNat s.s3.toNat

theorem unpack_pack (s : XState) : unpack (pack s) = s := unpack_join _ _ _ _

theorem pack_lt (s : XState) (hs : s ≠ 0) : pack s - 1 < period ∧ 0 < pack s := by
  have h0 : pack s ≠ 0 := by
    intro h
    apply hs
    rw [← unpack_pack s, h, unpack_zero]
  have h1 := s.s0.isLt
  have h2 := s.s1.isLt
  have h3 := s.s2.isLt
  have h4 := s.s3.isLt
  have : pack s = s.s0.toNat + (s.s1.toNat * 2 ^ 64 + (s.s2.toNat * 2 ^ 128 + s.s3.toNat * 2 ^ 192)) := join_eq _ _ _ _
  unfold period
  omega

theorem after_ne_zero (s : XState) (hs : s ≠ 0) (n : Nat) : s.after n ≠ 0 := by
  intro h
  apply hs
  have h1 := after_period s
  have h2 : ∀ k m, m = n + k → s.after m = 0 := by
    intro k
    induction k with
    | zero => intro m hm; rw [hm, Nat.add_zero, h]
    | succ k ih => intro m hm; rw [hm, ← Nat.add_assoc]; show (s.after (n + k)).step = 0; rw [ih _ rfl]; decide
  have h3 : s.after (period * n) = s := (after_eq_iff s hs _).2 (Nat.dvd_mul_right _ _)
  rw [← h3]
  refine h2 (period * n - n) _ ?_
  have := Nat.le_mul_of_pos_left n period_pos
  omega

theorem after_inj (s : XState) (hs : s ≠ 0) (m n : Nat) (h : s.after m = s.after (m + n)) : period ∣ n := by
  refine (after_eq_iff (s.after m) (after_ne_zero s hs m) n).1 ?_
  rw [← after_add, ← h]

theorem coprime_period (k : Nat) : Nat.Coprime (2 ^ k) period := by
  apply Nat.Coprime.pow_left
  rw [Nat.coprime_two_left]
  unfold period
  decide

/-- the states at the multiples of a number coprime to the period are all the states but zero -/
theorem orbit (c : Nat) (hc : Nat.Coprime c period) (s u : XState) (hs : s ≠ 0) (hu : u ≠ 0) : ∃ t < period, s.after (c * t) = u := by
  obtain ⟨f, hf⟩ : ∃ f : Fin period → Fin period, ∀ t, (f t).val = pack (s.after (c * t.val)) - 1 :=
    ⟨fun t => ⟨_, (pack_lt _ (after_ne_zero s hs (c * t.val))).1⟩, fun _ => rfl⟩
  have key : ∀ a b : XState, a ≠ 0 → b ≠ 0 → pack a - 1 = pack b - 1 → a = b := by
    intro a b ha hb h
    have h1 := (pack_lt a ha).2
    have h2 := (pack_lt b hb).2
    rw [← unpack_pack a, ← unpack_pack b, show pack a = pack b by omega]
  have hle : ∀ a b : Nat, a ≤ b → b < period → s.after (c * a) = s.after (c * b) → a = b := by
    intro a b hab hb h
    have h1 : period ∣ c * (b - a) := by
      apply after_inj s hs (c * a)
      rw [h, ← Nat.mul_add]
      congr 2
      omega
    have h2 := hc.symm.dvd_of_dvd_mul_left h1
    have := Nat.eq_zero_of_dvd_of_lt h2 (by omega)
    omega
  have hinj : Function.Injective f := by
    intro a b h
    have h1 := key _ _ (after_ne_zero s hs (c * a.val)) (after_ne_zero s hs (c * b.val)) (by rw [← hf, ← hf, h])
    apply Fin.ext
    rcases Nat.le_total a.val b.val with hab | hab
    · exact hle _ _ hab b.isLt h1
    · exact (hle _ _ hab a.isLt h1.symm).symm
  obtain ⟨t, ht⟩ := Finite.injective_iff_surjective.1 hinj ⟨pack u - 1, (pack_lt u hu).1⟩
  refine ⟨t.val, t.isLt, key _ _ (after_ne_zero s hs _) hu ?_⟩
  rw [← hf, ht]

end Verif.Xoshiro
