import Verif.Props.Equihash
import Verif.Proof.EquihashTotal

/-! # Equihash clients with parameters of one's own (`New`): property C72 -/

set_option autoImplicit false

namespace Verif.Props

open Go Equihash Spec Spec.Equihash Convutil Crypto

/-- **C72** `Verify` of a client constructed by `New` returns for every header and solution, as long as the sizes fit. -/
theorem C72_returns (P : Prims) (c : Client) (hk : c.k.toNat + 1 < 2 ^ 32)
    (h : 7 ≤ (eqParams c).c → (eqParams c).c ≤ 31 → (eqParams c).Fits) (header soln : List Byte) (h32 : soln.length < 2 ^ 32) (fuel : Nat)
    (hf : 64 ≤ fuel) : ∃ r, c.verify P fuel header soln = .ok r :=
  verify_returns (q := eqParams c) P c.n.isLt hk h header soln h32 fuel hf

/-- the sizes of the five shipped clients fit -/
theorem C72_shipped : ∀ c ∈ eqShipped, (eqParams c).Fits := by
  intro c hc
  simp only [eqShipped, List.mem_cons, List.not_mem_nil, or_false] at hc
  rcases hc with rfl | rfl | rfl | rfl | rfl <;> constructor <;> decide

/-- **C72** Only one length is not rejected with an error, and none if the collision length is below 7 or above 31. -/
theorem C72_rejected (P : Prims) (c : Client) (hk : c.k.toNat + 1 < 2 ^ 32) (header soln : List Byte) (h32 : soln.length < 2 ^ 32) (fuel : Nat)
    (h : soln.length ≠ (eqParams c).askedLen ∨ (eqParams c).c < 7 ∨ 31 < (eqParams c).c) :
    ∃ e, c.verify P fuel header soln = .ok (false, some e) := by
  obtain ⟨e, he⟩ := decode_error (q := eqParams c) hk soln h32 h c.n.isLt
  refine ⟨e, ?_⟩
  show verify P fuel (eqParams c).n (eqParams c).k (eqParams c).personal header soln (eqParams c).twist = _
  rw [verify_tail P fuel c.n.isLt c.k.isLt, verifyTail, he, ok_bind]
  rfl

/-- **C72** With `k = 2^32 - 1` every call divides by zero. -/
theorem C72_k_max (P : Prims) (c : Client) (hk : c.k.toNat + 1 = 2 ^ 32) (header soln : List Byte) (fuel : Nat) :
    c.verify P fuel header soln = .error (.panic .divZero) := by
  show verify P fuel (eqParams c).n (eqParams c).k (eqParams c).personal header soln (eqParams c).twist = _
  have e : u32 ((eqParams c).k + 1) = 0 := by
    show (c.k.toNat + 1) % 2 ^ 32 = 0
    rw [hk, Nat.mod_self]
  rw [verify_tail P fuel c.n.isLt c.k.isLt, verifyTail, indicesFromMinimal, collisionBitLength, e]
  rfl

/-- **C72** When the only accepted length has no room for one index (`k ≥ 32`, or `2^k (c+1)` a multiple of 2^32, or `k = 0` and `8 ∤ c+1`),
`Verify` panics for it, whatever the bytes. -/
theorem C72_no_index (P : Prims) (c : Client) (hk : c.k.toNat + 1 < 2 ^ 32) (h1 : 7 ≤ (eqParams c).c) (h2 : (eqParams c).c ≤ 31)
    (header soln : List Byte) (hl : soln.length = (eqParams c).askedLen) (h8 : 8 * soln.length < (eqParams c).c + 1) (fuel : Nat)
    (hf : 1 ≤ fuel) : c.verify P fuel header soln = .error (.panic .index) := by
  obtain ⟨q, hq⟩ : ∃ q, q = eqParams c := ⟨_, rfl⟩
  show verify P fuel (eqParams c).n (eqParams c).k (eqParams c).personal header soln (eqParams c).twist = _
  have hn : (eqParams c).n < 2 ^ 32 := c.n.isLt
  have hk' : (eqParams c).k + 1 < 2 ^ 32 := hk
  rw [← hq] at h1 h2 hl h8 hn hk' ⊢
  rw [verify_tail P fuel hn (by omega), verifyTail]
  have e0 : u32 (q.c + 1) = q.c + 1 := Nat.mod_eq_of_lt (by omega)
  have e1 : u32 (q.c + 1 + 7) = q.c + 1 + 7 := Nat.mod_eq_of_lt (by omega)
  have e2 : u32 soln.length = soln.length := Nat.mod_eq_of_lt (by omega)
  have hW : (q.c + 1 + 7) / 8 + (4 - (q.c + 1 + 7) / 8) = 4 := by omega
  obtain ⟨out, ho1, ho2, _⟩ := expandArray_total soln (q.c + 1) (4 - (q.c + 1 + 7) / 8) (by omega) (by omega) (by omega)
    (by rw [hW]; omega)
  rw [hW] at ho2
  have ho3 : out.length / 4 = 0 := by
    have : out.length < 4 := by
      rw [ho2, Nat.div_lt_iff_lt_mul (by omega)]
      omega
    omega
  have hdec : indicesFromMinimal q.n q.k soln = .ok (.ok []) := by
    unfold indicesFromMinimal
    rw [cbl_of hk', ok_bind]
    simp only
    rw [asked_eq, e0, e1, e2, if_neg (by omega), if_neg (by omega), ho1, ok_bind]
    simp only
    rw [bytesToUint32Array_eq, ok_bind, words32, ho3]
    rfl
  obtain ⟨f, rfl⟩ : ∃ f, fuel = f + 1 := ⟨fuel - 1, by omega⟩
  rw [hdec, ok_bind]
  simp only
  show (do
      match ← (Except.ok (Step.cont []) : Go (Step (List Node) Err)) with
      | .ret e => pure (false, some e)
      | .cont rows => do
        match ← Pairing.rounds (fun _ => combine q.n q.k) (f + 1) 0 rows with
        | .error e => pure (false, some e)
        | .ok rows => do
          let top ← idx rows 0
          if top.hash.any (fun v => v != 0) then pure (false, none) else pure (true, none)) = _
  rw [ok_bind]
  simp only
  rw [show Pairing.rounds (fun _ => combine q.n q.k) (f + 1) 0 ([] : List Node) = .ok (.ok []) from forever_ret _ rfl, ok_bind]
  rfl

/-- what happens when the first leaf cannot be computed -/
theorem first_row (P : Prims) (q : Params) (h1 : 7 ≤ q.c) (h2 : q.c ≤ 31) (hb : 8 ∣ 2 ^ q.k * (q.c + 1)) (hs : 2 ^ q.k * (q.c + 1) < 2 ^ 30)
    (hn : q.n < 2 ^ 32) (hk : q.k + 1 < 2 ^ 32) (header soln : List Byte) (hl : soln.length = q.askedLen) (fuel : Nat) (s : Stop)
    (hnode : ∀ ixs i, indicesFromMinimal q.n q.k soln = .ok (.ok ixs) → ixs[0]? = some i →
      newNode P fuel q.n q.k (pstate q) q.twist header i = .error s) :
    verify P fuel q.n q.k q.personal header soln q.twist = .error s := by
  obtain ⟨ixs, hi1, hi2, _⟩ := decode_total h1 h2 hb hs hk soln hl
  have hp : 0 < 2 ^ q.k := Nat.two_pow_pos _
  obtain ⟨m, hm⟩ : ∃ m, ixs.length = m + 1 := ⟨ixs.length - 1, by omega⟩
  have h0 : 0 < ixs.length := by omega
  rw [verify_tail P fuel hn (by omega), verifyTail, hi1, ok_bind]
  simp only
  have e : forRangeE 0 ixs.length [] (rowStep P fuel q.n q.k (pstate q) q.twist header ixs) = .error s := by
    rw [forRangeE, hm]
    show loopE (m + 1) 0 _ _ = _
    have hr : rowStep P fuel q.n q.k (pstate q) q.twist header ixs 0 [] = .error s := by
      rw [rowStep, idx_ok _ _ h0, ok_bind, hnode ixs _ hi1 (List.getElem?_eq_getElem h0)]
      rfl
    rw [loopE, hr]
    rfl
  rw [e]
  rfl

/-- **C72** With `n > 512` there is no index per hash output: every solution of the right length makes `Verify` divide by zero. -/
theorem C72_n_large (P : Prims) (c : Client) (hk : c.k.toNat + 1 < 2 ^ 32) (hn : 512 < c.n.toNat) (h1 : 7 ≤ (eqParams c).c)
    (h2 : (eqParams c).c ≤ 31) (hs : 2 ^ c.k.toNat * ((eqParams c).c + 1) < 2 ^ 30) (header soln : List Byte)
    (hl : soln.length = (eqParams c).askedLen) (fuel : Nat) : c.verify P fuel header soln = .error (.panic .divZero) := by
  have hb : 8 ∣ 2 ^ c.k.toNat * ((eqParams c).c + 1) := by
    have h3 : 3 ≤ c.k.toNat := by
      by_contra hc
      have : c.n.toNat / (c.k.toNat + 1) ≤ 31 := h2
      have h4 : 512 / (c.k.toNat + 1) ≤ c.n.toNat / (c.k.toNat + 1) := Nat.div_le_div_right (by omega)
      have h5 : 512 / 3 ≤ 512 / (c.k.toNat + 1) := Nat.div_le_div_left (by omega) (by omega)
      omega
    exact Dvd.dvd.mul_right (show 2 ^ 3 ∣ 2 ^ c.k.toNat from Nat.pow_dvd_pow 2 h3) _
  refine first_row P (eqParams c) h1 h2 hb hs c.n.isLt hk header soln hl fuel _ fun ixs i _ _ => ?_
  have e : (512 : Nat) / c.n.toNat = 0 := Nat.div_eq_of_lt hn
  unfold newNode
  rw [indicesPerHashOutput, divN, if_neg (show ¬ (eqParams c).n = 0 by show ¬ c.n.toNat = 0; omega), ok_bind]
  rw [show 512 / (eqParams c).n = 0 from e, divN, if_pos rfl]
  rfl

theorem digest_lt (q : Params) (h7 : 7 ≤ q.n) : q.digest < 256 := by
  have h1 : q.per * q.n ≤ 512 := Nat.div_mul_le_self 512 q.n
  have h2 : 8 * q.nb ≤ q.n + 7 := by unfold Params.nb; omega
  have h3 : q.per * 7 ≤ q.per * q.n := Nat.mul_le_mul_left _ h7
  have h4 : q.per * (8 * q.nb) ≤ q.per * (q.n + 7) := Nat.mul_le_mul_left _ h2
  have h5 : q.per * (8 * q.nb) = 8 * q.digest := by unfold Params.digest; ring
  rw [Nat.mul_add] at h4
  omega

/-- **C72** With a personalisation of more than 8 bytes, or with an `n` for which the leaves of one hash output take more than 64 bytes (the
smallest multiple of ten is 100), every solution of the right length makes `Verify` panic in `Blake2b`. -/
theorem C72_blake (P : Prims) (c : Client) (hk : c.k.toNat + 1 < 2 ^ 32) (hn : c.n.toNat ≤ 512) (h1 : 7 ≤ (eqParams c).c)
    (h2 : (eqParams c).c ≤ 31) (hb : 8 ∣ 2 ^ c.k.toNat * ((eqParams c).c + 1)) (hs : 2 ^ c.k.toNat * ((eqParams c).c + 1) < 2 ^ 30)
    (hbad : 8 < c.personal.length ∨ 64 < (eqParams c).digest) (header soln : List Byte) (hl : soln.length = (eqParams c).askedLen) (fuel : Nat)
    (hf : 1 ≤ fuel) : c.verify P fuel header soln = .error (.panic .explicit) := by
  refine first_row P (eqParams c) h1 h2 hb hs c.n.isLt hk header soln hl fuel _ fun ixs i _ _ => ?_
  obtain ⟨q, hq⟩ : ∃ q, q = eqParams c := ⟨_, rfl⟩
  have hn' : (eqParams c).n ≤ 512 := hn
  have hbad' : 8 < (eqParams c).personal.length ∨ 64 < (eqParams c).digest := hbad
  rw [← hq] at h1 hn' hbad' ⊢
  have h7 : 7 ≤ q.n := Nat.le_trans h1 (Nat.div_le_self _ _)
  have hper : 0 < q.per := Nat.div_pos hn' (by omega)
  have hnb : 0 < q.nb := by unfold Params.nb; omega
  have hdl := digest_lt q h7
  have hd0 : 0 < q.digest := Nat.mul_pos hper hnb
  have e1 : indicesPerHashOutput q.n = .ok q.per := by
    rw [indicesPerHashOutput, divN, if_neg (by omega)]
    rfl
  have e2 : u32 (q.n + 7) / 8 = q.nb := by
    rw [show u32 (q.n + 7) = q.n + 7 from Nat.mod_eq_of_lt (by omega)]
    rfl
  have e3 : hashOutput q.n = .ok q.digest := by
    have : u32 (q.per * q.nb) = q.digest := Nat.mod_eq_of_lt (show q.digest < _ by omega)
    rw [hashOutput, e1, ok_bind, e2, this]
    rfl
  have hblake : ∀ g : U32, hashBlakeWithOffset P header (pstate q) g q.digest = .error (.panic .explicit) := by
    intro g
    simp only [hashBlakeWithOffset]
    rw [copy_zero, ok_bind, put_le header 0 4 rfl, ok_bind]
    simp only [blake2b]
    have hd : q.digest ≠ 0 := by omega
    have hps := pstate_length q
    rw [Nat.mod_eq_of_lt hdl, if_neg hd, if_pos (by omega)]
    rfl
  have hgen : ∀ g : U32, generateHash P fuel header (pstate q) g q.digest q.twist = .error (.panic .explicit) := by
    intro g
    unfold generateHash
    cases q.twist with
    | false => exact hblake g
    | true =>
      obtain ⟨f, rfl⟩ : ∃ f, fuel = f + 1 := ⟨fuel - 1, by omega⟩
      simp only [Bool.not_true, Bool.false_eq_true, if_false]
      rw [forever_err (e := .panic .explicit)]
      · rfl
      · simp only [twistStep]
        rw [if_pos (by
          rw [start_eq, BitVec.le_def, BitVec.toNat_ofNat]
          have := Nat.mod_le (g.toNat - g.toNat % 16) (2 ^ 32)
          omega), hblake]
        rfl
  unfold newNode
  rw [e1, ok_bind, divN, if_neg (by omega), ok_bind, e3, ok_bind, hgen]
  rfl

/-- **C72** With the twist and 32-bit indices (only `n` from 505 to 511 with `k = 15`) a solution that begins with the index 2^32 - 1 keeps
`Verify` running forever: `g2 <= g` always holds for `g = 2^32 - 1`. -/
theorem C72_forever (P : Prims) (c : Client) (hn : 505 ≤ c.n.toNat) (hn2 : c.n.toNat ≤ 511) (hk : c.k.toNat = 15) (hp : c.personal.length ≤ 8)
    (ht : c.twist = true) (header rest : List Byte) (hl : rest.length = 131068) (fuel : Nat) :
    c.verify P fuel header (List.replicate 4 0xFF ++ rest) = .error .fuel := by
  obtain ⟨q, hq⟩ : ∃ q, q = eqParams c := ⟨_, rfl⟩
  have hqn : (eqParams c).n = c.n.toNat := rfl
  have hqk : (eqParams c).k = c.k.toNat := rfl
  have hqp : (eqParams c).personal = c.personal := rfl
  have hqt : (eqParams c).twist = c.twist := rfl
  show verify P fuel (eqParams c).n (eqParams c).k (eqParams c).personal header _ (eqParams c).twist = _
  rw [← hq] at hqn hqk hqp hqt ⊢
  have hc : q.c = 31 := by
    unfold Params.c
    rw [hqn, hqk, hk]
    omega
  have hnb : q.nb = 64 := by
    unfold Params.nb
    omega
  have hper : q.per = 1 := by
    unfold Params.per
    rw [hqn]
    exact Nat.div_eq_of_lt_le (by omega) (by omega)
  have hsoln : (List.replicate 4 (0xFF : Byte) ++ rest).length = q.askedLen := by
    unfold Params.askedLen
    rw [hc, hqk, hk, List.length_append, hl, List.length_replicate]
  refine first_row P q (by omega) (by omega) ?_ ?_ (by omega) (by omega) header _ hsoln fuel _ fun ixs i hdec hi => ?_
  · rw [hc, hqk, hk]
    decide
  · rw [hc, hqk, hk]
    decide
  -- the first index is 2^32 - 1
  have hi0 : i = 0xFFFFFFFF := by
    have e0 : u32 (q.c + 1) = 32 := by rw [hc]; rfl
    have e2 : u32 (List.replicate 4 (0xFF : Byte) ++ rest).length = 131072 := by
      rw [List.length_append, hl, List.length_replicate]
      rfl
    unfold indicesFromMinimal at hdec
    rw [cbl_of (by omega), ok_bind] at hdec
    simp only at hdec
    rw [asked_eq, ← hsoln, e0, e2, if_neg (by
      rw [List.length_append, hl, List.length_replicate]
      decide), if_neg (by decide)] at hdec
    have hx : expandArray (List.replicate 4 (0xFF : Byte) ++ rest) 32 (4 - u32 (32 + 7) / 8) = .ok (.ok (List.replicate 4 (0xFF : Byte) ++ rest)) := by
      unfold expandArray
      rw [if_neg (by decide), if_neg (by decide)]
      simp only [e2]
      rw [if_pos (by decide)]
      rfl
    rw [hx, ok_bind] at hdec
    simp only at hdec
    rw [bytesToUint32Array_eq, ok_bind] at hdec
    have hdec := Except.ok.inj (Except.ok.inj hdec)
    have h0 : 0 < ixs.length := by
      rw [← hdec, words32_length, List.length_append, hl, List.length_replicate]
      decide
    rw [List.getElem?_eq_getElem h0] at hi
    injection hi with hi
    rw [← hi]
    simp only [← hdec, words32, List.getElem_map, List.getElem_range, Nat.mul_zero, List.drop_zero]
    rw [List.take_append_of_le_length (by simp), List.take_of_length_le (by simp)]
    rfl
  have hps : (pstate q).length ≤ 16 := by
    rw [pstate_length, hqp]
    omega
  have e1 : indicesPerHashOutput q.n = .ok 1 := by
    rw [indicesPerHashOutput, divN, if_neg (by omega), ← hper]
    rfl
  have e2 : u32 (q.n + 7) / 8 = 64 := by
    rw [show u32 (q.n + 7) = q.n + 7 from Nat.mod_eq_of_lt (by omega)]
    exact hnb
  have e3 : hashOutput q.n = .ok 64 := by
    rw [hashOutput, e1, ok_bind, e2]
    rfl
  have hloop : ∀ (fuel : Nat) (s : U32) (acc : List U32), acc.length = 16 →
      forever fuel (s, acc) (twistStep P header (pstate q) 0xFFFFFFFF 64) = .error .fuel := by
    intro fuel
    induction fuel with
    | zero => intros; rfl
    | succ f ih =>
      intro s acc ha
      obtain ⟨t, ht1, ht2⟩ := blakeOff_total P header (pstate q) hps s 64 (by omega) (by omega)
      rw [forever_cont (s' := (s + 1, acc.mapIdx fun i x => x + leWord32 t i))]
      · exact ih _ _ (by simpa using ha)
      · simp only [twistStep]
        rw [if_pos (by
          rw [BitVec.le_def]
          have := s.isLt
          have h : (0xFFFFFFFF : U32).toNat = 2 ^ 32 - 1 := rfl
          omega), ht1, ok_bind, laneLoop_eq t ht2 acc ha, ok_bind]
        rfl
  unfold newNode
  rw [e1, ok_bind, divN, if_neg (by omega), ok_bind, e3, ok_bind, hi0, Nat.div_one]
  unfold generateHash
  rw [hqt, ht]
  simp only [Bool.not_true, Bool.false_eq_true, if_false]
  rw [show BitVec.ofNat 32 (0xFFFFFFFF : U32).toNat = (0xFFFFFFFF : U32) from rfl, hloop _ _ _ (by simp)]
  rfl

-- `C72_returns`: parameters nobody ships
example (P : Prims) (header soln : List Byte) (h32 : soln.length < 2 ^ 32) (c : Client) (hc : c = ⟨96, 5, ascii "ZcashPoW", false⟩) :
    ∃ r, c.verify P 64 header soln = .ok r := by
  subst hc
  exact C72_returns P _ (by decide) (fun _ _ => by constructor <;> decide) header soln h32 64 (Nat.le_refl _)

-- `C72_returns`: `k + 1` does not divide `n`, and indices of 32 bits
example (P : Prims) (header soln : List Byte) (h32 : soln.length < 2 ^ 32) (c : Client) (hc : c = ⟨127, 3, ascii "ZcashPoW", false⟩) :
    ∃ r, c.verify P 64 header soln = .ok r := by
  subst hc
  exact C72_returns P _ (by decide) (fun _ _ => by constructor <;> decide) header soln h32 64 (Nat.le_refl _)

-- `C72_rejected`: one byte short for `(96, 5)`, whose solutions take 68 bytes; and any solution for `(96, 2)`, whose collision length is 32
example (P : Prims) (header : List Byte) : ∃ e, (⟨96, 5, [], false⟩ : Client).verify P 64 header (List.replicate 67 1) = .ok (false, some e) :=
  C72_rejected P _ (by decide) header _ (by simp) 64 (Or.inl (by simp; decide))
example (P : Prims) (header : List Byte) : ∃ e, (⟨96, 2, [], false⟩ : Client).verify P 64 header [1, 2, 3] = .ok (false, some e) :=
  C72_rejected P _ (by decide) header _ (by decide) 64 (Or.inr (Or.inr (by decide)))

-- `C72_k_max`
example (P : Prims) : (⟨200, 4294967295, [], false⟩ : Client).verify P 64 [1] [2] = .error (.panic .divZero) :=
  C72_k_max P _ (by decide) _ _ 64

-- `C72_no_index`: `(210, 29)` has `2^29 * 8 = 2^32` bits of indices, so the empty solution is asked for
example (P : Prims) : (⟨210, 29, [], false⟩ : Client).verify P 64 [1] [] = .error (.panic .index) :=
  C72_no_index P _ (by decide) (by decide) (by decide) _ _ (by decide) (by decide) 64 (by decide)

-- `C72_n_large`: `(600, 19)`
example (P : Prims) (header soln : List Byte) (h : soln.length = 2031616) :
    (⟨600, 19, [], false⟩ : Client).verify P 64 header soln = .error (.panic .divZero) :=
  C72_n_large P _ (by decide) (by decide) (by decide) (by decide) (by decide) _ _ (by rw [h]; decide) 64

-- `C72_blake`: `(100, 9)` needs 65 bytes per hash output; a personalisation of nine bytes
example (P : Prims) (header soln : List Byte) (h : soln.length = 704) :
    (⟨100, 9, [], false⟩ : Client).verify P 64 header soln = .error (.panic .explicit) :=
  C72_blake P _ (by decide) (by decide) (by decide) (by decide) (by decide) (by decide) (Or.inr (by decide)) _ _ (by rw [h]; decide) 64 (by decide)
example (P : Prims) (header soln : List Byte) (h : soln.length = 1344) :
    (⟨200, 9, ascii "ZcashPoW1", false⟩ : Client).verify P 64 header soln = .error (.panic .explicit) :=
  C72_blake P _ (by decide) (by decide) (by decide) (by decide) (by decide) (by decide) (Or.inl (by decide)) _ _ (by rw [h]; decide) 64 (by decide)

-- `C72_forever`
example (P : Prims) (header : List Byte) (fuel : Nat) :
    (⟨510, 15, ascii "twisted", true⟩ : Client).verify P fuel header (List.replicate 4 0xFF ++ List.replicate 131068 7) = .error .fuel :=
  C72_forever P _ (by decide) (by decide) (by decide) (by decide) rfl _ _ (by rw [List.length_replicate]) fuel

end Verif.Props
