import Verif.Proof.EaglesongDigest
import Verif.Go.Fail

/-! # Eaglesong with parameters of one's own -/

set_option autoImplicit false

namespace Verif.Eaglesong

open Go Spec Spec.Eaglesong

theorem absorbAt_length (rounds r : Nat) (delim : Byte) (input : List Byte) (i : Nat) (s : List U32) :
    (absorbAt rounds r delim input i s).length = 16 := permutation_length _ _ (by simp)

theorem absorbedAt_length (rounds r : Nat) (delim : Byte) (input : List Byte) (n : Nat) :
    (absorbedAt rounds r delim input n).length = 16 := by
  cases n with
  | zero => simp [absorbedAt]
  | succ n => exact absorbAt_length _ _ _ _ _ _

theorem squeezedAt_length (rounds r : Nat) (delim : Byte) (input : List Byte) (n : Nat) :
    (squeezedAt rounds r delim input n).length = 16 := by
  induction n with
  | zero => exact absorbedAt_length _ _ _ _ _
  | succ n ih => exact permutation_length _ _ ih

/-- the words absorbed from a block, as long as the state has enough of them -/
theorem absorb_words (r : Nat) (hr : r < 544) (delim : Byte) (input : List Byte) (i : Nat) (s : List U32) (hs : s.length = 16) :
    forRange 0 (r / 32) s (absorbStep r delim input i) =
      .ok ((List.range 16).map fun j => if j < r / 32 then word s j ^^^ messageAt delim input (i * r / 8 + 4 * j) else word s j) := by
  rw [forRange_update (fun j x => x ^^^ messageAt delim input (i * r / 8 + 4 * j)) (r / 32) s (by omega)]
  · refine congrArg Except.ok ?_
    apply List.ext_getElem (by simp [hs])
    intro j h1 h2
    have hj : j < s.length := by simpa using h1
    simp only [List.getElem_mapIdx, List.getElem_map, List.getElem_range, word_get s j hj]
  · intro j m x hj hm h1 _
    have hx : m[j]'(by omega) = x := by
      rw [List.getElem?_eq_getElem (by omega)] at h1
      exact Option.some.inj h1
    unfold absorbStep
    rw [word_loop, ok_bind, idx_ok _ _ (by omega), ok_bind, upd_ok _ _ _ (by omega), hx, messageAt, Nat.mul_comm 4 j]

/-- a rate of at least 544 bits has a seventeenth word -/
theorem absorb_words_err (r : Nat) (hr : 544 ≤ r) (delim : Byte) (input : List Byte) (i : Nat) (s : List U32) (hs : s.length = 16) :
    forRange 0 (r / 32) s (absorbStep r delim input i) = .error (.panic .index) := by
  refine forRange_err_at (fun _ m => m.length = 16) (r / 32) 16 (by omega) s _ hs ?_ ?_
  · intro j m hj hm
    unfold absorbStep
    rw [word_loop, ok_bind, idx_ok _ _ (by omega), ok_bind, upd_ok _ _ _ (by omega)]
    exact ⟨_, rfl, by simpa using hm⟩
  · intro m hm
    unfold absorbStep
    rw [word_loop, ok_bind, idx_err _ _ (by omega)]
    rfl

theorem blockAt_eq (rounds : Nat) (hn : rounds ≤ 43) (r : Nat) (hr : r < 544) (delim : Byte) (input : List Byte) (i : Nat) (s : List U32)
    (hs : s.length = 16) : blockStep rounds r delim input i s = .ok (absorbAt rounds r delim input i s) := by
  unfold blockStep
  rw [absorb_words r hr delim input i s hs, ok_bind, permute_eq rounds hn _ (by simp)]
  rfl

theorem absorbAt_loop (rounds : Nat) (hn : rounds ≤ 43) (r : Nat) (hr : r < 544) (delim : Byte) (input : List Byte) (n : Nat) :
    forRange 0 n (List.replicate 16 (0 : U32)) (blockStep rounds r delim input) = .ok (absorbedAt rounds r delim input n) := by
  obtain ⟨m, e, h⟩ := forRange_inv (f := blockStep rounds r delim input) (fun i m => m = absorbedAt rounds r delim input i) 0 n
    (List.replicate 16 (0 : U32)) (by omega) rfl (by
    rintro i m _ hi rfl
    exact ⟨_, blockAt_eq rounds hn r hr delim input i _ (absorbedAt_length _ _ _ _ i), rfl⟩)
  rw [e, h]

/-- the four bytes of a word, written to the output -/
theorem outBytes_ok (x : U32) (base : Nat) (o : List Byte) (h : base + 4 ≤ o.length) :
    ∃ o', forRange 0 4 o (outByteStep x base) = .ok o' ∧ o'.length = o.length ∧
      ∀ p, o'[p]? = if base ≤ p ∧ p < base + 4 then some (BitVec.ofNat 8 (x.toNat / 256 ^ (p - base))) else o[p]? := by
  obtain ⟨m, e, h1, h2⟩ := forRange_inv (f := outByteStep x base)
    (fun k m => m.length = o.length ∧ ∀ p, m[p]? = if base ≤ p ∧ p < base + k then some (BitVec.ofNat 8 (x.toNat / 256 ^ (p - base))) else o[p]?)
    0 4 o (by omega) ⟨rfl, by intro p; rw [if_neg (by omega)]⟩ (by
      rintro k m _ hk ⟨hl, hall⟩
      unfold outByteStep
      rw [upd_ok _ _ _ (by omega)]
      refine ⟨_, rfl, by simpa using hl, ?_⟩
      intro p
      by_cases hp : base + k = p
      · rw [hp, List.getElem?_set_self (by omega), if_pos (by omega), out_byte, Nat.shiftRight_eq_div_pow, show p - base = k by omega,
          Nat.pow_mul]
      · rw [List.getElem?_set_ne hp, hall p]
        by_cases hq : base ≤ p ∧ p < base + k
        · rw [if_pos hq, if_pos (by omega)]
        · rw [if_neg hq, if_neg (by omega)])
  exact ⟨m, e, h1, h2⟩

theorem outBytes_err (x : U32) (base : Nat) (o : List Byte) (h : o.length < base + 4) :
    forRange 0 4 o (outByteStep x base) = .error (.panic .index) := by
  refine forRange_err_at (fun _ m => m.length = o.length) 4 (o.length - base) (by omega) o _ rfl ?_ ?_
  · intro k m hk hm
    unfold outByteStep
    rw [upd_ok _ _ _ (by omega)]
    exact ⟨_, rfl, by simpa using hm⟩
  · intro m hm
    unfold outByteStep
    rw [upd, if_neg (by omega)]

theorem outWord_ok (r : Nat) (s : List U32) (hs : s.length = 16) (i j : Nat) (hj : j < 16) (o : List Byte) (h : i * r / 8 + 4 * j + 4 ≤ o.length) :
    ∃ o', outWordStep r s i j o = .ok o' ∧ o'.length = o.length ∧
      ∀ p, o'[p]? = if i * r / 8 + 4 * j ≤ p ∧ p < i * r / 8 + 4 * (j + 1) then some (stateByte s (p - i * r / 8)) else o[p]? := by
  unfold outWordStep
  rw [idx_ok _ _ (by omega), ok_bind]
  obtain ⟨o', e, h1, h2⟩ := outBytes_ok (s[j]'(by omega)) (i * r / 8 + j * 4) o (by omega)
  refine ⟨o', e, h1, fun p => ?_⟩
  rw [h2 p]
  by_cases hp : i * r / 8 + 4 * j ≤ p ∧ p < i * r / 8 + 4 * (j + 1)
  · rw [if_pos hp, if_pos (by omega), stateByte, show (p - i * r / 8) / 4 = j by omega,
      show (p - i * r / 8) % 4 = p - (i * r / 8 + j * 4) by omega, word_get s j (by omega)]
  · rw [if_neg hp, if_neg (by omega)]

/-- one block of the output, if it fits -/
theorem squeezeBlock_ok (rounds : Nat) (hn : rounds ≤ 43) (r : Nat) (hr : r < 544) (s : List U32) (hs : s.length = 16) (i : Nat) (o : List Byte)
    (h : r / 32 = 0 ∨ i * r / 8 + 4 * (r / 32) ≤ o.length) :
    ∃ o', squeezeStep rounds r i (o, s) = .ok (o', permutation rounds s) ∧ o'.length = o.length ∧
      ∀ p, o'[p]? = if i * r / 8 ≤ p ∧ p < i * r / 8 + 4 * (r / 32) then some (stateByte s (p - i * r / 8)) else o[p]? := by
  unfold squeezeStep
  obtain ⟨m, e, h1, h2⟩ := forRange_inv (f := outWordStep r s i)
    (fun j m => m.length = o.length ∧ ∀ p, m[p]? = if i * r / 8 ≤ p ∧ p < i * r / 8 + 4 * j then some (stateByte s (p - i * r / 8)) else o[p]?)
    0 (r / 32) o (by omega) ⟨rfl, by intro p; rw [if_neg (by omega)]⟩ (by
      rintro j m _ hj ⟨hl, hall⟩
      obtain ⟨o', e, h1, h2⟩ := outWord_ok r s hs i j (by omega) m (by omega)
      refine ⟨o', e, by omega, fun p => ?_⟩
      rw [h2 p, hall p]
      by_cases hp : i * r / 8 + 4 * j ≤ p ∧ p < i * r / 8 + 4 * (j + 1)
      · rw [if_pos hp, if_pos (by omega)]
      · rw [if_neg hp]
        by_cases hq : i * r / 8 ≤ p ∧ p < i * r / 8 + 4 * j
        · rw [if_pos hq, if_pos (by omega)]
        · rw [if_neg hq, if_neg (by omega)])
  refine ⟨m, ?_, h1, h2⟩
  show (forRange 0 (r / 32) o (outWordStep r s i) >>= fun output => permute rounds s >>= fun state => pure (output, state)) = _
  rw [e, ok_bind, permute_eq rounds hn s hs]
  rfl

/-- a block that does not fit is an index out of range -/
theorem squeezeBlock_err (rounds r : Nat) (hr : r < 544) (s : List U32) (hs : s.length = 16) (i : Nat) (o : List Byte)
    (h0 : r / 32 ≠ 0) (h : o.length < i * r / 8 + 4 * (r / 32)) : squeezeStep rounds r i (o, s) = .error (.panic .index) := by
  unfold squeezeStep
  have : forRange 0 (r / 32) o (outWordStep r s i) = .error (.panic .index) := by
    refine forRange_err_at (fun _ m => m.length = o.length) (r / 32) ((o.length - i * r / 8) / 4) (by omega) o _ rfl ?_ ?_
    · intro j m hj hm
      obtain ⟨o', e, h1, _⟩ := outWord_ok r s hs i j (by omega) m (by omega)
      exact ⟨o', e, by omega⟩
    · intro m hm
      unfold outWordStep
      rw [idx_ok _ _ (by omega), ok_bind, outBytes_err _ _ _ (by omega)]
  show (forRange 0 (r / 32) o (outWordStep r s i) >>= fun output => permute rounds s >>= fun state => pure (output, state)) = _
  rw [this]
  rfl

/-- a block ends where the next one starts, or before -/
theorem block_end (r i : Nat) : i * r / 8 + 4 * (r / 32) ≤ (i + 1) * r / 8 := by
  have : (i + 1) * r = i * r + r := Nat.succ_mul i r
  omega

theorem start_mono (r i j : Nat) (h : i ≤ j) : i * r / 8 ≤ j * r / 8 := Nat.div_le_div_right (Nat.mul_le_mul_right r h)

/-- what the output holds after the first `n` blocks -/
structure Written (r cap : Nat) (st : Nat → List U32) (n : Nat) (o : List Byte) : Prop where
  length : o.length = cap
  inside : ∀ i < n, ∀ t < 4 * (r / 32), o[i * r / 8 + t]? = some (stateByte (st i) t)
  outside : ∀ p < cap, (∀ i < n, p < i * r / 8 ∨ i * r / 8 + 4 * (r / 32) ≤ p) → o[p]? = some 0

theorem written_step (rounds : Nat) (hn : rounds ≤ 43) (r : Nat) (hr : r < 544) (cap : Nat) (st : Nat → List U32) (hst : ∀ i, (st i).length = 16)
    (hnext : ∀ i, st (i + 1) = permutation rounds (st i)) (n : Nat) (o : List Byte) (hw : Written r cap st n o)
    (h : r / 32 = 0 ∨ n * r / 8 + 4 * (r / 32) ≤ cap) :
    ∃ o', squeezeStep rounds r n (o, st n) = .ok (o', st (n + 1)) ∧ Written r cap st (n + 1) o' := by
  obtain ⟨o', e, h1, h2⟩ := squeezeBlock_ok rounds hn r hr (st n) (hst n) n o (by rw [hw.length]; exact h)
  refine ⟨o', by rw [e, hnext], ⟨by rw [h1, hw.length], ?_, ?_⟩⟩
  · intro i hi t ht
    rw [h2]
    by_cases hin : i = n
    · subst hin
      rw [if_pos (by omega), show i * r / 8 + t - i * r / 8 = t by omega]
    · have := block_end r i
      have := start_mono r (i + 1) n (by omega)
      rw [if_neg (by omega), hw.inside i (by omega) t ht]
  · intro p hp hout
    rw [h2, if_neg (by have := hout n (by omega); omega)]
    exact hw.outside p hp (fun i hi => hout i (by omega))

theorem written_zero (r cap : Nat) (st : Nat → List U32) : Written r cap st 0 (List.replicate cap 0) :=
  ⟨by simp, by intros; omega, by intro p hp _; rw [List.getElem?_replicate, if_pos hp]⟩

/-- the whole output, if its last block fits -/
theorem squeezeAt_loop (rounds : Nat) (hn : rounds ≤ 43) (r : Nat) (hr : r < 544) (cap : Nat) (st : Nat → List U32)
    (hst : ∀ i, (st i).length = 16) (hnext : ∀ i, st (i + 1) = permutation rounds (st i)) (n : Nat)
    (h : n = 0 ∨ r / 32 = 0 ∨ (n - 1) * r / 8 + 4 * (r / 32) ≤ cap) :
    ∃ o, forRange 0 n (List.replicate cap (0 : Byte), st 0) (squeezeStep rounds r) = .ok (o, st n) ∧ Written r cap st n o := by
  obtain ⟨m, e, h1, h2⟩ := forRange_inv (f := squeezeStep rounds r) (fun i m => m.2 = st i ∧ Written r cap st i m.1) 0 n
    (List.replicate cap (0 : Byte), st 0) (by omega) ⟨rfl, written_zero r cap st⟩ (by
      rintro i ⟨o, s⟩ _ hi ⟨rfl, hw⟩
      have := start_mono r i (n - 1) (by omega)
      obtain ⟨o', e, hw'⟩ := written_step rounds hn r hr cap st hst hnext i o hw (by omega)
      exact ⟨_, e, rfl, hw'⟩)
  obtain ⟨o, s⟩ := m
  cases h1
  exact ⟨o, e, h2⟩

/-- otherwise some block does not fit -/
theorem squeezeAt_loop_err (rounds : Nat) (hn : rounds ≤ 43) (r : Nat) (hr : r < 544) (cap : Nat) (st : Nat → List U32)
    (hst : ∀ i, (st i).length = 16) (hnext : ∀ i, st (i + 1) = permutation rounds (st i)) (n : Nat) (hn0 : n ≠ 0) (h0 : r / 32 ≠ 0)
    (h : cap < (n - 1) * r / 8 + 4 * (r / 32)) :
    forRange 0 n (List.replicate cap (0 : Byte), st 0) (squeezeStep rounds r) = .error (.panic .index) := by
  have hex : ∃ t, t < n ∧ cap < t * r / 8 + 4 * (r / 32) ∧ ∀ i < t, i * r / 8 + 4 * (r / 32) ≤ cap := by
    have : ∀ m, m < n → cap < m * r / 8 + 4 * (r / 32) → ∃ t, t < n ∧ cap < t * r / 8 + 4 * (r / 32) ∧ ∀ i < t, i * r / 8 + 4 * (r / 32) ≤ cap := by
      intro m
      induction m with
      | zero => exact fun h1 h2 => ⟨0, h1, h2, by intros; omega⟩
      | succ m ih =>
        intro h1 h2
        by_cases h3 : cap < m * r / 8 + 4 * (r / 32)
        · exact ih (by omega) h3
        · refine ⟨m + 1, h1, h2, fun i hi => ?_⟩
          have := start_mono r i m (by omega)
          omega
    exact this (n - 1) (by omega) h
  obtain ⟨t, ht, hover, hfit⟩ := hex
  refine forRange_err_at (fun i m => m.2 = st i ∧ Written r cap st i m.1) n t ht _ _ ⟨rfl, written_zero r cap st⟩ ?_ ?_
  · rintro i ⟨o, s⟩ hi ⟨rfl, hw⟩
    obtain ⟨o', e, hw'⟩ := written_step rounds hn r hr cap st hst hnext i o hw (Or.inr (hfit i hi))
    exact ⟨_, e, rfl, hw'⟩
  · rintro ⟨o, s⟩ ⟨rfl, hw⟩
    exact squeezeBlock_err rounds r hr (st t) (hst t) t o h0 (by rw [hw.length]; exact hover)

end Verif.Eaglesong
