import Verif.Proof.EaglesongParams
import Verif.Props.Eaglesong

/-! # Eaglesong with parameters of one's own: property C76 -/

set_option autoImplicit false

namespace Verif.Props

open Go Eaglesong Spec.Eaglesong

/-- every block of `r / 32` words that is squeezed (`cap / (r / 8)` of them, block `i` at byte `i r / 8`) lies inside the output -/
def Fits (cap r : Nat) : Prop := cap / (r / 8) = 0 ∨ r < 32 ∨ (cap / (r / 8) - 1) * r / 8 + 4 * (r / 32) ≤ cap

/-- `out` is the output of `cap` bytes: the first `4 (r / 32)` bytes of each squeezed state at the start of its block, zero elsewhere -/
structure IsOutput (rounds r cap : Nat) (delim : Byte) (input out : List Byte) : Prop where
  length : out.length = cap
  inside : ∀ i < cap / (r / 8), ∀ t < 4 * (r / 32), out[i * r / 8 + t]? = some (stateByte (squeezedAt rounds r delim input i) t)
  outside : ∀ p < cap, (∀ i < cap / (r / 8), p < i * r / 8 ∨ i * r / 8 + 4 * (r / 32) ≤ p) → out[p]? = some 0

/-- the sum that bounds the absorbing loop is an `int` -/
def NoWrap (c : Client) (input : List Byte) : Prop := c.rate ≤ 2 ^ 63 - 8 * ((input.length : Int) + 1)

theorem blocks_cast (r : Nat) (input : List Byte) (hw : (r : Int) ≤ 2 ^ 63 - 8 * ((input.length : Int) + 1)) :
    ((wrap (((input.length : Int) + 1) * 8 + (r : Int) - 1)).tdiv r).toNat = blocksAt r input := by
  rw [wrap_eq (by omega) (by omega)]
  have h : ((input.length : Int) + 1) * 8 + (r : Int) - 1 = ((8 * (input.length + 1) + r - 1 : Nat) : Int) := by omega
  rw [h, ← Int.ofNat_tdiv, Int.toNat_natCast]
  rfl

theorem blocks_pos (r : Nat) (hr : 0 < r) (input : List Byte) : 0 < blocksAt r input := by
  unfold blocksAt
  exact Nat.div_pos (by omega) hr

/-- the squeezing of the code, for a positive rate -/
theorem quotient_cast (cap r : Nat) : (((cap : Int)).tdiv ((r : Int).tdiv 8)).toNat = cap / (r / 8) := by
  rw [show ((8 : Int)) = ((8 : Nat) : Int) from rfl, ← Int.ofNat_tdiv, ← Int.ofNat_tdiv, Int.toNat_natCast]

/-- a negative rate: no block is absorbed -/
theorem no_blocks (rate : Int) (h : rate < 0) (hr : -2 ^ 63 ≤ rate) (input : List Byte) (hl : input.length < 2 ^ 59) :
    ((wrap (((input.length : Int) + 1) * 8 + rate - 1)).tdiv rate).toNat = 0 := by
  rw [wrap_eq (by omega) (by omega)]
  obtain ⟨r, rfl⟩ : ∃ r : Nat, rate = -(r : Int) := ⟨(-rate).toNat, by omega⟩
  obtain ⟨x, hx⟩ : ∃ x : Int, x = ((input.length : Int) + 1) * 8 + -(r : Int) - 1 := ⟨_, rfl⟩
  rw [← hx, Int.tdiv_neg]
  by_cases h0 : 0 ≤ x
  · have := Int.tdiv_nonneg h0 (show (0 : Int) ≤ r by omega)
    omega
  · have h1 : x.tdiv r = -((-x).tdiv r) := by rw [← Int.neg_tdiv, Int.neg_neg]
    rw [h1, Int.tdiv_eq_zero_of_lt (by omega) (by omega)]
    rfl

/-- a rate for which the sum wraps around: no block is absorbed either -/
theorem wrapped_blocks (rate : Int) (hr : rate < 2 ^ 63) (input : List Byte) (hl : input.length < 2 ^ 59)
    (hw : ¬ rate ≤ 2 ^ 63 - 8 * ((input.length : Int) + 1)) : ((wrap (((input.length : Int) + 1) * 8 + rate - 1)).tdiv rate).toNat = 0 := by
  obtain ⟨x, hx⟩ : ∃ x : Int, x = wrap (((input.length : Int) + 1) * 8 + rate - 1) := ⟨_, rfl⟩
  rw [← hx]
  have h0 : x ≤ 0 := by rw [hx]; unfold wrap; omega
  have h1 : x.tdiv rate = -((-x).tdiv rate) := by rw [← Int.neg_tdiv, Int.neg_neg]
  have h2 := Int.tdiv_nonneg (show 0 ≤ -x by omega) (show (0 : Int) ≤ rate by omega)
  rw [h1]
  omega

/-- **C76** A rate of at least 544 bits, or more than 43 rounds with any positive rate: the call panics with an index out of range, before
anything else is looked at, unless the rate is so near to 2^63 that the sum wraps around. -/
theorem C76_index (c : Client) (h0 : 0 < c.rate) (h : 544 ≤ c.rate ∨ 43 < c.rounds) (input : List Byte) (hw : NoWrap c input) :
    c.compute input = .error (.panic .index) := by
  unfold Client.compute eaglesong
  simp only []
  rw [if_neg (by omega)]
  obtain ⟨r, hr⟩ : ∃ r : Nat, c.rate = (r : Int) := ⟨c.rate.toNat, by omega⟩
  unfold NoWrap at hw
  rw [hr] at hw
  rw [hr, blocks_cast r input hw, Int.toNat_natCast]
  have hb := blocks_pos r (by omega) input
  have : forRange 0 (blocksAt r input) (List.replicate 16 (0 : U32)) (blockStep c.rounds.toNat r c.delim input) = .error (.panic .index) := by
    refine forRange_err_at (fun _ m => m.length = 16) _ 0 hb _ _ (by simp) (by intros; omega) ?_
    intro m hm
    unfold blockStep
    by_cases hbig : 544 ≤ r
    · rw [absorb_words_err r hbig c.delim input 0 m hm]
      rfl
    · rw [absorb_words r (by omega) c.delim input 0 m hm, ok_bind, C56_too_many_rounds _ (by omega) _ (by simp)]
  rw [this]
  rfl

/-- the absorbing loop of all other clients -/
theorem absorbs (c : Client) (h0 : 0 < c.rate) (hr : c.rate < 544) (hn : c.rounds ≤ 43) (input : List Byte) (hl : input.length < 2 ^ 59) :
    forRange 0 ((wrap (((input.length : Int) + 1) * 8 + c.rate - 1)).tdiv c.rate).toNat (List.replicate 16 (0 : U32))
        (blockStep c.rounds.toNat c.rate.toNat c.delim input) =
      .ok (squeezedAt c.rounds.toNat c.rate.toNat c.delim input 0) := by
  obtain ⟨r, hr'⟩ : ∃ r : Nat, c.rate = (r : Int) := ⟨c.rate.toNat, by omega⟩
  rw [hr', blocks_cast r input (by omega), Int.toNat_natCast, absorbAt_loop _ (by omega) r (by omega)]
  rfl

theorem absorbs_none (c : Client) (h : c.rate < 0) (hr : -2 ^ 63 ≤ c.rate) (input : List Byte) (hl : input.length < 2 ^ 59) :
    forRange 0 ((wrap (((input.length : Int) + 1) * 8 + c.rate - 1)).tdiv c.rate).toNat (List.replicate 16 (0 : U32))
        (blockStep c.rounds.toNat c.rate.toNat c.delim input) = .ok (List.replicate 16 0) := by
  rw [no_blocks c.rate h hr input hl]
  rfl

/-- all loops of absorbing, in one -/
theorem absorbs_some (c : Client) (h0 : c.rate ≠ 0) (h1 : -2 ^ 63 ≤ c.rate) (h2 : c.rate < 2 ^ 63) (input : List Byte) (hl : input.length < 2 ^ 59)
    (h : c.rate < 0 ∨ c.rate < 544 ∧ c.rounds ≤ 43 ∨ ¬ NoWrap c input) :
    ∃ s, forRange 0 ((wrap (((input.length : Int) + 1) * 8 + c.rate - 1)).tdiv c.rate).toNat (List.replicate 16 (0 : U32))
        (blockStep c.rounds.toNat c.rate.toNat c.delim input) = .ok s := by
  by_cases hneg : c.rate < 0
  · exact ⟨_, absorbs_none c hneg h1 input hl⟩
  · by_cases hw : NoWrap c input
    · exact ⟨_, absorbs c (by omega) (by rcases h with h | h | h <;> first | omega | exact absurd hw h) (by rcases h with h | h | h <;> first | omega | exact absurd hw h) input hl⟩
    · rw [wrapped_blocks c.rate h2 input hl hw]
      exact ⟨_, rfl⟩

/-- **C76** Otherwise a negative capacity panics in `make`. -/
theorem C76_negative_capacity (c : Client) (h0 : c.rate ≠ 0) (h1 : -2 ^ 63 ≤ c.rate) (h2 : c.rate < 2 ^ 63) (input : List Byte)
    (hl : input.length < 2 ^ 59) (h : c.rate < 0 ∨ c.rate < 544 ∧ c.rounds ≤ 43 ∨ ¬ NoWrap c input) (hc : c.capacity < 0) :
    c.compute input = .error (.panic .explicit) := by
  obtain ⟨s, hs⟩ := absorbs_some c h0 h1 h2 input hl h
  unfold Client.compute eaglesong
  simp only []
  rw [if_neg h0, hs, ok_bind, if_pos hc]
  rfl

/-- **C76** Otherwise a rate strictly between -8 and 8 divides by zero. -/
theorem C76_small_rate (c : Client) (h0 : c.rate ≠ 0) (h1 : -8 < c.rate) (h2 : c.rate < 8) (h : c.rate < 0 ∨ c.rounds ≤ 43) (hc : 0 ≤ c.capacity)
    (input : List Byte) (hl : input.length < 2 ^ 59) : c.compute input = .error (.panic .divZero) := by
  obtain ⟨s, hs⟩ := absorbs_some c h0 (by omega) (by omega) input hl (by omega)
  unfold Client.compute eaglesong
  simp only []
  have hz : c.rate.tdiv 8 = 0 := by
    by_cases hneg : c.rate < 0
    · have := Int.tdiv_eq_zero_of_lt (a := -c.rate) (b := 8) (by omega) (by omega)
      rw [Int.neg_tdiv] at this
      omega
    · exact Int.tdiv_eq_zero_of_lt (by omega) h2
  rw [if_neg h0, hs, ok_bind, if_neg (by omega), if_pos hz]
  rfl

/-- **C76** A rate of -8 or less is not refused: whatever the input, the result is `capacity` zero bytes. -/
theorem C76_negative_rate (c : Client) (h : c.rate ≤ -8) (hr : -2 ^ 63 ≤ c.rate) (hc : 0 ≤ c.capacity) (input : List Byte)
    (hl : input.length < 2 ^ 59) :
    c.compute input = .ok (List.replicate c.capacity.toNat 0) := by
  unfold Client.compute eaglesong
  simp only []
  obtain ⟨r, hr'⟩ : ∃ r : Nat, c.rate = -(r : Int) := ⟨(-c.rate).toNat, by omega⟩
  have hd : c.rate.tdiv 8 = -((r / 8 : Nat) : Int) := by
    rw [hr', Int.neg_tdiv, show ((8 : Int)) = ((8 : Nat) : Int) from rfl, ← Int.ofNat_tdiv]
  have hq : (c.capacity.tdiv (c.rate.tdiv 8)).toNat = 0 := by
    rw [hd, Int.tdiv_neg]
    have := Int.tdiv_nonneg hc (show (0 : Int) ≤ ((r / 8 : Nat) : Int) by omega)
    omega
  rw [if_neg (by omega), absorbs_none c (by omega) hr input hl, ok_bind, if_neg (by omega), if_neg (by rw [hd]; omega), hq]
  rfl

/-- **C76** A rate so near to 2^63 that the sum wraps around is not refused either: `capacity` zero bytes. -/
theorem C76_wrapped (c : Client) (hr : c.rate < 2 ^ 63) (input : List Byte) (hl : input.length < 2 ^ 59) (hw : ¬ NoWrap c input) (hc : 0 ≤ c.capacity)
    (hc' : c.capacity < 2 ^ 59) : c.compute input = .ok (List.replicate c.capacity.toNat 0) := by
  have hw' := hw
  unfold NoWrap at hw'
  unfold Client.compute eaglesong
  simp only []
  obtain ⟨r, hr'⟩ : ∃ r : Nat, c.rate = (r : Int) := ⟨c.rate.toNat, by omega⟩
  have hd : c.rate.tdiv 8 = ((r / 8 : Nat) : Int) := by
    rw [hr', show ((8 : Int)) = ((8 : Nat) : Int) from rfl, ← Int.ofNat_tdiv]
  have hq : (c.capacity.tdiv (c.rate.tdiv 8)).toNat = 0 := by
    rw [hd, Int.tdiv_eq_zero_of_lt hc (by omega)]
    rfl
  rw [if_neg (by omega), wrapped_blocks c.rate hr input hl hw, show forRange 0 0 (List.replicate 16 (0 : U32)) (blockStep c.rounds.toNat c.rate.toNat c.delim input) =
    .ok (List.replicate 16 0) from rfl, ok_bind, if_neg (by omega), if_neg (by rw [hd]; omega), hq]
  rfl

/-- **C76** For a rate from 8 to 543, at most 43 rounds and a capacity that is not negative: an index out of range if a block does not fit
into the output, ... -/
theorem C76_overflow (c : Client) (h8 : 8 ≤ c.rate) (hr : c.rate < 544) (hn : c.rounds ≤ 43) (hc : 0 ≤ c.capacity)
    (hf : ¬ Fits c.capacity.toNat c.rate.toNat) (input : List Byte) (hl : input.length < 2 ^ 59) : c.compute input = .error (.panic .index) := by
  unfold Client.compute eaglesong
  simp only []
  rw [if_neg (by omega), absorbs c (by omega) hr hn input hl, ok_bind, if_neg (by omega)]
  obtain ⟨r, hr'⟩ : ∃ r : Nat, c.rate = (r : Int) := ⟨c.rate.toNat, by omega⟩
  obtain ⟨cap, hc'⟩ : ∃ cap : Nat, c.capacity = (cap : Int) := ⟨c.capacity.toNat, by omega⟩
  rw [hr', hc', Int.toNat_natCast, Int.toNat_natCast] at hf
  unfold Fits at hf
  have h8' : ¬ (r : Int).tdiv 8 = 0 := by
    rw [show ((8 : Int)) = ((8 : Nat) : Int) from rfl, ← Int.ofNat_tdiv]
    omega
  rw [hr', hc', if_neg h8', quotient_cast, Int.toNat_natCast, Int.toNat_natCast,
    squeezeAt_loop_err c.rounds.toNat (by omega) r (by omega) cap (squeezedAt c.rounds.toNat r c.delim input) (squeezedAt_length _ _ _ _)
      (fun _ => rfl) (cap / (r / 8)) (by omega) (by omega) (by omega)]
  rfl

/-- **C76** ... and the squeezed blocks otherwise. -/
theorem C76_value (c : Client) (h8 : 8 ≤ c.rate) (hr : c.rate < 544) (hn : c.rounds ≤ 43) (hc : 0 ≤ c.capacity)
    (hf : Fits c.capacity.toNat c.rate.toNat) (input : List Byte) (hl : input.length < 2 ^ 59) :
    ∃ out, c.compute input = .ok out ∧ IsOutput c.rounds.toNat c.rate.toNat c.capacity.toNat c.delim input out := by
  unfold Client.compute eaglesong
  simp only []
  rw [if_neg (by omega), absorbs c (by omega) hr hn input hl, ok_bind, if_neg (by omega)]
  obtain ⟨r, hr'⟩ : ∃ r : Nat, c.rate = (r : Int) := ⟨c.rate.toNat, by omega⟩
  obtain ⟨cap, hc'⟩ : ∃ cap : Nat, c.capacity = (cap : Int) := ⟨c.capacity.toNat, by omega⟩
  rw [hr', hc', Int.toNat_natCast, Int.toNat_natCast] at hf
  unfold Fits at hf
  have h8' : ¬ (r : Int).tdiv 8 = 0 := by
    rw [show ((8 : Int)) = ((8 : Nat) : Int) from rfl, ← Int.ofNat_tdiv]
    omega
  obtain ⟨o, e, hw⟩ := squeezeAt_loop c.rounds.toNat (by omega) r (by omega) cap (squeezedAt c.rounds.toNat r c.delim input) (squeezedAt_length _ _ _ _)
    (fun _ => rfl) (cap / (r / 8)) (by omega)
  rw [hr', hc', if_neg h8', quotient_cast, Int.toNat_natCast, Int.toNat_natCast, e]
  exact ⟨o, rfl, hw.length, hw.inside, hw.outside⟩

/-- **C76** Exactly when `Compute` returns: all other parameters panic on every input. -/
theorem C76_returns_iff (c : Client) (hr : -2 ^ 63 ≤ c.rate) (hr' : c.rate < 2 ^ 63) (hc' : c.capacity < 2 ^ 59) (input : List Byte)
    (hl : input.length < 2 ^ 59) : (∃ out, c.compute input = .ok out) ↔
      0 ≤ c.capacity ∧ (c.rate ≤ -8 ∨ 8 ≤ c.rate ∧ c.rate < 544 ∧ c.rounds ≤ 43 ∧ Fits c.capacity.toNat c.rate.toNat ∨ ¬ NoWrap c input) := by
  constructor
  · rintro ⟨out, h⟩
    by_contra hcon
    by_cases h0 : c.rate = 0
    · rw [C57_zero_rate c h0] at h
      cases h
    · by_cases hw : NoWrap c input
      · by_cases h1 : 0 < c.rate ∧ (544 ≤ c.rate ∨ 43 < c.rounds)
        · rw [C76_index c h1.1 h1.2 input hw] at h
          cases h
        · by_cases h2 : c.capacity < 0
          · rw [C76_negative_capacity c h0 hr hr' input hl (by omega) h2] at h
            cases h
          · by_cases h3 : -8 < c.rate ∧ c.rate < 8
            · rw [C76_small_rate c h0 h3.1 h3.2 (by omega) (by omega) input hl] at h
              cases h
            · by_cases h4 : c.rate ≤ -8
              · exact hcon ⟨by omega, .inl h4⟩
              · by_cases h5 : Fits c.capacity.toNat c.rate.toNat
                · exact hcon ⟨by omega, .inr (.inl ⟨by omega, by omega, by omega, h5⟩)⟩
                · rw [C76_overflow c (by omega) (by omega) (by omega) (by omega) h5 input hl] at h
                  cases h
      · by_cases h2 : c.capacity < 0
        · rw [C76_negative_capacity c h0 hr hr' input hl (.inr (.inr hw)) h2] at h
          cases h
        · exact hcon ⟨by omega, .inr (.inr hw)⟩
  · rintro ⟨hc, h | ⟨h1, h2, h3, h4⟩ | h⟩
    · exact ⟨_, C76_negative_rate c h hr hc input hl⟩
    · obtain ⟨out, e, _⟩ := C76_value c h1 h2 h3 hc h4 input hl
      exact ⟨out, e⟩
    · exact ⟨_, C76_wrapped c hr' input hl h hc hc'⟩

/-- **C76** Whether it returns does not depend on the input, except for rates near to 2^63. -/
theorem C76_total (c : Client) (hr : -2 ^ 63 ≤ c.rate) (hr' : c.rate ≤ 2 ^ 62) (hc' : c.capacity < 2 ^ 59) (a b : List Byte) (ha : a.length < 2 ^ 59)
    (hb : b.length < 2 ^ 59) (h : ∃ out, c.compute a = .ok out) : ∃ out, c.compute b = .ok out := by
  obtain ⟨h1, h2⟩ := (C76_returns_iff c hr (by omega) hc' a ha).mp h
  refine (C76_returns_iff c hr (by omega) hc' b hb).mpr ⟨h1, ?_⟩
  rcases h2 with h2 | h2 | h2
  · exact .inl h2
  · exact .inr (.inl h2)
  · unfold NoWrap at h2
    omega

/-- **C76** There it does: with the rate `2^63 - 8 (n + 1)`, inputs of up to `n` bytes panic, and longer ones give zero bytes. -/
theorem C76_depends (c : Client) (n : Nat) (hn : n < 2 ^ 58) (hr : c.rate = 2 ^ 63 - 8 * ((n : Int) + 1)) (hc : 0 ≤ c.capacity) (hc' : c.capacity < 2 ^ 59)
    (input : List Byte) (hl : input.length < 2 ^ 59) :
    c.compute input = if input.length ≤ n then .error (.panic .index) else .ok (List.replicate c.capacity.toNat 0) := by
  by_cases h : input.length ≤ n
  · rw [if_pos h]
    exact C76_index c (by omega) (.inl (by omega)) input (by unfold NoWrap; omega)
  · rw [if_neg h]
    exact C76_wrapped c (by omega) input hl (by unfold NoWrap; omega) hc hc'

/-- **C76** An output is determined by its description. -/
theorem C76_unique (rounds r cap : Nat) (delim : Byte) (input x y : List Byte) (hx : IsOutput rounds r cap delim input x)
    (hy : IsOutput rounds r cap delim input y) : x = y := by
  apply List.ext_getElem? 
  intro p
  by_cases hp : p < cap
  · by_cases h : ∀ i < cap / (r / 8), p < i * r / 8 ∨ i * r / 8 + 4 * (r / 32) ≤ p
    · rw [hx.outside p hp h, hy.outside p hp h]
    · simp only [not_forall] at h
      obtain ⟨i, hi, h⟩ := h
      have hx' := hx.inside i hi (p - i * r / 8) (by omega)
      have hy' := hy.inside i hi (p - i * r / 8) (by omega)
      rw [show i * r / 8 + (p - i * r / 8) = p by omega] at hx' hy'
      rw [hx', hy']
  · rw [List.getElem?_eq_none (by rw [hx.length]; omega), List.getElem?_eq_none (by rw [hy.length]; omega)]

/-- **C76** If the rate is a whole number of words everything fits: the output is the sequence of the squeezed blocks, and the bytes after the
last complete block are zero. -/
theorem C76_words (c : Client) (w : Nat) (hw : 1 ≤ w) (hw' : w ≤ 16) (hr : c.rate = 32 * w) (hn : c.rounds ≤ 43) (cap : Nat) (hc : c.capacity = cap)
    (input : List Byte) (hl : input.length < 2 ^ 59) : ∃ out, c.compute input = .ok out ∧ out.length = cap ∧ ∀ p < cap, out[p]? = some
      (if p < cap / (4 * w) * (4 * w) then stateByte (squeezedAt c.rounds.toNat (32 * w) c.delim input (p / (4 * w))) (p % (4 * w)) else 0) := by
  have hrN : c.rate.toNat = 32 * w := by omega
  have hcN : c.capacity.toNat = cap := by omega
  have hd8 : 32 * w / 8 = 4 * w := by omega
  have hd32 : 32 * w / 32 = w := by omega
  have hstart : ∀ i, i * (32 * w) / 8 = i * (4 * w) := by
    intro i
    rw [show i * (32 * w) = i * (4 * w) * 8 by ring]
    exact Nat.mul_div_cancel _ (by omega)
  have hf : Fits c.capacity.toNat c.rate.toNat := by
    unfold Fits
    rw [hrN, hcN, hd8, hstart, hd32]
    by_cases h0 : cap / (4 * w) = 0
    · exact .inl h0
    · refine .inr (.inr ?_)
      have h1 := Nat.div_mul_le_self cap (4 * w)
      obtain ⟨q, hq⟩ : ∃ q, cap / (4 * w) = q + 1 := Nat.exists_eq_succ_of_ne_zero h0
      rw [hq, Nat.succ_mul] at h1
      rw [hq, Nat.add_sub_cancel]
      exact h1
  obtain ⟨out, e, ho⟩ := C76_value c (by omega) (by omega) hn (by omega) hf input hl
  rw [hrN, hcN] at ho
  have hin := ho.inside
  have hout := ho.outside
  rw [hd8, hd32] at hin hout
  refine ⟨out, e, ho.length, fun p hp => ?_⟩
  have hdm := Nat.div_add_mod p (4 * w)
  rw [Nat.mul_comm] at hdm
  have hml := Nat.mod_lt p (show 4 * w > 0 by omega)
  by_cases h : p < cap / (4 * w) * (4 * w)
  · rw [if_pos h]
    have hlt : p / (4 * w) < cap / (4 * w) := (Nat.div_lt_iff_lt_mul (by omega)).mpr h
    have := hin (p / (4 * w)) hlt (p % (4 * w)) hml
    rw [hstart, hdm] at this
    exact this
  · rw [if_neg h]
    refine hout p hp (fun i hi => .inr ?_)
    rw [hstart]
    have : (i + 1) * (4 * w) ≤ cap / (4 * w) * (4 * w) := Nat.mul_le_mul_right _ hi
    rw [Nat.succ_mul] at this
    omega

/-- **C76** A capacity smaller than one block, or a rate without a whole word, gives zero bytes whatever the input. -/
theorem C76_constant (c : Client) (h8 : 8 ≤ c.rate) (hr : c.rate < 544) (hn : c.rounds ≤ 43) (hc : 0 ≤ c.capacity)
    (h : c.rate < 32 ∨ 8 * (c.capacity + 1) ≤ c.rate) (input : List Byte)
    (hl : input.length < 2 ^ 59) : c.compute input = .ok (List.replicate c.capacity.toNat 0) := by
  have hq : c.rate < 32 ∨ c.capacity.toNat / (c.rate.toNat / 8) = 0 := by
    rcases h with h | h
    · exact .inl h
    · exact .inr (Nat.div_eq_of_lt (by omega))
  have hf : Fits c.capacity.toNat c.rate.toNat := by
    unfold Fits
    rcases hq with h | h
    · exact .inr (.inl (by omega))
    · exact .inl h
  obtain ⟨out, e, ho⟩ := C76_value c h8 hr hn hc hf input hl
  rw [e]
  refine congrArg Except.ok ?_
  apply List.ext_getElem?
  intro p
  by_cases hp : p < c.capacity.toNat
  · rw [List.getElem?_replicate, if_pos hp]
    refine ho.outside p hp (fun i hi => ?_)
    rcases hq with h | h
    · have : c.rate.toNat / 32 = 0 := by omega
      omega
    · omega
  · rw [List.getElem?_replicate, if_neg hp, List.getElem?_eq_none (by rw [ho.length]; omega)]

/-! ## the hypotheses are met -/

/-- the Nervos parameters fit; a rate that is not a number of bytes may not -/
example : Fits 32 256 ∧ Fits 33 256 ∧ ¬ Fits 32 36 ∧ Fits 64 40 := by unfold Fits; decide

/-- one byte less than the Nervos capacity: 31 zero bytes for every input -/
example (input : List Byte) (hl : input.length < 2 ^ 59) : (new 43 31 256 32 6).compute input = .ok (List.replicate 31 0) :=
  C76_constant _ (by decide) (by decide) (by decide) (by decide) (.inr (by decide)) input hl

example (input : List Byte) (hl : input.length < 2 ^ 59) : (new 44 32 256 32 6).compute input = .error (.panic .index) :=
  C76_index _ (by decide) (.inr (by decide)) input (by unfold NoWrap; show (256 : Int) ≤ _; omega)

example (input : List Byte) (hl : input.length < 2 ^ 59) : (new 43 32 36 32 6).compute input = .error (.panic .index) :=
  C76_overflow _ (by decide) (by decide) (by decide) (by decide) (by unfold Fits; decide) input hl

example (input : List Byte) (hl : input.length < 2 ^ 59) : (new 1000 32 (-256) 32 6).compute input = .ok (List.replicate 32 0) :=
  C76_negative_rate _ (by decide) (by decide) (by decide) input hl

/-- the empty input panics, all others give 32 zero bytes -/
example : (new 43 32 (2 ^ 63 - 8) 32 6).compute [] = .error (.panic .index) ∧ (new 43 32 (2 ^ 63 - 8) 32 6).compute [1] = .ok (List.replicate 32 0) :=
  ⟨C76_depends _ 0 (by decide) (by decide) (by decide) (by decide) [] (by decide), C76_depends _ 0 (by decide) (by decide) (by decide) (by decide) [1] (by decide)⟩

end Verif.Props
