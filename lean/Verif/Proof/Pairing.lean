import Verif.Go.Prelude
import Verif.Model.Pairing

set_option autoImplicit false

namespace Verif.Pairing

open Go

variable {N E : Type}

/-- `pair` on the two operands either succeeds, exactly when `cond`, with the given result, or returns an error satisfying `bad` -/
def PairOk (pair : N → N → Go (Except E N)) (a b c : N) (cond : Prop) (bad : E → Prop) : Prop :=
  (cond → pair a b = .ok (.ok c)) ∧ (¬ cond → ∃ e, bad e ∧ pair a b = .ok (.error e))

theorem pairLoop_spec (pair : N → N → Go (Except E N)) (val valn : Nat → N) (cond : Nat → Prop) (bad : Nat → E → Prop) (m : Nat)
    (h : ∀ w < m, PairOk pair (val (2 * w)) (val (2 * w + 1)) (valn w) (cond w) (bad w)) :
    ((∀ w < m, cond w) ∧ pairLoop pair ((List.range (2 * m)).map val) = .ok (.cont ((List.range m).map valn))) ∨
    (∃ w e, w < m ∧ ¬ cond w ∧ bad w e ∧ (∀ w' < w, cond w') ∧ pairLoop pair ((List.range (2 * m)).map val) = .ok (.ret e)) := by
  have hidx : ∀ i, i < 2 * m → idx ((List.range (2 * m)).map val) i = .ok (val i) := by
    intro i hi
    rw [idx_ok _ _ (by simpa using hi)]; simp
  have := forRangeE_inv (f := pairStep pair ((List.range (2 * m)).map val))
    (fun t cur => (∀ w < t, cond w) ∧ cur = (List.range t).map valn) (fun e => ∃ w < m, ¬ cond w ∧ bad w e ∧ ∀ w' < w, cond w') 0 m []
    (by omega) ⟨by intros; omega, rfl⟩ (by
      rintro t cur _ ht ⟨hc, rfl⟩
      obtain ⟨h1, h2⟩ := h t ht
      simp only [pairStep]
      rw [hidx _ (by omega), ok_bind, hidx _ (by omega), ok_bind]
      by_cases hct : cond t
      · left
        rw [h1 hct]
        refine ⟨_, rfl, ?_, ?_⟩
        · intro w hw
          rcases Nat.lt_or_ge w t with hl | hl
          · exact hc w hl
          · rwa [show w = t by omega]
        · rw [List.range_succ]; simp
      · right
        obtain ⟨e, hb, he⟩ := h2 hct
        rw [he]
        exact ⟨e, rfl, t, ht, hct, hb, hc⟩)
  have hlen : (((List.range (2 * m)).map val).length + 1) / 2 = m := by simp; omega
  unfold pairLoop
  rw [hlen]
  rcases this with ⟨s', e, hc, rfl⟩ | ⟨b, e, hq⟩
  · exact Or.inl ⟨hc, e⟩
  · obtain ⟨w, h1, h2, h3, h4⟩ := hq
    exact Or.inr ⟨w, b, h1, h2, h3, h4, e⟩

/-- all rounds: `val r w` is row `w` at the beginning of round `r` (counted from 0), provided nothing failed; the error is that of the
first failing pair -/
theorem rounds_spec (pair : Nat → N → N → Go (Except E N)) (start : Nat) (val : Nat → Nat → N) (cond : Nat → Nat → Prop)
    (bad : Nat → Nat → E → Prop) (k : Nat)
    (h : ∀ r < k, ∀ w < 2 ^ (k - (r + 1)),
      PairOk (pair (start + r)) (val r (2 * w)) (val r (2 * w + 1)) (val (r + 1) w) (cond r w) (bad r w)) :
    ∀ (d r fuel : Nat), r + d = k → d + 1 ≤ fuel →
    ((∀ r', r ≤ r' → r' < k → ∀ w < 2 ^ (k - (r' + 1)), cond r' w) ∧
      rounds pair fuel (start + r) ((List.range (2 ^ d)).map (val r)) = .ok (.ok [val k 0])) ∨
    (∃ r' w e, r ≤ r' ∧ r' < k ∧ w < 2 ^ (k - (r' + 1)) ∧ ¬ cond r' w ∧ bad r' w e ∧
      (∀ r'', r ≤ r'' → r'' < r' → ∀ w' < 2 ^ (k - (r'' + 1)), cond r'' w') ∧ (∀ w' < w, cond r' w') ∧
      rounds pair fuel (start + r) ((List.range (2 ^ d)).map (val r)) = .ok (.error e)) := by
  intro d
  induction d with
  | zero =>
    intro r fuel hr hf
    obtain ⟨f, rfl⟩ : ∃ f, fuel = f + 1 := ⟨fuel - 1, by omega⟩
    left
    refine ⟨by intros; omega, ?_⟩
    have : r = k := by omega
    subst this
    simp [rounds, forever, roundStep]
  | succ d ih =>
    intro r fuel hr hf
    obtain ⟨f, rfl⟩ : ∃ f, fuel = f + 1 := ⟨fuel - 1, by omega⟩
    have hlen : 1 < ((List.range (2 ^ (d + 1))).map (val r)).length := by
      have := Nat.two_pow_pos d
      simp [Nat.pow_succ]; omega
    have hkr : k - (r + 1) = d := by omega
    have hp := pairLoop_spec (pair (start + r)) (val r) (val (r + 1)) (cond r) (bad r) (2 ^ d) (by
      intro w hw; exact h r (by omega) w (by rw [hkr]; exact hw))
    rw [show 2 * 2 ^ d = 2 ^ (d + 1) by rw [Nat.pow_succ]; omega] at hp
    rcases hp with ⟨hc, e⟩ | ⟨w, er, hw, hnc, hbad, hfirst, e⟩
    · have hst : roundStep pair (start + r, (List.range (2 ^ (d + 1))).map (val r)) =
          .ok (.cont (start + r + 1, (List.range (2 ^ d)).map (val (r + 1)))) := by
        simp only [roundStep]
        rw [if_pos hlen, e]; rfl
      rw [rounds, forever_cont f hst]
      have := ih (r + 1) f (by omega) (by omega)
      rw [show start + (r + 1) = start + r + 1 by omega] at this
      rcases this with ⟨hc', e'⟩ | ⟨r', w, er, h1, h2, h3, h4, h5, h6, h7, e'⟩
      · refine Or.inl ⟨?_, e'⟩
        intro r' h1 h2 w hw
        rcases Nat.lt_or_ge r r' with hl | hl
        · exact hc' r' hl h2 w hw
        · obtain rfl : r' = r := by omega
          exact hc w (by rwa [hkr] at hw)
      · refine Or.inr ⟨r', w, er, by omega, h2, h3, h4, h5, ?_, h7, e'⟩
        intro r'' k1 k2 w' hw'
        rcases Nat.lt_or_ge r r'' with hl | hl
        · exact h6 r'' hl k2 w' hw'
        · obtain rfl : r'' = r := by omega
          exact hc w' (by rwa [hkr] at hw')
    · have hst : roundStep pair (start + r, (List.range (2 ^ (d + 1))).map (val r)) = .ok (.ret (.error er)) := by
        simp only [roundStep]
        rw [if_pos hlen, e]; rfl
      rw [rounds, forever_ret f hst]
      exact Or.inr ⟨r, w, er, Nat.le_refl _, by omega, by rwa [hkr], hnc, hbad, by intros; omega, hfirst, rfl⟩

end Verif.Pairing
