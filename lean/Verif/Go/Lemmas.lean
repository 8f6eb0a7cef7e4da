import Verif.Go.Basic

/-! # Reasoning rules for the Go fragment -/

set_option autoImplicit false

namespace Verif.Go

variable {α β σ : Type}

@[simp] theorem ok_bind {α β : Type} (a : α) (f : α → Go β) : (Except.ok a >>= f : Go β) = f a := rfl
@[simp] theorem pure_eq_ok {α : Type} (a : α) : (pure a : Go α) = Except.ok a := rfl
@[simp] theorem error_bind {α β : Type} (e : Stop) (f : α → Go β) : (Except.error e >>= f : Go β) = Except.error e := rfl

theorem idx_ok (l : List α) (i : Nat) (h : i < l.length) : idx l i = .ok l[i] := by
  simp [idx, List.getElem?_eq_getElem h]

theorem idx_err (l : List α) (i : Nat) (h : l.length ≤ i) : idx l i = .error (.panic .index) := by
  simp [idx, List.getElem?_eq_none h]

theorem upd_ok (l : List α) (i : Nat) (a : α) (h : i < l.length) : upd l i a = .ok (l.set i a) := by
  simp [upd, h]

theorem slc_ok (l : List α) (lo hi : Nat) (h1 : lo ≤ hi) (h2 : hi ≤ l.length) :
    slc l lo hi = .ok ((l.take hi).drop lo) := by simp [slc, h1, h2]

theorem copyAt_ok (dst : List α) (off : Nat) (src : List α) (h : off + src.length ≤ dst.length) :
    copyAt dst off src = .ok (dst.take off ++ src ++ dst.drop (off + src.length)) := by
  have : off ≤ dst.length := by omega
  simp only [copyAt, this, if_true]
  rw [List.take_of_length_le (l := src) (by omega)]

/-- Invariant rule for counting loops. -/
theorem loop_inv {f : Nat → σ → Go σ} (I : Nat → σ → Prop) :
    ∀ (n i : Nat) (s : σ), I i s →
      (∀ j s, i ≤ j → j < i + n → I j s → ∃ s', f j s = .ok s' ∧ I (j + 1) s') →
      ∃ s', loop n i s f = .ok s' ∧ I (i + n) s'
  | 0, i, s, h, _ => ⟨s, rfl, h⟩
  | n + 1, i, s, h, hstep => by
    obtain ⟨s1, e1, h1⟩ := hstep i s (Nat.le_refl _) (by omega) h
    obtain ⟨s2, e2, h2⟩ := loop_inv I n (i + 1) s1 h1 (fun j s a b c => hstep j s (by omega) (by omega) c)
    refine ⟨s2, ?_, ?_⟩
    · simp [loop, e1, e2]
    · rw [show i + (n + 1) = i + 1 + n by omega]; exact h2

theorem forRange_inv {f : Nat → σ → Go σ} (I : Nat → σ → Prop) (lo hi : Nat) (s : σ) (hle : lo ≤ hi) (h0 : I lo s)
    (hstep : ∀ j s, lo ≤ j → j < hi → I j s → ∃ s', f j s = .ok s' ∧ I (j + 1) s') :
    ∃ s', forRange lo hi s f = .ok s' ∧ I hi s' := by
  obtain ⟨s', e, h⟩ := loop_inv I (hi - lo) lo s h0 (fun j s a b c => hstep j s a (by omega) c)
  refine ⟨s', e, ?_⟩
  rwa [show lo + (hi - lo) = hi by omega] at h

theorem loop_congr {f g : Nat → σ → Go σ} (n i : Nat) (s : σ) (h : ∀ j s, i ≤ j → j < i + n → f j s = g j s) :
    loop n i s f = loop n i s g := by
  induction n generalizing i s with
  | zero => rfl
  | succ n ih =>
    simp only [loop]
    rw [h i s (Nat.le_refl _) (by omega)]
    cases g i s with
    | error e => rfl
    | ok s' =>
      simp only [ok_bind]
      exact ih _ _ (fun j s a b => h j s (by omega) (by omega))

theorem loop_pure {f : Nat → σ → Go σ} {g : Nat → σ → σ} (n i : Nat) (s : σ)
    (h : ∀ j s, i ≤ j → j < i + n → f j s = .ok (g j s)) :
    loop n i s f = .ok ((List.range' i n).foldl (fun s j => g j s) s) := by
  induction n generalizing i s with
  | zero => rfl
  | succ n ih =>
    simp only [loop]
    rw [h i s (Nat.le_refl _) (by omega)]
    simp only [ok_bind, List.range'_succ, List.foldl_cons]
    exact ih _ _ (fun j s a b => h j s (by omega) (by omega))

theorem loop_add {f : Nat → σ → Go σ} (m n i : Nat) (s : σ) :
    loop (m + n) i s f = loop m i s f >>= fun s' => loop n (i + m) s' f := by
  induction m generalizing i s with
  | zero => simp [loop]
  | succ m ih =>
    rw [show m + 1 + n = (m + n) + 1 by omega]
    simp only [loop]
    cases f i s with
    | error e => rfl
    | ok s' =>
      simp only [ok_bind]
      rw [ih, show i + 1 + m = i + (m + 1) by omega]

theorem loop_succ_last {f : Nat → σ → Go σ} (n i : Nat) (s : σ) :
    loop (n + 1) i s f = loop n i s f >>= fun s' => f (i + n) s' := by
  rw [loop_add n 1 i s]
  cases loop n i s f with
  | error e => rfl
  | ok s' =>
    simp only [ok_bind, loop]
    cases f (i + n) s' <;> rfl

theorem forever_mono {f : σ → Go (Step σ β)} {n : Nat} {s : σ} {r : Go β} (h : forever n s f = r) (hr : r ≠ .error .fuel)
    {m : Nat} (hm : n ≤ m) : forever m s f = r := by
  induction n generalizing m s with
  | zero => simp [forever] at h; exact absurd h.symm hr
  | succ n ih =>
    obtain ⟨m, rfl⟩ : ∃ k, m = k + 1 := ⟨m - 1, by omega⟩
    simp only [forever] at h ⊢
    cases hf : f s with
    | error e => simp [hf] at h ⊢; exact h
    | ok st =>
      rw [hf] at h
      cases st with
      | cont s' => simp at h ⊢; exact ih h (by omega)
      | ret b => simpa using h

end Verif.Go

namespace Verif.Go

variable {α β σ : Type}

/-- Invariant rule for counting loops whose body may return early. -/
theorem loopE_inv {f : Nat → σ → Go (Step σ β)} (I : Nat → σ → Prop) (Q : β → Prop) :
    ∀ (n i : Nat) (s : σ), I i s →
      (∀ j s, i ≤ j → j < i + n → I j s →
        (∃ s', f j s = .ok (.cont s') ∧ I (j + 1) s') ∨ (∃ b, f j s = .ok (.ret b) ∧ Q b)) →
      (∃ s', loopE n i s f = .ok (.cont s') ∧ I (i + n) s') ∨ (∃ b, loopE n i s f = .ok (.ret b) ∧ Q b)
  | 0, i, s, h, _ => Or.inl ⟨s, rfl, h⟩
  | n + 1, i, s, h, hstep => by
    rcases hstep i s (Nat.le_refl _) (by omega) h with ⟨s1, e1, h1⟩ | ⟨b, e1, h1⟩
    · rcases loopE_inv I Q n (i + 1) s1 h1 (fun j s a b c => hstep j s (by omega) (by omega) c) with ⟨s2, e2, h2⟩ | ⟨b, e2, h2⟩
      · refine Or.inl ⟨s2, ?_, ?_⟩
        · simp [loopE, e1, e2]
        · rw [show i + (n + 1) = i + 1 + n by omega]; exact h2
      · exact Or.inr ⟨b, by simp [loopE, e1, e2], h2⟩
    · exact Or.inr ⟨b, by simp [loopE, e1], h1⟩

theorem forRangeE_inv {f : Nat → σ → Go (Step σ β)} (I : Nat → σ → Prop) (Q : β → Prop) (lo hi : Nat) (s : σ)
    (hle : lo ≤ hi) (h0 : I lo s)
    (hstep : ∀ j s, lo ≤ j → j < hi → I j s →
        (∃ s', f j s = .ok (.cont s') ∧ I (j + 1) s') ∨ (∃ b, f j s = .ok (.ret b) ∧ Q b)) :
    (∃ s', forRangeE lo hi s f = .ok (.cont s') ∧ I hi s') ∨ (∃ b, forRangeE lo hi s f = .ok (.ret b) ∧ Q b) := by
  have := loopE_inv I Q (hi - lo) lo s h0 (fun j s a b c => hstep j s a (by omega) c)
  rwa [show lo + (hi - lo) = hi by omega] at this

end Verif.Go

namespace Verif.Go

/-- More fuel, in the loop and in its body, does not change a result. -/
theorem forever_ok_mono {β σ : Type} {f f' : σ → Go (Step σ β)} (hf : ∀ s x, f s = .ok x → f' s = .ok x) {n : Nat} :
    ∀ {s : σ} {r : β} {m : Nat}, forever n s f = .ok r → n ≤ m → forever m s f' = .ok r := by
  induction n with
  | zero => intro s r m h; simp [forever] at h
  | succ n ih =>
    intro s r m h hm
    obtain ⟨m, rfl⟩ : ∃ k, m = k + 1 := ⟨m - 1, by omega⟩
    simp only [forever] at h ⊢
    cases hs : f s with
    | error e => simp [hs] at h
    | ok st =>
      rw [hs] at h
      rw [hf s st hs]
      cases st with
      | cont s' => simp at h ⊢; exact ih h (by omega)
      | ret b => simpa using h

end Verif.Go

namespace Verif.Go

theorem forever_cont {β σ : Type} {f : σ → Go (Step σ β)} {s s' : σ} (n : Nat) (h : f s = .ok (.cont s')) :
    forever (n + 1) s f = forever n s' f := by simp [forever, h]

theorem forever_ret {β σ : Type} {f : σ → Go (Step σ β)} {s : σ} {b : β} (n : Nat) (h : f s = .ok (.ret b)) :
    forever (n + 1) s f = .ok b := by simp [forever, h]

theorem forever_err {β σ : Type} {f : σ → Go (Step σ β)} {s : σ} {e : Stop} (n : Nat) (h : f s = .error e) :
    forever (n + 1) s f = .error e := by simp [forever, h]

/-- A loop that walks along a sequence of states until a condition holds. -/
theorem forever_seq {β σ : Type} {f : σ → Go (Step σ β)} (st : Nat → σ) (b : Nat → β) (p : Nat → Prop)
    (hc : ∀ k, ¬ p k → f (st k) = .ok (.cont (st (k + 1)))) (hr : ∀ k, p k → f (st k) = .ok (.ret (b k))) (n : Nat) :
    ∀ k, (∃ t, k ≤ t ∧ t < k + n ∧ p t ∧ (∀ t', k ≤ t' → t' < t → ¬ p t') ∧ forever n (st k) f = .ok (b t)) ∨
      ((∀ t, k ≤ t → t < k + n → ¬ p t) ∧ forever n (st k) f = .error .fuel) := by
  induction n with
  | zero => intro k; right; exact ⟨fun t h1 h2 => by omega, rfl⟩
  | succ n ih =>
    intro k
    by_cases hp : p k
    · left
      exact ⟨k, Nat.le_refl k, by omega, hp, fun t' h1 h2 => by omega, forever_ret n (hr k hp)⟩
    · rw [forever_cont n (hc k hp)]
      rcases ih (k + 1) with ⟨t, h1, h2, h3, h4, h5⟩ | ⟨h1, h2⟩
      · left
        refine ⟨t, by omega, by omega, h3, fun t' a b => ?_, h5⟩
        by_cases hk : t' = k
        · rw [hk]; exact hp
        · exact h4 t' (by omega) b
      · right
        refine ⟨fun t a b => ?_, h2⟩
        by_cases hk : t = k
        · rw [hk]; exact hp
        · exact h1 t (by omega) (by omega)

end Verif.Go
