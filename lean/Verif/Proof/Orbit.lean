import Mathlib.Logic.Function.Iterate
import Mathlib.Combinatorics.Pigeonhole
import Mathlib.Data.Finset.Card
import Verif.Spec.Cycle

/-! # The cuckoo cycle walk as an orbit of two involutions

Positions `0 … 2L-1`: position `2n + s` is endpoint `s` of edge `n`, with value `f (2n+s)`.
`sig` maps a position to the only other position of the same parity with the same value (if there is exactly one),
`tau` maps a position to the other endpoint of the same edge. -/

set_option autoImplicit false

namespace Verif.Orbit

variable {N : Type} (f : Nat → N) (L : Nat)

def Partner (i k : Nat) : Prop := i < 2 * L ∧ k < 2 * L ∧ k ≠ i ∧ k % 2 = i % 2 ∧ f k = f i

def Uniq (i : Nat) : Prop := ∃ j, Partner f L i j ∧ ∀ k, Partner f L i k → k = j

open Classical in
noncomputable def sig (i : Nat) : Nat := if h : Uniq f L i then h.choose else i

def tau (i : Nat) : Nat := i ^^^ 1

theorem tau_even {i : Nat} (h : i % 2 = 0) : tau i = i + 1 := by
  unfold tau
  have : i = 2 * (i / 2) := by omega
  rw [this]
  apply Nat.eq_of_testBit_eq
  intro b
  rw [Nat.testBit_xor]
  cases b with
  | zero => simp
  | succ b =>
    simp only [Nat.testBit_succ]
    rw [show 2 * (i / 2) / 2 = (2 * (i / 2) + 1) / 2 by omega]
    simp

theorem tau_odd {i : Nat} (h : i % 2 = 1) : tau i = i - 1 := by
  obtain ⟨m, rfl⟩ : ∃ m, i = m + 1 := ⟨i - 1, by omega⟩
  have := tau_even (i := m) (by omega)
  rw [← this]
  unfold tau at this ⊢
  rw [Nat.xor_assoc, this]; simp

theorem tau_cases (i : Nat) : (i % 2 = 0 ∧ tau i = i + 1) ∨ (i % 2 = 1 ∧ tau i = i - 1) := by
  rcases Nat.mod_two_eq_zero_or_one i with h | h
  · exact Or.inl ⟨h, tau_even h⟩
  · exact Or.inr ⟨h, tau_odd h⟩

theorem tau_tau (i : Nat) : tau (tau i) = i := by simp [tau, Nat.xor_assoc]

theorem tau_mod (i : Nat) : tau i % 2 = 1 - i % 2 := by have := tau_cases i; omega

theorem tau_div (i : Nat) : tau i / 2 = i / 2 := by have := tau_cases i; omega

theorem tau_lt {i : Nat} (h : i < 2 * L) : tau i < 2 * L := by have := tau_cases i; omega

variable {f L}

theorem Partner.symm {i k : Nat} (h : Partner f L i k) : Partner f L k i :=
  ⟨h.2.1, h.1, fun e => h.2.2.1 e.symm, h.2.2.2.1.symm, h.2.2.2.2.symm⟩

theorem sig_of {i j : Nat} (h : Partner f L i j) (hu : ∀ k, Partner f L i k → k = j) : sig f L i = j := by
  have hU : Uniq f L i := ⟨j, h, hu⟩
  rw [sig, dif_pos hU]
  exact (hu _ hU.choose_spec.1)

theorem sig_not {i : Nat} (h : ¬ Uniq f L i) : sig f L i = i := by rw [sig, dif_neg h]

theorem sig_partner {i : Nat} (h : sig f L i ≠ i) :
    Partner f L i (sig f L i) ∧ ∀ k, Partner f L i k → k = sig f L i := by
  by_cases hU : Uniq f L i
  · rw [sig, dif_pos hU]; exact hU.choose_spec
  · exact absurd (sig_not hU) h

theorem sig_ne_iff {i : Nat} : sig f L i ≠ i ↔ Uniq f L i := by
  constructor
  · intro h; exact ⟨_, sig_partner h⟩
  · rintro ⟨j, h, hu⟩; rw [sig_of h hu]; exact h.2.2.1

theorem uniq_partner {i j : Nat} (h : Partner f L i j) (hu : ∀ k, Partner f L i k → k = j) :
    ∀ k, Partner f L j k → k = i := by
  intro k hk
  by_contra hne
  have : Partner f L i k := ⟨h.1, hk.2.1, hne, hk.2.2.2.1.trans h.2.2.2.1, hk.2.2.2.2.trans h.2.2.2.2⟩
  exact hk.2.2.1 (hu k this)

theorem sig_sig (i : Nat) : sig f L (sig f L i) = i := by
  by_cases hne : sig f L i = i
  · rw [hne, hne]
  · have := sig_partner hne
    exact sig_of this.1.symm (uniq_partner this.1 this.2)

theorem sig_mod (i : Nat) : sig f L i % 2 = i % 2 := by
  by_cases hne : sig f L i = i
  · rw [hne]
  · exact (sig_partner hne).1.2.2.2.1

theorem sig_lt {i : Nat} (h : i < 2 * L) : sig f L i < 2 * L := by
  by_cases hne : sig f L i = i
  · rwa [hne]
  · exact (sig_partner hne).1.2.1

variable (f L)

noncomputable def step (i : Nat) : Nat := tau (sig f L i)

noncomputable def pos (t : Nat) : Nat := (step f L)^[t] 0

variable {f L}

theorem step_injective : Function.Injective (step f L) := by
  intro a b h
  have h1 : sig f L a = sig f L b := by have := congrArg tau h; simpa [step, tau_tau] using this
  have := congrArg (sig f L) h1
  simpa [sig_sig] using this

@[simp] theorem pos_zero : pos f L 0 = 0 := rfl

theorem pos_succ (t : Nat) : pos f L (t + 1) = tau (sig f L (pos f L t)) := by
  simp only [pos, Function.iterate_succ_apply', step]

theorem pos_lt (hL : 0 < L) (t : Nat) : pos f L t < 2 * L := by
  induction t with
  | zero => simp; exact hL
  | succ t ih => rw [pos_succ]; exact tau_lt _ (sig_lt ih)

theorem pos_mod (t : Nat) : pos f L t % 2 = t % 2 := by
  induction t with
  | zero => rfl
  | succ t ih => rw [pos_succ, tau_mod, sig_mod, ih]; omega

theorem pos_cancel {a b : Nat} (h : pos f L (a + b) = pos f L b) : pos f L a = 0 := by
  rw [pos, Nat.add_comm, Function.iterate_add_apply] at h
  exact (step_injective.iterate b) h

theorem exists_return (hL : 0 < L) : ∃ t, 0 < t ∧ t ≤ 2 * L ∧ pos f L t = 0 := by
  obtain ⟨x, hx, y, hy, hne, he⟩ := Finset.exists_ne_map_eq_of_card_lt_of_maps_to
    (s := Finset.range (2 * L + 1)) (t := Finset.range (2 * L)) (f := pos f L) (by simp)
    (fun t _ => by simpa using pos_lt hL t)
  simp only [Finset.mem_range] at hx hy
  rcases Nat.lt_or_gt_of_ne hne with h | h
  · refine ⟨y - x, by omega, by omega, pos_cancel (b := x) ?_⟩
    rw [Nat.sub_add_cancel (by omega)]; exact he.symm
  · refine ⟨x - y, by omega, by omega, pos_cancel (b := y) ?_⟩
    rw [Nat.sub_add_cancel (by omega)]; exact he

/-- The orbit of `0` returns for the first time after exactly `T` steps. -/
structure FirstReturn (f : Nat → N) (L T : Nat) : Prop where
  pos : 0 < T
  le : T ≤ 2 * L
  ret : Orbit.pos f L T = 0
  first : ∀ t, 0 < t → t < T → Orbit.pos f L t ≠ 0

theorem exists_firstReturn (hL : 0 < L) : ∃ T, FirstReturn f L T := by
  classical
  have hex := exists_return (f := f) hL
  let P := fun t => 0 < t ∧ t ≤ 2 * L ∧ pos f L t = 0
  have hex : ∃ t, P t := hex
  refine ⟨Nat.find hex, (Nat.find_spec hex).1, (Nat.find_spec hex).2.1, (Nat.find_spec hex).2.2, ?_⟩
  intro t h0 ht h
  exact Nat.find_min hex ht ⟨h0, by have := (Nat.find_spec hex).2.1; omega, h⟩

theorem FirstReturn.unique {T T' : Nat} (h : FirstReturn f L T) (h' : FirstReturn f L T') : T = T' := by
  rcases Nat.lt_trichotomy T T' with hl | hl | hl
  · exact absurd h.ret (h'.first _ h.pos hl)
  · exact hl
  · exact absurd h'.ret (h.first _ h'.pos hl)

variable (f L)

/-- The walk comes back for the first time after `T` steps, never meeting a dead end or a branch. -/
structure Closed (T : Nat) : Prop where
  ret : FirstReturn f L T
  live : ∀ t, t < T → sig f L (pos f L t) ≠ pos f L t

/-- the other position meeting `pos t` in its node -/
noncomputable def qos (t : Nat) : Nat := sig f L (pos f L t)

variable {f L}

theorem qos_tau (t : Nat) : tau (qos f L t) = pos f L (t + 1) := by rw [pos_succ]; rfl

theorem pos_inj {a b T : Nat} (h : FirstReturn f L T) (ha : a < T) (hb : b < T) (he : pos f L a = pos f L b) : a = b := by
  rcases Nat.lt_trichotomy a b with hl | hl | hl
  · have := pos_cancel (f := f) (L := L) (a := b - a) (b := a) (by rw [Nat.sub_add_cancel (by omega)]; exact he.symm)
    exact absurd this (h.first _ (by omega) (by omega))
  · exact hl
  · have := pos_cancel (f := f) (L := L) (a := a - b) (b := b) (by rw [Nat.sub_add_cancel (by omega)]; exact he)
    exact absurd this (h.first _ (by omega) (by omega))

/-- the two traversal directions never coincide: if `q_a = p_b` then walking towards the middle finds a fixed point -/
theorem qos_ne_pos {T : Nat} (live : ∀ t, t < T → sig f L (pos f L t) ≠ pos f L t) :
    ∀ (d a b : Nat), a < T → b < T → (b = a + 2 * d ∨ a = b + 2 * d) → qos f L a ≠ pos f L b := by
  intro d
  induction d with
  | zero =>
    intro a b ha hb hd he
    have : a = b := by omega
    subst this
    exact live a ha he
  | succ d ih =>
    intro a b ha hb hd he
    rcases hd with hd | hd
    · -- b = a + 2d + 2 : pos b = tau (qos (b-1)), so qos (b-1) = tau (qos a) = pos (a+1)
      have h1 : tau (qos f L (b - 1)) = pos f L b := by rw [qos_tau, show b - 1 + 1 = b by omega]
      have h2 : qos f L (b - 1) = pos f L (a + 1) := by
        have := congrArg tau (he.trans h1.symm)
        rw [tau_tau, qos_tau] at this; exact this.symm
      exact ih (b - 1) (a + 1) (by omega) (by omega) (by omega) h2
    · -- a = b + 2d + 2 : pos (b+1) = tau (qos b) ; qos a = pos b → sig: pos a = qos b ; a = (a-1)+1
      have h1 : pos f L a = qos f L b := by
        have := congrArg (sig f L) he
        rw [qos, sig_sig] at this; exact this
      have h2 : tau (qos f L (a - 1)) = pos f L a := by rw [qos_tau, show a - 1 + 1 = a by omega]
      have h3 : qos f L (a - 1) = pos f L (b + 1) := by
        have := congrArg tau (h2.trans h1)
        rw [tau_tau, qos_tau] at this; exact this
      exact ih (a - 1) (b + 1) (by omega) (by omega) (by omega) h3

end Verif.Orbit
