import Verif.Go.Lemmas
import Verif.Model.Cuckoo
import Verif.Proof.CycleIff

/-! # The model of cuckoo.go / cuckaroo.go computes the orbit of `Verif.Orbit` -/

set_option autoImplicit false

namespace Verif.Cuckoo

open Go Orbit

section Inner

variable (uvs : List U64) (L i : Nat)

/-- position after `t` advances of `k` from `i` -/
def adv (t : Nat) : Nat := if i + 2 * t < 2 * L then i + 2 * t else i + 2 * t - 2 * L

/-- value list as a function of the position -/
def at_ (k : Nat) : Option U64 := uvs[k]?

def InnerInv (m k j : Nat) : Prop :=
  k = adv L i m ∧
  ((j = i ∧ ∀ t, 1 ≤ t → t ≤ m → at_ uvs (adv L i t) ≠ at_ uvs i) ∨
   (∃ t, 1 ≤ t ∧ t ≤ m ∧ j = adv L i t ∧ at_ uvs j = at_ uvs i ∧
      ∀ t', 1 ≤ t' → t' ≤ m → at_ uvs (adv L i t') = at_ uvs i → t' = t))

def InnerPost (r : Option Nat) : Prop :=
  (r = none ∧ ∃ k k', k ≠ k' ∧ Partner (at_ uvs) L i k ∧ Partner (at_ uvs) L i k') ∨
  (r = some i ∧ ∀ k, ¬ Partner (at_ uvs) L i k) ∨
  (∃ j, r = some j ∧ Partner (at_ uvs) L i j ∧ ∀ k, Partner (at_ uvs) L i k → k = j)

variable {uvs L i}

theorem adv_partner (hi : i < 2 * L) {t : Nat} (h1 : 1 ≤ t) (h2 : t < L) (h : at_ uvs (adv L i t) = at_ uvs i) :
    Partner (at_ uvs) L i (adv L i t) := by
  refine ⟨hi, ?_, ?_, ?_, h⟩ <;> (unfold adv; split <;> omega)

theorem partner_adv {k : Nat} (h : Partner (at_ uvs) L i k) : ∃ t, 1 ≤ t ∧ t < L ∧ k = adv L i t := by
  obtain ⟨h1, h2, h3, h4, _⟩ := h
  rcases Nat.lt_or_ge i k with hl | hl
  · exact ⟨(k - i) / 2, by omega, by omega, by unfold adv; split <;> omega⟩
  · exact ⟨(k + 2 * L - i) / 2, by omega, by omega, by unfold adv; split <;> omega⟩

theorem inner_spec (hlen : uvs.length = 2 * L) (hi : i < 2 * L) :
    ∀ (d m k j : Nat), m + d = L → 0 < d → InnerInv uvs L i m k j → ∀ fuel, d ≤ fuel →
      ∃ r, forever fuel (k, j) (innerStep uvs L i) = .ok r ∧ InnerPost uvs L i r := by
  intro d
  induction d with
  | zero => intro m k j _ h; omega
  | succ d ih =>
    intro m k j hmd _ hinv fuel hfuel
    obtain ⟨fuel, rfl⟩ : ∃ n, fuel = n + 1 := ⟨fuel - 1, by omega⟩
    obtain ⟨rfl, hj⟩ := hinv
    have hL : 0 < L := by omega
    have hk : (adv L i m + 2) % (2 * L) = adv L i (m + 1) ∨ (d = 0 ∧ (adv L i m + 2) % (2 * L) = i) := by
      by_cases hd : d = 0
      · right
        refine ⟨hd, ?_⟩
        have : adv L i m + 2 = i ∨ adv L i m + 2 = i + 2 * L := by unfold adv; split <;> omega
        rcases this with e | e
        · rw [e, Nat.mod_eq_of_lt hi]
        · rw [e, Nat.add_mod_right, Nat.mod_eq_of_lt hi]
      · left
        have : adv L i m + 2 = adv L i (m + 1) ∨ adv L i m + 2 = adv L i (m + 1) + 2 * L := by
          unfold adv; split <;> split <;> omega
        have hlt : adv L i (m + 1) < 2 * L := by unfold adv; split <;> omega
        rcases this with e | e
        · rw [e, Nat.mod_eq_of_lt hlt]
        · rw [e, Nat.add_mod_right, Nat.mod_eq_of_lt hlt]
    by_cases hd : d = 0
    · have hk : (adv L i m + 2) % (2 * L) = i := by
        rcases hk with e | ⟨_, e⟩
        · rw [e]; unfold adv; split <;> omega
        · exact e
      refine ⟨some j, ?_, ?_⟩
      · simp [forever, innerStep, hk, Nat.ne_of_gt hL]
      · rcases hj with ⟨rfl, hj⟩ | ⟨t, h1, h2, rfl, h4, h5⟩
        · right; left
          refine ⟨rfl, ?_⟩
          intro k hk
          obtain ⟨t, a, b, rfl⟩ := partner_adv hk
          exact hj t a (by omega) hk.2.2.2.2
        · right; right
          refine ⟨_, rfl, adv_partner hi h1 (by omega) h4, ?_⟩
          intro k hk
          obtain ⟨t', a, b, rfl⟩ := partner_adv hk
          rw [h5 t' a (by omega) hk.2.2.2.2]
    · have hk : (adv L i m + 2) % (2 * L) = adv L i (m + 1) := by
        rcases hk with e | ⟨h, _⟩
        · exact e
        · exact absurd h hd
      have hd0 : 0 < d := Nat.pos_of_ne_zero hd
      have hmd1 : m + 1 + d = L := by omega
      have hlt : adv L i (m + 1) < 2 * L := by unfold adv; split <;> omega
      have hne : adv L i (m + 1) ≠ i := by unfold adv; split <;> omega
      have ha : idx uvs (adv L i (m + 1)) = .ok (uvs[adv L i (m + 1)]'(by omega)) := idx_ok _ _ (by omega)
      have hb : idx uvs i = .ok (uvs[i]'(by omega)) := idx_ok _ _ (by omega)
      have heq : (uvs[adv L i (m + 1)]'(by omega) = uvs[i]'(by omega)) ↔ at_ uvs (adv L i (m + 1)) = at_ uvs i := by
        unfold at_
        rw [List.getElem?_eq_getElem (by omega), List.getElem?_eq_getElem (by omega)]
        simp
      by_cases hab : at_ uvs (adv L i (m + 1)) = at_ uvs i
      · have hab' := heq.2 hab
        by_cases hji : j = i
        · subst hji
          have hj : ∀ t, 1 ≤ t → t ≤ m → at_ uvs (adv L j t) ≠ at_ uvs j := by
            rcases hj with ⟨_, hj⟩ | ⟨t, h1, h2, h3, h4, _⟩
            · exact hj
            · exfalso
              have := (adv_partner (uvs := uvs) hi h1 (by omega) (by rw [← h3])).2.2.1
              exact this h3.symm
          obtain ⟨r, hr, hp⟩ := ih (m + 1) (adv L j (m + 1)) (adv L j (m + 1)) hmd1 hd0
            ⟨rfl, Or.inr ⟨m + 1, by omega, by omega, rfl, hab, fun t' a b c => by
              by_contra hne'
              exact hj t' a (by omega) c⟩⟩ fuel (by omega)
          refine ⟨r, ?_, hp⟩
          rw [← hr]
          simp [forever, innerStep, hk, Nat.ne_of_gt hL, hne, ha, hb, hab']
        · refine ⟨none, ?_, ?_⟩
          · simp [forever, innerStep, hk, Nat.ne_of_gt hL, hne, ha, hb, hab', hji]
          · left
            rcases hj with ⟨h, _⟩ | ⟨t, h1, h2, h3, h4, _⟩
            · exact absurd h hji
            · refine ⟨rfl, adv L i t, adv L i (m + 1), ?_, adv_partner hi h1 (by omega) (by rw [← h3]; exact h4),
                adv_partner hi (by omega) (by omega) hab⟩
              unfold adv; split <;> split <;> omega
      · have hab' : ¬ (uvs[adv L i (m + 1)]'(by omega) = uvs[i]'(by omega)) := fun e => hab (heq.1 e)
        obtain ⟨r, hr, hp⟩ := ih (m + 1) (adv L i (m + 1)) j hmd1 hd0
            ⟨rfl, by
              rcases hj with ⟨h, hj⟩ | ⟨t, h1, h2, h3, h4, h5⟩
              · left
                refine ⟨h, ?_⟩
                intro t a b
                rcases Nat.lt_or_ge t (m + 1) with hl | hl
                · exact hj t a (by omega)
                · rw [show t = m + 1 by omega]; exact hab
              · right
                refine ⟨t, h1, by omega, h3, h4, ?_⟩
                intro t' a b c
                rcases Nat.lt_or_ge t' (m + 1) with hl | hl
                · exact h5 t' a (by omega) c
                · rw [show t' = m + 1 by omega] at c; exact absurd c hab⟩ fuel (by omega)
        refine ⟨r, ?_, hp⟩
        rw [← hr]
        simp [forever, innerStep, hk, Nat.ne_of_gt hL, hne, ha, hb, hab']

theorem inner_run (hlen : uvs.length = 2 * L) (hi : i < 2 * L) {fuel : Nat} (hf : L ≤ fuel) :
    ∃ r, forever fuel (i, i) (innerStep uvs L i) = .ok r ∧ InnerPost uvs L i r := by
  refine inner_spec hlen hi L 0 i i (by omega) (by omega) ⟨by unfold adv; split <;> omega, Or.inl ⟨rfl, by intros; omega⟩⟩ fuel hf

end Inner

section Outer

variable {uvs : List U64} {L : Nat}

theorem outerStep_dead (hlen : uvs.length = 2 * L) {i n fuel : Nat} (hi : i < 2 * L) (hf : L ≤ fuel)
    (h : sig (at_ uvs) L i = i) :
    ∃ e, (e = .branch ∨ e = .deadEnd) ∧ outerStep uvs L fuel (i, n) = .ok (.ret (.error e)) := by
  obtain ⟨r, hr, hp⟩ := inner_run hlen hi hf
  rcases hp with ⟨rfl, _⟩ | ⟨rfl, _⟩ | ⟨j, rfl, h1, h2⟩
  · exact ⟨.branch, Or.inl rfl, by simp [outerStep, hr]⟩
  · exact ⟨.deadEnd, Or.inr rfl, by simp [outerStep, hr]⟩
  · rw [sig_of h1 h2] at h
    exact absurd h h1.2.2.1

theorem outerStep_live (hlen : uvs.length = 2 * L) {i n fuel : Nat} (hi : i < 2 * L) (hf : L ≤ fuel)
    (h : sig (at_ uvs) L i ≠ i) :
    outerStep uvs L fuel (i, n) = .ok (if step (at_ uvs) L i = 0 then .ret (.ok (n + 1)) else .cont (step (at_ uvs) L i, n + 1)) := by
  obtain ⟨r, hr, hp⟩ := inner_run hlen hi hf
  have hs := sig_partner h
  rcases hp with ⟨rfl, k, k', hne, hk, hk'⟩ | ⟨rfl, hn⟩ | ⟨j, rfl, h1, h2⟩
  · exact absurd ((hs.2 k hk).trans (hs.2 k' hk').symm) hne
  · exact absurd hs.1 (hn _)
  · have : sig (at_ uvs) L i = j := sig_of h1 h2
    simp only [outerStep, hr, ok_bind]
    rw [if_neg h1.2.2.1, step, this]
    by_cases h0 : tau j = 0
    · have h0' : j ^^^ 1 = 0 := h0
      simp [h0, h0']
    · have h0' : ¬ (j ^^^ 1 = 0) := h0
      simp [h0, h0']; rfl

theorem outer_run (hlen : uvs.length = 2 * L) (hL : 0 < L) {T : Nat} (hT : FirstReturn (at_ uvs) L T)
    {f0 : Nat} (hf0 : L ≤ f0) :
    ∀ (d t fuel : Nat), t + d = T → 0 < d → d ≤ fuel →
      ((∀ s, t ≤ s → s < T → sig (at_ uvs) L (pos (at_ uvs) L s) ≠ pos (at_ uvs) L s) ∧
        forever fuel (pos (at_ uvs) L t, t) (outerStep uvs L f0) = .ok (.ok T)) ∨
      ((∃ s, t ≤ s ∧ s < T ∧ sig (at_ uvs) L (pos (at_ uvs) L s) = pos (at_ uvs) L s) ∧
        ∃ e, (e = .branch ∨ e = .deadEnd) ∧ forever fuel (pos (at_ uvs) L t, t) (outerStep uvs L f0) = .ok (.error e)) := by
  intro d
  induction d with
  | zero => intro t fuel _ h; omega
  | succ d ih =>
    intro t fuel htd _ hfuel
    obtain ⟨fuel, rfl⟩ : ∃ n, fuel = n + 1 := ⟨fuel - 1, by omega⟩
    by_cases hs : sig (at_ uvs) L (pos (at_ uvs) L t) = pos (at_ uvs) L t
    · right
      obtain ⟨e, he, ho⟩ := outerStep_dead (n := t) hlen (pos_lt hL t) hf0 hs
      exact ⟨⟨t, by omega, by omega, hs⟩, e, he, by simp [forever, ho]⟩
    · have ho := outerStep_live (n := t) hlen (pos_lt hL t) hf0 hs
      have hstep : step (at_ uvs) L (pos (at_ uvs) L t) = pos (at_ uvs) L (t + 1) := by rw [pos_succ]; rfl
      rw [hstep] at ho
      by_cases hd : d = 0
      · left
        have hTt : T = t + 1 := by omega
        refine ⟨fun s h1 h2 => by rw [show s = t by omega]; exact hs, ?_⟩
        have := hT.ret
        rw [hTt] at this
        rw [this, if_pos rfl] at ho
        simp [forever, ho, hTt]
      · have hnz := hT.first (t + 1) (by omega) (by omega)
        rw [if_neg hnz] at ho
        have hrun : forever (fuel + 1) (pos (at_ uvs) L t, t) (outerStep uvs L f0) =
            forever fuel (pos (at_ uvs) L (t + 1), t + 1) (outerStep uvs L f0) := by
          conv_lhs => rw [forever]
          simp [ho]
        rw [hrun]
        rcases ih (t + 1) fuel (by omega) (by omega) (by omega) with ⟨h1, h2⟩ | ⟨⟨s, h1, h2, h3⟩, h4⟩
        · left
          refine ⟨fun s a b => ?_, h2⟩
          rcases Nat.lt_or_ge t s with hl | hl
          · exact h1 s (by omega) b
          · rw [show s = t by omega]; exact hs
        · right
          exact ⟨⟨s, by omega, h2, h3⟩, h4⟩

/-- The result of the walk, for every amount of fuel that is at least twice the proof size. -/
theorem walk_spec (c : Client) (s : Ends) (hL : 0 < c.proofSize.toNat) (hlen : s.uvs.length = 2 * c.proofSize.toNat)
    {fuel : Nat} (hf : 2 * c.proofSize.toNat ≤ fuel) :
    ∃ b e, walk c fuel s = .ok (b, e) ∧ (b = true ↔ e = none) ∧ e ≠ some .tooSmall ∧ e ≠ some .tooBig ∧
      (b = true ↔ (s.xor0 ||| s.xor1 = 0 ∧ Closed (at_ s.uvs) c.proofSize.toNat c.proofSize.toNat)) ∧
      (e = some .notMatching ↔ s.xor0 ||| s.xor1 ≠ 0) := by
  have hps : (c.proofSize.toNat : Int) = c.proofSize := by omega
  set L := c.proofSize.toNat with hLd
  by_cases hx : s.xor0 ||| s.xor1 = 0
  · obtain ⟨T, hT⟩ := exists_firstReturn (f := at_ s.uvs) hL
    have := outer_run (f0 := fuel) hlen hL hT (by omega) T 0 fuel (by omega) hT.pos (by have := hT.le; omega)
    rcases this with ⟨h1, h2⟩ | ⟨⟨t, _, h1, h2⟩, e, he, h3⟩
    · by_cases hTL : T = L
      · subst hTL
        refine ⟨true, none, ?_, by simp, by simp, by simp, ?_, by simp [hx]⟩
        · have : ¬ ((c.proofSize.toNat : Int) ≠ c.proofSize) := by omega
          simp only [walk, hx, ne_eq, not_true, if_false]
          rw [show (0, 0) = (pos (at_ s.uvs) c.proofSize.toNat 0, 0) from rfl, h2]
          simp [hps]
        · simp only [true_iff]
          exact ⟨hx, hT, fun t ht => h1 t (by omega) ht⟩
      · refine ⟨false, some .shortCycle, ?_, by simp, by simp, by simp, ?_, by simp [hx]⟩
        · simp only [walk, hx, ne_eq, not_true, if_false]
          rw [show (0, 0) = (pos (at_ s.uvs) c.proofSize.toNat 0, 0) from rfl, h2]
          have : ¬ ((T : Int) = c.proofSize) := by omega
          simp [this]
        · simp only [Bool.false_eq_true, false_iff]
          rintro ⟨_, hc⟩
          exact hTL (hT.unique hc.ret)
    · refine ⟨false, some e, ?_, by simp, ?_, ?_, ?_, ?_⟩
      · simp only [walk, hx, ne_eq, not_true, if_false]
        rw [show (0, 0) = (pos (at_ s.uvs) c.proofSize.toNat 0, 0) from rfl, h3]
        simp
      · rcases he with rfl | rfl <;> simp
      · rcases he with rfl | rfl <;> simp
      · simp only [Bool.false_eq_true, false_iff]
        rintro ⟨_, hc⟩
        have : T = L := hT.unique hc.ret
        exact hc.live t (by omega) h2
      · rcases he with rfl | rfl <;> simp [hx]
  · refine ⟨false, some .notMatching, ?_, by simp, by simp, by simp, ?_, ?_⟩
    · simp only [walk, ne_eq, hx, not_false_eq_true, if_true]; rfl
    · simp only [hx, false_and, Bool.false_eq_true]
    · simp only [ne_eq, hx, not_false_eq_true]

end Outer

end Verif.Cuckoo
