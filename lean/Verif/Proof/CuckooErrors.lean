import Verif.Proof.CuckooVerify
import Verif.Spec.CuckooWalk

/-! # Which error the walk of cuckoo.go and cuckaroo.go ends with -/

set_option autoImplicit false

namespace Verif.Orbit

open Spec

section
variable {N : Type} {f : Nat → N} {L : Nat}

/-- the walk gets as far as step `t` -/
def Reached (f : Nat → N) (L t : Nat) : Prop :=
  (∀ s, s < t → sig f L (pos f L s) ≠ pos f L s) ∧ ∀ s, 0 < s → s ≤ t → pos f L s ≠ 0

theorem Reached.zero : Reached f L 0 := ⟨by intros; omega, by intros; omega⟩

theorem reached_succ (t : Nat) : Reached f L (t + 1) ↔
    Reached f L t ∧ sig f L (pos f L t) ≠ pos f L t ∧ pos f L (t + 1) ≠ 0 := by
  constructor
  · rintro ⟨h1, h2⟩
    exact ⟨⟨fun s hs => h1 s (by omega), fun s h0 hs => h2 s h0 (by omega)⟩, h1 t (by omega), h2 (t + 1) (by omega) (by omega)⟩
  · rintro ⟨⟨h1, h2⟩, h3, h4⟩
    refine ⟨fun s hs => ?_, fun s h0 hs => ?_⟩
    · by_cases h : s = t
      · rw [h]; exact h3
      · exact h1 s (by omega)
    · by_cases h : s = t + 1
      · rw [h]; exact h4
      · exact h2 s h0 (by omega)

theorem Reached.stuck_unique {t t' : Nat} (h : Reached f L t) (h' : Reached f L t') (hs : sig f L (pos f L t) = pos f L t)
    (hs' : sig f L (pos f L t') = pos f L t') : t = t' := by
  rcases Nat.lt_trichotomy t t' with hl | hl | hl
  · exact absurd hs (h'.1 t hl)
  · exact hl
  · exact absurd hs' (h.1 t' hl)

theorem Closed.not_stuck {t T : Nat} (h : Closed f L T) (ht : Reached f L t) : sig f L (pos f L t) ≠ pos f L t := by
  apply h.live
  by_contra hge
  exact ht.2 T h.ret.pos (by omega) h.ret.ret

theorem closed_iff_reached (T : Nat) (hL : 0 < L) : Closed f L T ↔
    ∃ t, T = t + 1 ∧ Reached f L t ∧ sig f L (pos f L t) ≠ pos f L t ∧ pos f L (t + 1) = 0 := by
  constructor
  · intro h
    have hT := h.ret.pos
    refine ⟨T - 1, by omega, ⟨fun s hs => h.live s (by omega), fun s h0 hs => h.ret.first s h0 (by omega)⟩, h.live _ (by omega), ?_⟩
    rw [Nat.sub_add_cancel hT]
    exact h.ret.ret
  · rintro ⟨t, rfl, hr, hs, h0⟩
    refine ⟨⟨by omega, ?_, h0, fun s h1 h2 => hr.2 s h1 (by omega)⟩, fun s h1 => ?_⟩
    · -- the first return is at most after 2 L steps
      obtain ⟨T, hT⟩ := exists_firstReturn (f := f) hL
      by_contra hgt
      exact hr.2 T hT.pos (by have := hT.le; omega) hT.ret
    · by_cases h : s = t
      · rw [h]; exact hs
      · exact hr.1 s (by omega)

end

/-! ## in terms of the edges -/

section
variable {E N : Type} (u v : E → N) (edges : List E)

theorem meets_iff (s : Bool) (a b : Nat) :
    Meets u v edges s a b ↔ Partner (vals u v edges) edges.length (2 * a + s.toNat) (2 * b + s.toNat) := by
  have hs : s.toNat < 2 := by cases s <;> decide
  have hval : ∀ n, vals u v edges (2 * n + s.toNat) = (edges[n]?).map (endOn u v s) := by
    intro n
    rw [vals, show (2 * n + s.toNat) / 2 = n by omega, show (2 * n + s.toNat) % 2 = s.toNat by omega]
    cases s <;> rfl
  constructor
  · rintro ⟨hne, x, y, hx, hy, he⟩
    have h1 : a < edges.length := by
      by_contra h; rw [List.getElem?_eq_none (by omega)] at hx; cases hx
    have h2 : b < edges.length := by
      by_contra h; rw [List.getElem?_eq_none (by omega)] at hy; cases hy
    refine ⟨by omega, by omega, by omega, by omega, ?_⟩
    rw [hval, hval, hx, hy, Option.map_some, Option.map_some, he]
  · rintro ⟨h1, h2, h3, _, h5⟩
    rw [hval, hval, List.getElem?_eq_getElem (show a < edges.length by omega), List.getElem?_eq_getElem (show b < edges.length by omega),
      Option.map_some, Option.map_some] at h5
    exact ⟨by omega, _, _, List.getElem?_eq_getElem (by omega), List.getElem?_eq_getElem (by omega), (Option.some.inj h5).symm⟩

theorem partner_meets (s : Bool) (a k : Nat) (h : Partner (vals u v edges) edges.length (2 * a + s.toNat) k) :
    ∃ b, k = 2 * b + s.toNat ∧ Meets u v edges s a b := by
  have hs : s.toNat < 2 := by cases s <;> decide
  have hk : k = 2 * (k / 2) + s.toNat := by have := h.2.2.2.1; omega
  refine ⟨k / 2, hk, ?_⟩
  rw [meets_iff, ← hk]
  exact h

theorem tau_double (s : Bool) (b : Nat) : tau (2 * b + s.toNat) = 2 * b + (!s).toNat := by
  cases s
  · exact tau_even (by simp)
  · rw [tau_odd (by simp)]; simp

theorem pathAt_iff (_hL : 0 < edges.length) (t : Nat) (s : Bool) (a : Nat) : PathAt u v edges t s a ↔
    Reached (vals u v edges) edges.length t ∧ pos (vals u v edges) edges.length t = 2 * a + s.toNat := by
  obtain ⟨f, hf⟩ : ∃ f, f = vals u v edges := ⟨_, rfl⟩
  obtain ⟨L, hLd⟩ : ∃ L, L = edges.length := ⟨_, rfl⟩
  rw [← hf, ← hLd]
  constructor
  · intro h
    induction h with
    | start => exact ⟨Reached.zero, by rw [pos_zero]; rfl⟩
    | @next t s a b _ hm hu h0 ih =>
      obtain ⟨hr, hp⟩ := ih
      have hpart : Partner f L (2 * a + s.toNat) (2 * b + s.toNat) := by rw [hf, hLd]; exact (meets_iff u v edges s a b).mp hm
      have hsig : sig f L (pos f L t) = 2 * b + s.toNat := by
        rw [hp]
        refine sig_of hpart ?_
        intro k hk
        rw [hf, hLd] at hk
        obtain ⟨b', rfl, hb'⟩ := partner_meets u v edges s a k hk
        rw [hu b' hb']
      have hpos : pos f L (t + 1) = 2 * b + (!s).toNat := by rw [pos_succ, hsig, tau_double]
      refine ⟨(reached_succ t).mpr ⟨hr, ?_, ?_⟩, hpos⟩
      · rw [hsig, hp]; exact hpart.2.2.1
      · rw [hpos]
        intro e
        apply h0
        cases s
        · simp at e
        · exact ⟨rfl, by simpa using e⟩
  · rintro ⟨hr, hp⟩
    induction t generalizing s a with
    | zero =>
      rw [pos_zero] at hp
      have : a = 0 := by omega
      subst this
      cases s
      · exact PathAt.start
      · simp at hp
    | succ t ih =>
      obtain ⟨hr', hlive, h0⟩ := (reached_succ t).mp hr
      obtain ⟨a', s', hp'⟩ : ∃ a' s', pos f L t = 2 * a' + (s' : Bool).toNat := by
        rcases Nat.mod_two_eq_zero_or_one (pos f L t) with h | h
        · exact ⟨pos f L t / 2, false, by simp; omega⟩
        · exact ⟨pos f L t / 2, true, by simp; omega⟩
      have hsp := sig_partner hlive
      have hpart := hsp.1
      rw [hp', hf, hLd] at hpart
      obtain ⟨b, hb, hm⟩ := partner_meets u v edges s' a' _ hpart
      rw [← hp', ← hf, ← hLd] at hb
      have hpos : pos f L (t + 1) = 2 * b + (!s').toNat := by rw [pos_succ, hb, tau_double]
      rw [hpos] at hp h0
      have hs : s = !s' := by
        cases s <;> cases s' <;> simp at hp ⊢ <;> omega
      have hab : a = b := by rw [hs] at hp; omega
      rw [hs, hab]
      refine PathAt.next (ih _ _ hr' hp') hm ?_ ?_
      · intro b' hb'
        have hk := (meets_iff u v edges s' a' b').mp hb'
        rw [← hf, ← hLd, ← hp'] at hk
        have := hsp.2 _ hk
        rw [hb] at this
        omega
      · rintro ⟨h1, h2⟩
        apply h0
        rw [h1, h2]; rfl

theorem deadEnd_iff (hL : 0 < edges.length) : DeadEnd u v edges ↔
    ∃ t, Reached (vals u v edges) edges.length t ∧
      ∀ k, ¬ Partner (vals u v edges) edges.length (pos (vals u v edges) edges.length t) k := by
  constructor
  · rintro ⟨t, s, a, hp, hn⟩
    obtain ⟨hr, hp⟩ := (pathAt_iff u v edges hL t s a).mp hp
    refine ⟨t, hr, ?_⟩
    rw [hp]
    intro k hk
    obtain ⟨b, _, hb⟩ := partner_meets u v edges s a k hk
    exact hn b hb
  · rintro ⟨t, hr, hn⟩
    obtain ⟨a, s, hp⟩ : ∃ a s, pos (vals u v edges) edges.length t = 2 * a + (s : Bool).toNat := by
      rcases Nat.mod_two_eq_zero_or_one (pos (vals u v edges) edges.length t) with h | h
      · exact ⟨pos (vals u v edges) edges.length t / 2, false, by simp; omega⟩
      · exact ⟨pos (vals u v edges) edges.length t / 2, true, by simp; omega⟩
    refine ⟨t, s, a, (pathAt_iff u v edges hL t s a).mpr ⟨hr, hp⟩, fun b hb => ?_⟩
    rw [hp] at hn
    exact hn _ ((meets_iff u v edges s a b).mp hb)

theorem branches_iff (hL : 0 < edges.length) : Branches u v edges ↔
    ∃ t, Reached (vals u v edges) edges.length t ∧ ∃ k k', k ≠ k' ∧
      Partner (vals u v edges) edges.length (pos (vals u v edges) edges.length t) k ∧
      Partner (vals u v edges) edges.length (pos (vals u v edges) edges.length t) k' := by
  constructor
  · rintro ⟨t, s, a, b, c, hp, hb, hc, hne⟩
    obtain ⟨hr, hp⟩ := (pathAt_iff u v edges hL t s a).mp hp
    refine ⟨t, hr, 2 * b + s.toNat, 2 * c + s.toNat, by omega, ?_, ?_⟩
    · rw [hp]; exact (meets_iff u v edges s a b).mp hb
    · rw [hp]; exact (meets_iff u v edges s a c).mp hc
  · rintro ⟨t, hr, k, k', hne, h1, h2⟩
    obtain ⟨a, s, hp⟩ : ∃ a s, pos (vals u v edges) edges.length t = 2 * a + (s : Bool).toNat := by
      rcases Nat.mod_two_eq_zero_or_one (pos (vals u v edges) edges.length t) with h | h
      · exact ⟨pos (vals u v edges) edges.length t / 2, false, by simp; omega⟩
      · exact ⟨pos (vals u v edges) edges.length t / 2, true, by simp; omega⟩
    rw [hp] at h1 h2
    obtain ⟨b, rfl, hb⟩ := partner_meets u v edges s a k h1
    obtain ⟨c, rfl, hc⟩ := partner_meets u v edges s a k' h2
    exact ⟨t, s, a, b, c, (pathAt_iff u v edges hL t s a).mpr ⟨hr, hp⟩, hb, hc, by omega⟩

theorem returns_iff (hL : 0 < edges.length) (T : Nat) : Returns u v edges T ↔ Closed (vals u v edges) edges.length T := by
  rw [closed_iff_reached T hL]
  constructor
  · rintro ⟨t, a, rfl, hp, hm, hu⟩
    obtain ⟨hr, hp⟩ := (pathAt_iff u v edges hL t true a).mp hp
    have hpart := (meets_iff u v edges true a 0).mp hm
    have hsig : sig (vals u v edges) edges.length (pos (vals u v edges) edges.length t) = 2 * 0 + true.toNat := by
      rw [hp]
      refine sig_of hpart ?_
      intro k hk
      obtain ⟨b', rfl, hb'⟩ := partner_meets u v edges true a k hk
      rw [hu b' hb']
    refine ⟨t, rfl, hr, ?_, ?_⟩
    · rw [hsig, hp]; exact hpart.2.2.1
    · rw [pos_succ, hsig, tau_double]; rfl
  · rintro ⟨t, rfl, hr, hlive, h0⟩
    have hsp := sig_partner hlive
    have hsig : sig (vals u v edges) edges.length (pos (vals u v edges) edges.length t) = 1 := by
      rw [pos_succ] at h0
      rw [← tau_tau (sig (vals u v edges) edges.length (pos (vals u v edges) edges.length t)), h0]; rfl
    have hmod := sig_mod (f := vals u v edges) (L := edges.length) (pos (vals u v edges) edges.length t)
    rw [hsig] at hmod
    obtain ⟨a, hp⟩ : ∃ a, pos (vals u v edges) edges.length t = 2 * a + true.toNat :=
      ⟨pos (vals u v edges) edges.length t / 2, by simp; omega⟩
    rw [hp] at hsp
    rw [hp] at hsig
    rw [hsig] at hsp
    refine ⟨t, a, rfl, (pathAt_iff u v edges hL t true a).mpr ⟨hr, hp⟩, (meets_iff u v edges true a 0).mpr hsp.1, ?_⟩
    intro b hb
    have := hsp.2 _ ((meets_iff u v edges true a b).mp hb)
    simp at this
    exact this

end

end Verif.Orbit

namespace Verif.Cuckoo

open Go Orbit Spec
open Siphash (Keys)

/-- what an error of the walk says about the position where it was found -/
def Bad {N : Type} (f : Nat → N) (L i : Nat) (e : Err) : Prop :=
  (e = .branch ∧ ∃ k k', k ≠ k' ∧ Partner f L i k ∧ Partner f L i k') ∨ (e = .deadEnd ∧ ∀ k, ¬ Partner f L i k)

theorem Bad.stuck {N : Type} {f : Nat → N} {L i : Nat} {e : Err} (h : Bad f L i e) : sig f L i = i := by
  by_contra hne
  have hs := sig_partner hne
  rcases h with ⟨_, k, k', hkk, h1, h2⟩ | ⟨_, hn⟩
  · exact hkk ((hs.2 k h1).trans (hs.2 k' h2).symm)
  · exact hn _ hs.1

section Walk
variable {uvs : List U64} {L : Nat}

theorem outerStep_bad (hlen : uvs.length = 2 * L) {i n fuel : Nat} (hi : i < 2 * L) (hf : L ≤ fuel)
    (h : sig (at_ uvs) L i = i) :
    ∃ e, Bad (at_ uvs) L i e ∧ outerStep uvs L fuel (i, n) = .ok (.ret (.error e)) := by
  obtain ⟨r, hr, hp⟩ := inner_run hlen hi hf
  rcases hp with ⟨rfl, hk⟩ | ⟨rfl, hn⟩ | ⟨j, rfl, h1, h2⟩
  · exact ⟨.branch, Or.inl ⟨rfl, hk⟩, by simp [outerStep, hr]⟩
  · exact ⟨.deadEnd, Or.inr ⟨rfl, hn⟩, by simp [outerStep, hr]⟩
  · rw [sig_of h1 h2] at h
    exact absurd h h1.2.2.1

/-- the outer loop from step `t`, which the walk gets to -/
theorem outer_exact (hlen : uvs.length = 2 * L) (hL : 0 < L) {f0 : Nat} (hf0 : L ≤ f0) :
    ∀ (fuel t : Nat), 2 * L ≤ t + fuel → t < 2 * L → Reached (at_ uvs) L t →
      (∃ T, Closed (at_ uvs) L T ∧ forever fuel (pos (at_ uvs) L t, t) (outerStep uvs L f0) = .ok (.ok T)) ∨
      (∃ s e, Reached (at_ uvs) L s ∧ Bad (at_ uvs) L (pos (at_ uvs) L s) e ∧
        forever fuel (pos (at_ uvs) L t, t) (outerStep uvs L f0) = .ok (.error e)) := by
  intro fuel
  induction fuel with
  | zero => intro t h1 h2; omega
  | succ fuel ih =>
    intro t h1 h2 hr
    by_cases hs : sig (at_ uvs) L (pos (at_ uvs) L t) = pos (at_ uvs) L t
    · right
      obtain ⟨e, he, ho⟩ := outerStep_bad (n := t) hlen (pos_lt hL t) hf0 hs
      exact ⟨t, e, hr, he, forever_ret _ ho⟩
    · have ho := outerStep_live (n := t) hlen (pos_lt hL t) hf0 hs
      have hstep : step (at_ uvs) L (pos (at_ uvs) L t) = pos (at_ uvs) L (t + 1) := by rw [pos_succ]; rfl
      rw [hstep] at ho
      by_cases h0 : pos (at_ uvs) L (t + 1) = 0
      · left
        rw [if_pos h0] at ho
        exact ⟨t + 1, (closed_iff_reached _ hL).mpr ⟨t, rfl, hr, hs, h0⟩, forever_ret _ ho⟩
      · rw [if_neg h0] at ho
        rw [forever_cont _ ho]
        have hr' : Reached (at_ uvs) L (t + 1) := (reached_succ t).mpr ⟨hr, hs, h0⟩
        refine ih (t + 1) (by omega) ?_ hr'
        by_contra hge
        obtain ⟨T, hT⟩ := exists_firstReturn (f := at_ uvs) hL
        exact hr'.2 T hT.pos (by have := hT.le; omega) hT.ret

/-- what the walk returns -/
theorem walk_exact (c : Client) (s : Ends) (hL : 0 < c.proofSize.toNat) (hlen : s.uvs.length = 2 * c.proofSize.toNat)
    (hx : s.xor0 ||| s.xor1 = 0) {fuel : Nat} (hf : 2 * c.proofSize.toNat ≤ fuel) :
    (∃ T, Closed (at_ s.uvs) c.proofSize.toNat T ∧
      walk c fuel s = .ok (if T = c.proofSize.toNat then (true, none) else (false, some .shortCycle))) ∨
    (∃ t e, Reached (at_ s.uvs) c.proofSize.toNat t ∧ Bad (at_ s.uvs) c.proofSize.toNat (pos (at_ s.uvs) c.proofSize.toNat t) e ∧
      walk c fuel s = .ok (false, some e)) := by
  have h := outer_exact (f0 := fuel) hlen hL (by omega) fuel 0 (by omega) (by omega) Reached.zero
  rw [pos_zero] at h
  rcases h with ⟨T, hT, hr⟩ | ⟨t, e, ht, he, hr⟩
  · left
    refine ⟨T, hT, ?_⟩
    rw [walk, if_neg (by rw [hx]; simp), hr, ok_bind]
    by_cases hTL : T = c.proofSize.toNat
    · rw [if_pos hTL]
      show (if (T : Int) ≠ c.proofSize then _ else _) = _
      rw [if_neg (by omega)]; rfl
    · rw [if_neg hTL]
      show (if (T : Int) ≠ c.proofSize then _ else _) = _
      rw [if_pos (by omega)]; rfl
  · right
    refine ⟨t, e, ht, he, ?_⟩
    rw [walk, if_neg (by rw [hx]; simp), hr, ok_bind]
    rfl

end Walk

theorem xorOf_eq (l : List U64) : xorOf l = xorAll l := rfl

/-- What `Verify` returns for a list of `L > 0` edges with endpoint functions `u`, `v`. -/
inductive Result (mask : U64) (u v : U64 → U64) (edges : List U64) : Bool × Option Err → Prop
  | tooBig : (∃ e ∈ edges, mask < e) → Result mask u v edges (false, some .tooBig)
  | notMatching : (∀ e ∈ edges, e ≤ mask) → ¬ (xorOf (edges.map u) = 0 ∧ xorOf (edges.map v) = 0) →
      Result mask u v edges (false, some .notMatching)
  | deadEnd : (∀ e ∈ edges, e ≤ mask) → (xorOf (edges.map u) = 0 ∧ xorOf (edges.map v) = 0) → DeadEnd u v edges →
      Result mask u v edges (false, some .deadEnd)
  | branch : (∀ e ∈ edges, e ≤ mask) → (xorOf (edges.map u) = 0 ∧ xorOf (edges.map v) = 0) → Branches u v edges →
      Result mask u v edges (false, some .branch)
  | shortCycle (T : Nat) : (∀ e ∈ edges, e ≤ mask) → (xorOf (edges.map u) = 0 ∧ xorOf (edges.map v) = 0) → Returns u v edges T →
      T ≠ edges.length → Result mask u v edges (false, some .shortCycle)
  | accept : (∀ e ∈ edges, e ≤ mask) → (xorOf (edges.map u) = 0 ∧ xorOf (edges.map v) = 0) → Returns u v edges edges.length →
      Result mask u v edges (true, none)

theorem or_eq_zero (a b : U64) : a ||| b = 0 ↔ a = 0 ∧ b = 0 := BitVec.or_eq_zero_iff

theorem run_exact (c : Client) (edges : List U64) (u v : U64 → U64) (body : Nat → Ends → Go (Step Ends Err))
    (hps : c.proofSize = edges.length) (hpos : 0 < edges.length)
    (hbody : ∀ j s (h : j < edges.length), s.uvs.length = 2 * edges.length → body j s =
      .ok (if edges[j] > c.edgeMask then .ret .tooBig else
      .cont ⟨(s.uvs.set (2 * j) (u edges[j])).set (2 * j + 1) (v edges[j]), s.xor0 ^^^ u edges[j], s.xor1 ^^^ v edges[j]⟩))
    {fuel : Nat} (hf : 2 * edges.length ≤ fuel) :
    ∃ r, (do
      match ← Go.forRangeE 0 c.proofSize.toNat { uvs := List.replicate (2 * c.proofSize.toNat) 0, xor0 := 0, xor1 := 0 } body with
      | .ret err => pure (false, some err)
      | .cont s => walk c fuel s : Go (Bool × Option Err)) = .ok r ∧ Result c.edgeMask u v edges r := by
  have hL : c.proofSize.toNat = edges.length := by omega
  rw [hL]
  have hrun := forRangeE_inv (f := body) (EndsInv c.edgeMask u v edges) (fun b => b = Err.tooBig ∧ ∃ e ∈ edges, c.edgeMask < e)
    0 edges.length { uvs := List.replicate (2 * edges.length) 0, xor0 := 0, xor1 := 0 } (by omega)
    ⟨by simp, by intros; omega, by simp [xorAll], by simp [xorAll]⟩ (by
      intro j s _ hj hI
      rw [hbody j s hj hI.1]
      by_cases hm : edges[j] > c.edgeMask
      · right
        exact ⟨.tooBig, by simp [hm], rfl, edges[j], List.getElem_mem _, hm⟩
      · left
        refine ⟨_, by rw [if_neg hm], inv_step hj hI (by simpa using hm)⟩)
  rcases hrun with ⟨s, hs, hI⟩ | ⟨b, hb, rfl, e, he, hme⟩
  · obtain ⟨h1, h2, h3, h4⟩ := hI
    have hall : ∀ e ∈ edges, e ≤ c.edgeMask := by
      intro e he
      obtain ⟨n, hn, rfl⟩ := List.getElem_of_mem he
      exact (h2 n hn _ (List.getElem?_eq_getElem hn)).1
    have hvals : at_ s.uvs = vals u v edges := by
      funext k
      unfold at_ vals
      rcases Nat.lt_or_ge (k / 2) edges.length with hk | hk
      · have := h2 (k / 2) hk _ (List.getElem?_eq_getElem hk)
        rw [List.getElem?_eq_getElem hk]
        rcases Nat.mod_two_eq_zero_or_one k with hm | hm
        · rw [show 2 * (k / 2) = k by omega] at this
          simp [hm, this.2.1]
        · rw [show 2 * (k / 2) + 1 = k by omega] at this
          simp [hm, this.2.2]
      · rw [List.getElem?_eq_none (by omega), List.getElem?_eq_none hk]; rfl
    rw [List.take_length] at h3 h4
    rw [hs, ok_bind]
    show ∃ r, walk c fuel s = .ok r ∧ _
    by_cases hx : s.xor0 ||| s.xor1 = 0
    · have hx' : xorOf (edges.map u) = 0 ∧ xorOf (edges.map v) = 0 := by
        rw [xorOf_eq, xorOf_eq, ← h3, ← h4]; exact (or_eq_zero _ _).mp hx
      have hw := walk_exact c s (by omega) (by omega) hx (fuel := fuel) (by omega)
      rw [hL, hvals] at hw
      rcases hw with ⟨T, hT, hr⟩ | ⟨t, e, ht, hbad, hr⟩
      · rw [← returns_iff u v edges hpos] at hT
        by_cases hTL : T = edges.length
        · rw [if_pos hTL] at hr
          rw [hTL] at hT
          exact ⟨_, hr, .accept hall hx' hT⟩
        · rw [if_neg hTL] at hr
          exact ⟨_, hr, .shortCycle T hall hx' hT hTL⟩
      · rcases hbad with ⟨rfl, k, k', hne, hk, hk'⟩ | ⟨rfl, hn⟩
        · exact ⟨_, hr, .branch hall hx' ((branches_iff u v edges hpos).mpr ⟨t, ht, k, k', hne, hk, hk'⟩)⟩
        · exact ⟨_, hr, .deadEnd hall hx' ((deadEnd_iff u v edges hpos).mpr ⟨t, ht, hn⟩)⟩
    · refine ⟨(false, some .notMatching), ?_, .notMatching hall ?_⟩
      · rw [walk, if_pos hx]; rfl
      · rw [xorOf_eq, xorOf_eq, ← h3, ← h4]
        exact fun h => hx ((or_eq_zero _ _).mpr h)
  · rw [hb]
    exact ⟨_, rfl, .tooBig ⟨e, he, hme⟩⟩

/-! ## only one of the cases applies -/

section
variable {E N : Type} (u v : E → N) (edges : List E) (hL : 0 < edges.length)
include hL

theorem deadEnd_not_branches (h : DeadEnd u v edges) (h' : Branches u v edges) : False := by
  obtain ⟨t, hr, hn⟩ := (deadEnd_iff u v edges hL).mp h
  obtain ⟨t', hr', k, k', hne, h1, h2⟩ := (branches_iff u v edges hL).mp h'
  have hb : Bad (vals u v edges) edges.length (pos (vals u v edges) edges.length t') .branch := Or.inl ⟨rfl, k, k', hne, h1, h2⟩
  have hd : Bad (vals u v edges) edges.length (pos (vals u v edges) edges.length t) .deadEnd := Or.inr ⟨rfl, hn⟩
  have := hr.stuck_unique hr' hd.stuck hb.stuck
  subst this
  exact hn k h1

theorem deadEnd_not_returns (T : Nat) (h : DeadEnd u v edges) (h' : Returns u v edges T) : False := by
  obtain ⟨t, hr, hn⟩ := (deadEnd_iff u v edges hL).mp h
  have hd : Bad (vals u v edges) edges.length (pos (vals u v edges) edges.length t) .deadEnd := Or.inr ⟨rfl, hn⟩
  exact ((returns_iff u v edges hL T).mp h').not_stuck hr hd.stuck

theorem branches_not_returns (T : Nat) (h : Branches u v edges) (h' : Returns u v edges T) : False := by
  obtain ⟨t', hr', k, k', hne, h1, h2⟩ := (branches_iff u v edges hL).mp h
  have hb : Bad (vals u v edges) edges.length (pos (vals u v edges) edges.length t') .branch := Or.inl ⟨rfl, k, k', hne, h1, h2⟩
  exact ((returns_iff u v edges hL T).mp h').not_stuck hr' hb.stuck

theorem returns_unique {T T' : Nat} (h : Returns u v edges T) (h' : Returns u v edges T') : T = T' :=
  ((returns_iff u v edges hL T).mp h).ret.unique ((returns_iff u v edges hL T').mp h').ret

theorem returns_component (T : Nat) : Returns u v edges T ↔ FirstOnCycle u v edges T :=
  (returns_iff u v edges hL T).trans (closed_iff_component u v edges T)

theorem returns_le {T : Nat} (h : Returns u v edges T) : T ≤ edges.length ∧ T % 2 = 0 ∧ 0 < T := by
  obtain ⟨cyc, rest, hl, hp, hc, _⟩ := (returns_component u v edges hL T).mp h
  have := hp.length_eq
  rw [List.length_append] at this
  exact ⟨by omega, by rw [← hl]; exact hc.even, by rw [← hl]; exact hc.pos⟩

end

/-- at most one result fits -/
theorem Result.unique {mask : U64} {u v : U64 → U64} {edges : List U64} (hL : 0 < edges.length) {r r' : Bool × Option Err}
    (h : Result mask u v edges r) (h' : Result mask u v edges r') : r = r' := by
  have big : (∃ e ∈ edges, mask < e) → (∀ e ∈ edges, e ≤ mask) → False := by
    rintro ⟨e, he, hlt⟩ hall
    have := hall e he
    rw [BitVec.le_def] at this
    rw [BitVec.lt_def] at hlt
    omega
  cases h with
  | tooBig hb => cases h' with
    | tooBig => rfl
    | notMatching h1 _ => exact (big hb h1).elim
    | deadEnd h1 _ _ => exact (big hb h1).elim
    | branch h1 _ _ => exact (big hb h1).elim
    | shortCycle _ h1 _ _ _ => exact (big hb h1).elim
    | accept h1 _ _ => exact (big hb h1).elim
  | notMatching ha hx => cases h' with
    | tooBig hb => exact (big hb ha).elim
    | notMatching _ _ => rfl
    | deadEnd _ h2 _ => exact (hx h2).elim
    | branch _ h2 _ => exact (hx h2).elim
    | shortCycle _ _ h2 _ _ => exact (hx h2).elim
    | accept _ h2 _ => exact (hx h2).elim
  | deadEnd ha hx hd => cases h' with
    | tooBig hb => exact (big hb ha).elim
    | notMatching _ h2 => exact (h2 hx).elim
    | deadEnd _ _ _ => rfl
    | branch _ _ h3 => exact (deadEnd_not_branches u v edges hL hd h3).elim
    | shortCycle _ _ _ h3 _ => exact (deadEnd_not_returns u v edges hL _ hd h3).elim
    | accept _ _ h3 => exact (deadEnd_not_returns u v edges hL _ hd h3).elim
  | branch ha hx hd => cases h' with
    | tooBig hb => exact (big hb ha).elim
    | notMatching _ h2 => exact (h2 hx).elim
    | deadEnd _ _ h3 => exact (deadEnd_not_branches u v edges hL h3 hd).elim
    | branch _ _ h3 => rfl
    | shortCycle _ _ _ h3 _ => exact (branches_not_returns u v edges hL _ hd h3).elim
    | accept _ _ h3 => exact (branches_not_returns u v edges hL _ hd h3).elim
  | shortCycle T ha hx hd hne => cases h' with
    | tooBig hb => exact (big hb ha).elim
    | notMatching _ h2 => exact (h2 hx).elim
    | deadEnd _ _ h3 => exact (deadEnd_not_returns u v edges hL _ h3 hd).elim
    | branch _ _ h3 => exact (branches_not_returns u v edges hL _ h3 hd).elim
    | shortCycle _ _ _ _ _ => rfl
    | accept _ _ h3 => exact (hne (returns_unique u v edges hL hd h3)).elim
  | accept ha hx hd => cases h' with
    | tooBig hb => exact (big hb ha).elim
    | notMatching _ h2 => exact (h2 hx).elim
    | deadEnd _ _ h3 => exact (deadEnd_not_returns u v edges hL _ h3 hd).elim
    | branch _ _ h3 => exact (branches_not_returns u v edges hL _ h3 hd).elim
    | shortCycle _ _ _ h3 hne => exact (hne (returns_unique u v edges hL h3 hd)).elim
    | accept _ _ _ => rfl

end Verif.Cuckoo
