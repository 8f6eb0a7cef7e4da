import Verif.Proof.Heap
import Verif.Spec.Memory

/-! # Computations that write to their own arrays only, whatever they read -/

set_option autoImplicit false

namespace Verif.Go

variable {α β σ τ : Type} {t : Ty}

/-- Whether `m` returns or stops, the arrays below `n` are as they were; `Q` is known about the result. Nothing is assumed about the slices in use: they
need not even exist. -/
structure Spares (n : Ty → Nat) (m : Mem α) (Q : α → Prop) : Prop where
  out : ∀ h a h', (∀ t, n t ≤ (h.store t).length) → m h = .ok (a, h') →
    (∀ t, n t ≤ (h'.store t).length) ∧ (∀ t i, i < n t → (h'.store t)[i]? = (h.store t)[i]?) ∧ Q a
  stop : ∀ h p h', (∀ t, n t ≤ (h.store t).length) → m h = .error (p, h') →
    (∀ t, n t ≤ (h'.store t).length) ∧ (∀ t i, i < n t → (h'.store t)[i]? = (h.store t)[i]?)

namespace Spares

variable {n : Ty → Nat}

theorem pure {a : α} {Q : α → Prop} (hq : Q a) : Spares n (Pure.pure a : Mem α) Q := by
  refine ⟨fun h a' h' hn e => ?_, fun h p h' hn e => by cases e⟩
  obtain ⟨rfl, rfl⟩ := Prod.mk.inj (Except.ok.inj (show Except.ok (a, h) = Except.ok (a', h') from e))
  exact ⟨hn, fun _ _ _ => rfl, hq⟩

theorem bind {m : Mem α} {k : α → Mem β} {Q : α → Prop} {R : β → Prop} (h1 : Spares n m Q) (h2 : ∀ a, Q a → Spares n (k a) R) : Spares n (m >>= k) R := by
  constructor
  · intro h b h' hn e
    have e : Mem.bind m k h = .ok (b, h') := e
    unfold Mem.bind at e
    cases hm : m h with
    | error x => rw [hm] at e; cases e
    | ok r =>
      obtain ⟨a, h''⟩ := r
      rw [hm] at e
      obtain ⟨n1, k1, q1⟩ := h1.out h a h'' hn hm
      obtain ⟨n2, k2, q2⟩ := (h2 a q1).out h'' b h' n1 e
      exact ⟨n2, fun t i hi => (k2 t i hi).trans (k1 t i hi), q2⟩
  · intro h p h' hn e
    have e : Mem.bind m k h = .error (p, h') := e
    unfold Mem.bind at e
    cases hm : m h with
    | error x =>
      rw [hm] at e
      obtain rfl := Except.error.inj (show Except.error x = Except.error (p, h') from e)
      exact h1.stop h p h' hn hm
    | ok r =>
      obtain ⟨a, h''⟩ := r
      rw [hm] at e
      obtain ⟨n1, k1, q1⟩ := h1.out h a h'' hn hm
      obtain ⟨n2, k2⟩ := (h2 a q1).stop h'' p h' n1 e
      exact ⟨n2, fun t i hi => (k2 t i hi).trans (k1 t i hi)⟩

theorem post {m : Mem α} {Q R : α → Prop} (h1 : Spares n m Q) (hq : ∀ a, Q a → R a) : Spares n m R := by
  refine ⟨fun h a h' hn e => ?_, h1.stop⟩
  obtain ⟨n1, k1, q1⟩ := h1.out h a h' hn e
  exact ⟨n1, k1, hq a q1⟩

theorem lift {g : Go α} : Spares n (Mem.lift g) fun a => g = .ok a := by
  cases g with
  | error x =>
    refine ⟨fun h a h' hn e => (by cases e), fun h p h' hn e => ?_⟩
    obtain ⟨rfl, rfl⟩ := Prod.mk.inj (Except.error.inj (show Except.error (x, h) = Except.error (p, h') from e))
    exact ⟨hn, fun _ _ _ => rfl⟩
  | ok b =>
    refine ⟨fun h a h' hn e => ?_, fun h p h' hn e => by cases e⟩
    obtain ⟨rfl, rfl⟩ := Prod.mk.inj (Except.ok.inj (show Except.ok (b, h) = Except.ok (a, h') from e))
    exact ⟨hn, fun _ _ _ => rfl, rfl⟩

theorem array (s : Slice t) : Spares n (Mem.array s) fun _ => True := by
  refine ⟨fun h a h' hn e => ?_, fun h p h' hn e => ?_⟩
  · unfold Mem.array at e
    cases hg : (h.store t)[s.arr]? with
    | none => rw [hg] at e; cases e
    | some b =>
      rw [hg] at e
      obtain ⟨rfl, rfl⟩ := Prod.mk.inj (Except.ok.inj (show Except.ok (b, h) = Except.ok (a, h') from e))
      exact ⟨hn, fun _ _ _ => rfl, trivial⟩
  · unfold Mem.array at e
    cases hg : (h.store t)[s.arr]? with
    | none =>
      rw [hg] at e
      obtain ⟨rfl, rfl⟩ := Prod.mk.inj (Except.error.inj (show Except.error (_, h) = Except.error (p, h') from e))
      exact ⟨hn, fun _ _ _ => rfl⟩
    | some b => rw [hg] at e; cases e

theorem contents (s : Slice t) : Spares n (Mem.contents s) fun _ => True := bind (array s) fun _ _ => pure trivial

theorem idx (s : Slice t) (i : Nat) : Spares n (Mem.idx s i) fun _ => True := bind (contents s) fun _ _ => post lift fun _ _ => trivial

theorem getU32 (o : ByteOrder) (s : Slice .byte) : Spares n (Mem.getU32 o s) fun _ => True := bind (contents s) fun _ _ => post lift fun _ _ => trivial

theorem getU64 (o : ByteOrder) (s : Slice .byte) : Spares n (Mem.getU64 o s) fun _ => True := bind (contents s) fun _ _ => post lift fun _ _ => trivial

theorem slc (s : Slice t) (lo hi : Nat) : Spares n (Mem.slc s lo hi) fun r => r.arr = s.arr := by
  unfold Mem.slc
  by_cases hc : lo ≤ hi ∧ hi ≤ s.cap
  · rw [if_pos hc]; exact pure rfl
  · rw [if_neg hc]
    exact post lift fun _ h => by cases h

theorem add_keeps {h : Heap} (hn : ∀ t, n t ≤ (h.store t).length) (t : Ty) (a : List t.Val) :
    (∀ u, n u ≤ ((h.add t a).store u).length) ∧ ∀ u i, i < n u → ((h.add t a).store u)[i]? = (h.store u)[i]? := by
  constructor
  · intro u
    exact Nat.le_trans (hn u) ((frame_add h t a).length u)
  · intro u i hi
    have hi : i < (h.store u).length := Nat.lt_of_lt_of_le hi (hn u)
    by_cases hu : u = t
    · subst hu
      rw [store_add, List.getElem?_append_left hi]
    · rw [store_add_ne _ _ _ _ hu]

theorem make (t : Ty) (k : Nat) : Spares n (Mem.make t k) fun s => n t ≤ s.arr := by
  refine ⟨fun h a h' hn e => ?_, fun h p h' hn e => by cases e⟩
  obtain ⟨rfl, rfl⟩ := Prod.mk.inj (Except.ok.inj (show Except.ok (_, _) = Except.ok (a, h') from e))
  exact ⟨(add_keeps hn t _).1, (add_keeps hn t _).2, hn t⟩

theorem makeCap (t : Ty) (k c : Nat) : Spares n (Mem.makeCap t k c) fun s => n t ≤ s.arr := by
  refine ⟨fun h a h' hn e => ?_, fun h p h' hn e => by cases e⟩
  obtain ⟨rfl, rfl⟩ := Prod.mk.inj (Except.ok.inj (show Except.ok (_, _) = Except.ok (a, h') from e))
  exact ⟨(add_keeps hn t _).1, (add_keeps hn t _).2, hn t⟩

theorem fresh (t : Ty) (xs : List t.Val) : Spares n (Mem.fresh t xs) fun s => n t ≤ s.arr := by
  refine ⟨fun h a h' hn e => ?_, fun h p h' hn e => by cases e⟩
  obtain ⟨rfl, rfl⟩ := Prod.mk.inj (Except.ok.inj (show Except.ok (_, _) = Except.ok (a, h') from e))
  exact ⟨(add_keeps hn t _).1, (add_keeps hn t _).2, hn t⟩

theorem lit (t : Ty) (xs : List t.Val) : Spares n (Mem.lit t xs) fun s => n t ≤ s.arr := by
  refine ⟨fun h a h' hn e => ?_, fun h p h' hn e => by cases e⟩
  obtain ⟨rfl, rfl⟩ := Prod.mk.inj (Except.ok.inj (show Except.ok (_, _) = Except.ok (a, h') from e))
  exact ⟨(add_keeps hn t _).1, (add_keeps hn t _).2, hn t⟩

theorem blit {s : Slice t} (hs : n t ≤ s.arr) (i : Nat) (vs : List t.Val) : Spares n (Mem.blit s i vs) fun _ => True := by
  refine ⟨fun h a h' hn e => ?_, fun h p h' hn e => by cases e⟩
  obtain ⟨rfl, rfl⟩ := Prod.mk.inj (Except.ok.inj (show Except.ok (_, _) = Except.ok (a, h') from e))
  refine ⟨fun u => ?_, fun u j hj => ?_, trivial⟩
  · by_cases hu : u = t
    · subst hu
      rw [store_poke, List.length_modify]
      exact hn u
    · rw [store_poke_ne _ _ _ _ _ _ hu]
      exact hn u
  · by_cases hu : u = t
    · subst hu
      rw [store_poke, List.getElem?_modify]
      simp only [show ¬ s.arr = j by omega, if_false]
      simp
    · rw [store_poke_ne _ _ _ _ _ _ hu]

theorem upd {s : Slice t} (hs : n t ≤ s.arr ∨ s.len = 0) (i : Nat) (v : t.Val) : Spares n (Mem.upd s i v) fun _ => True := by
  unfold Mem.upd
  by_cases hc : i < s.len
  · rw [if_pos hc]
    exact blit (by omega) i [v]
  · rw [if_neg hc]
    exact post lift fun _ h => trivial

theorem put32 {s : Slice .byte} (hs : n .byte ≤ s.arr) (o : ByteOrder) (v : U32) : Spares n (Mem.put32 o s v) fun _ => True := by
  unfold Mem.put32
  by_cases hc : s.len < 4
  · rw [if_pos hc]; exact post lift fun _ h => trivial
  · rw [if_neg hc]; exact blit hs _ _

theorem put64 {s : Slice .byte} (hs : n .byte ≤ s.arr) (o : ByteOrder) (v : U64) : Spares n (Mem.put64 o s v) fun _ => True := by
  unfold Mem.put64
  by_cases hc : s.len < 8
  · rw [if_pos hc]; exact post lift fun _ h => trivial
  · rw [if_neg hc]; exact blit hs _ _

theorem putU32 {s : Slice .byte} (hs : n .byte ≤ s.arr) (o : ByteOrder) (off : Nat) (v : U32) : Spares n (Mem.putU32 o s off v) fun _ => True :=
  bind (slc s off s.len) fun r hr => put32 (by rw [hr]; exact hs) o v

theorem putU64 {s : Slice .byte} (hs : n .byte ≤ s.arr) (o : ByteOrder) (off : Nat) (v : U64) : Spares n (Mem.putU64 o s off v) fun _ => True :=
  bind (slc s off s.len) fun r hr => put64 (by rw [hr]; exact hs) o v

theorem copy {s : Slice t} (hs : n t ≤ s.arr) (r : Slice t) : Spares n (Mem.copy s r) fun _ => True :=
  bind (contents r) fun _ _ => blit hs _ _

theorem copyAt {s : Slice t} (hs : n t ≤ s.arr) (off : Nat) (r : Slice t) : Spares n (Mem.copyAt s off r) fun _ => True :=
  bind (slc s off s.len) fun d hd => copy (by rw [hd]; exact hs) r

theorem append {s : Slice t} (hs : n t ≤ s.arr) (r : Slice t) : Spares n (Mem.append s r) fun q => n t ≤ q.arr := by
  refine bind (contents r) fun xs _ => ?_
  by_cases hc : s.len + xs.length ≤ s.cap
  · rw [if_pos hc]
    exact bind (blit hs _ _) fun _ _ => pure hs
  · rw [if_neg hc]
    exact bind (contents s) fun _ _ => fresh t _

theorem loop {f : Nat → σ → Mem σ} (I : σ → Prop) : ∀ (k i : Nat) (a : σ), I a → (∀ j a, I a → Spares n (f j a) I) → Spares n (Mem.loop k i a f) I
  | 0, _, _, h0, _ => pure h0
  | k + 1, i, a, h0, hs => bind (hs i a h0) fun a' h' => loop I k (i + 1) a' h' hs

theorem forRange {f : Nat → σ → Mem σ} (I : σ → Prop) (lo hi : Nat) (a : σ) (h0 : I a) (hs : ∀ j a, I a → Spares n (f j a) I) :
    Spares n (Mem.forRange lo hi a f) I := loop I _ _ a h0 hs

/-- a loop over values -/
theorem values {f : Nat → σ → Mem σ} (lo hi : Nat) (a : σ) (hs : ∀ j a, Spares n (f j a) fun _ => True) : Spares n (Mem.forRange lo hi a f) fun _ => True :=
  forRange (fun _ => True) lo hi a trivial fun j a _ => hs j a

theorem each {f : Nat → Mem Unit} (lo hi : Nat) (hs : ∀ j, Spares n (f j) fun _ => True) : Spares n (Mem.each lo hi f) fun _ => True :=
  values lo hi () fun j _ => hs j

/-- what is known about a step -/
def ofStep (I : σ → Prop) (R : β → Prop) : Step σ β → Prop
  | .cont a => I a
  | .ret b => R b

theorem loopE {f : Nat → σ → Mem (Step σ β)} (I : σ → Prop) (R : β → Prop) : ∀ (k i : Nat) (a : σ), I a →
    (∀ j a, I a → Spares n (f j a) (ofStep I R)) → Spares n (Mem.loopE k i a f) (ofStep I R)
  | 0, _, _, h0, _ => pure h0
  | k + 1, i, a, h0, hs => by
    unfold Mem.loopE
    refine bind (hs i a h0) fun x hx => ?_
    cases x with
    | cont a' => exact loopE I R k (i + 1) a' hx hs
    | ret b => exact pure hx

theorem forRangeE {f : Nat → σ → Mem (Step σ β)} (I : σ → Prop) (R : β → Prop) (lo hi : Nat) (a : σ) (h0 : I a)
    (hs : ∀ j a, I a → Spares n (f j a) (ofStep I R)) : Spares n (Mem.forRangeE lo hi a f) (ofStep I R) := loopE I R _ _ a h0 hs

theorem forever {f : σ → Mem (Step σ β)} (I : σ → Prop) (R : β → Prop) (hs : ∀ a, I a → Spares n (f a) (ofStep I R)) :
    ∀ (k : Nat) (a : σ), I a → Spares n (Mem.forever k a f) R
  | 0, _, _ => post lift fun _ h => by cases h
  | k + 1, a, h0 => by
    unfold Mem.forever
    refine bind (hs a h0) fun x hx => ?_
    cases x with
    | cont a' => exact forever I R hs k a' hx
    | ret b => exact pure hx

theorem ite {c : Prop} [Decidable c] {m m' : Mem α} {Q : α → Prop} (h1 : Spares n m Q) (h2 : Spares n m' Q) : Spares n (if c then m else m') Q := by
  by_cases hc : c
  · rw [if_pos hc]; exact h1
  · rw [if_neg hc]; exact h2

/-- for all bounds: isolation -/
theorem isolated {m : Mem α} {Q : (Ty → Nat) → α → Prop} (hm : ∀ n, Spares n m (Q n)) : Isolated m fun h a => Q (fun t => (h.store t).length) a := by
  refine ⟨fun h a h' e => ?_, fun h p h' e t i x hx => ?_⟩
  · obtain ⟨_, k, q⟩ := (hm fun t => (h.store t).length).out h a h' (fun _ => Nat.le_refl _) e
    refine ⟨fun t i x hx => ?_, q⟩
    rw [k t i (List.getElem?_eq_some_iff.1 hx).1, hx]
  · obtain ⟨_, k⟩ := (hm fun t => (h.store t).length).stop h p h' (fun _ => Nat.le_refl _) e
    rw [k t i (List.getElem?_eq_some_iff.1 hx).1, hx]

theorem of_isolated {m : Mem α} {F : Heap → α → Prop} (hm : Isolated m F) : Spares n m fun _ => True := by
  have key : ∀ h h', (∀ t, n t ≤ (h.store t).length) → Untouched h h' →
      (∀ t, n t ≤ (h'.store t).length) ∧ (∀ t i, i < n t → (h'.store t)[i]? = (h.store t)[i]?) := by
    intro h h' hn u
    refine ⟨fun t => ?_, fun t i hi => ?_⟩
    · by_contra hc
      have hi : (h'.store t).length < (h.store t).length := Nat.lt_of_lt_of_le (by omega) (hn t)
      have := u t _ _ (List.getElem?_eq_getElem hi)
      rw [List.getElem?_eq_none (Nat.le_refl _)] at this
      cases this
    · have hi : i < (h.store t).length := Nat.lt_of_lt_of_le hi (hn t)
      rw [List.getElem?_eq_getElem hi]
      exact u t i _ (List.getElem?_eq_getElem hi)
  refine ⟨fun h a h' hn e => ?_, fun h p h' hn e => key h h' hn (hm.2 h p h' e)⟩
  obtain ⟨k1, k2⟩ := key h h' hn (hm.1 h a h' e).1
  exact ⟨k1, k2, trivial⟩

end Spares

/-! ## A tactic -/

/-- conditions on slices -/
syntax "spares_side" : tactic
macro_rules | `(tactic| spares_side) => `(tactic| first | assumption | exact trivial | omega | exact Or.inl (by omega) | (intros; trivial))

/-- rules that end a goal; more are added for the functions of the models -/
syntax "spares_rule" : tactic
macro_rules | `(tactic| spares_rule) => `(tactic| with_reducible first
  | exact Spares.lift | exact Spares.contents _ | exact Spares.idx _ _ | exact Spares.getU32 _ _ | exact Spares.getU64 _ _ | exact Spares.slc _ _ _
  | exact Spares.make _ _ | exact Spares.makeCap _ _ _ | exact Spares.fresh _ _ | exact Spares.lit _ _
  | (refine Spares.blit ?_ _ _; spares_side) | (refine Spares.upd ?_ _ _; spares_side)
  | (refine Spares.put32 ?_ _ _; spares_side) | (refine Spares.put64 ?_ _ _; spares_side)
  | (refine Spares.putU32 ?_ _ _ _; spares_side) | (refine Spares.putU64 ?_ _ _ _; spares_side)
  | (refine Spares.copy ?_ _; spares_side) | (refine Spares.copyAt ?_ _ _; spares_side) | (refine Spares.append ?_ _; spares_side))

syntax "spares_step" : tactic
macro_rules | `(tactic| spares_step) => `(tactic| with_reducible first
  | spares_rule
  | (refine Spares.post (by spares_rule) ?_; intros; spares_side)
  | (refine Spares.pure ?_; spares_side)
  | refine Spares.each _ _ ?_
  | refine Spares.values _ _ _ ?_
  | refine Spares.ite ?_ ?_
  | apply Spares.bind
  | (intro a ha; try dsimp only at ha)
  | intro a
  | spares_side
  | split)

syntax "spares" : tactic
macro_rules | `(tactic| spares) => `(tactic| repeat' spares_step)

end Verif.Go
