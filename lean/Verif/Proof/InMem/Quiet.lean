import Verif.Proof.InMem.Equihash

/-! # Computations that make no array of unknown capacity -/

set_option autoImplicit false

namespace Verif.Go

variable {α β σ τ γ δ ρ κ : Type} {t : Ty}

/-- `m` uses up no spare bytes -/
def Quiet (m : Mem α) : Prop := ∀ h a h', m h = .ok (a, h') → h'.spare .byte = h.spare .byte

namespace Quiet

theorem pure (a : α) : Quiet (Pure.pure a : Mem α) := by
  intro h a' h' e
  obtain ⟨rfl, rfl⟩ := Prod.mk.inj (Except.ok.inj (show Except.ok (a, h) = Except.ok (a', h') from e))
  rfl

theorem bind {m : Mem α} {k : α → Mem β} (h1 : Quiet m) (h2 : ∀ a, Quiet (k a)) : Quiet (m >>= k) := by
  intro h b h' e
  have e : Mem.bind m k h = .ok (b, h') := e
  unfold Mem.bind at e
  cases hm : m h with
  | error x => rw [hm] at e; cases e
  | ok r =>
    obtain ⟨a, h''⟩ := r
    rw [hm] at e
    exact (h2 a h'' b h' e).trans (h1 h a h'' hm)

theorem lift (g : Go α) : Quiet (Mem.lift g) := by
  intro h a h' e
  cases g with
  | error x => cases e
  | ok b =>
    obtain ⟨rfl, rfl⟩ := Prod.mk.inj (Except.ok.inj (show Except.ok (b, h) = Except.ok (a, h') from e))
    rfl

theorem array (s : Slice t) : Quiet (Mem.array s) := by
  intro h a h' e
  unfold Mem.array at e
  cases hg : (h.store t)[s.arr]? with
  | none => rw [hg] at e; cases e
  | some b =>
    rw [hg] at e
    obtain ⟨rfl, rfl⟩ := Prod.mk.inj (Except.ok.inj (show Except.ok (b, h) = Except.ok (a, h') from e))
    rfl

theorem contents (s : Slice t) : Quiet (Mem.contents s) := bind (array s) fun _ => pure _

theorem idx (s : Slice t) (i : Nat) : Quiet (Mem.idx s i) := bind (contents s) fun _ => lift _

theorem getU32 (o : ByteOrder) (s : Slice .byte) : Quiet (Mem.getU32 o s) := bind (contents s) fun _ => lift _

theorem slc (s : Slice t) (lo hi : Nat) : Quiet (Mem.slc s lo hi) := by
  unfold Mem.slc
  by_cases hc : lo ≤ hi ∧ hi ≤ s.cap
  · rw [if_pos hc]; exact pure _
  · rw [if_neg hc]; exact lift _

theorem make (t : Ty) (k : Nat) : Quiet (Mem.make t k) := by
  intro h a h' e
  obtain ⟨rfl, rfl⟩ := Prod.mk.inj (Except.ok.inj (show Except.ok (_, _) = Except.ok (a, h') from e))
  rfl

theorem lit (t : Ty) (xs : List t.Val) : Quiet (Mem.lit t xs) := by
  intro h a h' e
  obtain ⟨rfl, rfl⟩ := Prod.mk.inj (Except.ok.inj (show Except.ok (_, _) = Except.ok (a, h') from e))
  rfl

theorem blit (s : Slice t) (i : Nat) (vs : List t.Val) : Quiet (Mem.blit s i vs) := by
  intro h a h' e
  obtain ⟨rfl, rfl⟩ := Prod.mk.inj (Except.ok.inj (show Except.ok (_, _) = Except.ok (a, h') from e))
  rfl

theorem ite {c : Prop} [Decidable c] {m m' : Mem α} (h1 : Quiet m) (h2 : Quiet m') : Quiet (if c then m else m') := by
  by_cases hc : c
  · rw [if_pos hc]; exact h1
  · rw [if_neg hc]; exact h2

theorem upd (s : Slice t) (i : Nat) (v : t.Val) : Quiet (Mem.upd s i v) := ite (blit _ _ _) (lift _)

theorem put32 (o : ByteOrder) (s : Slice .byte) (v : U32) : Quiet (Mem.put32 o s v) := ite (lift _) (blit _ _ _)

theorem putU32 (o : ByteOrder) (s : Slice .byte) (off : Nat) (v : U32) : Quiet (Mem.putU32 o s off v) := bind (slc _ _ _) fun _ => put32 _ _ _

theorem copy (s r : Slice t) : Quiet (Mem.copy s r) := bind (contents _) fun _ => blit _ _ _

theorem loop {f : Nat → σ → Mem σ} (hs : ∀ j a, Quiet (f j a)) : ∀ (k i : Nat) (a : σ), Quiet (Mem.loop k i a f)
  | 0, _, a => pure a
  | k + 1, i, a => bind (hs i a) fun a' => loop hs k (i + 1) a'

theorem forRange {f : Nat → σ → Mem σ} (lo hi : Nat) (a : σ) (hs : ∀ j a, Quiet (f j a)) : Quiet (Mem.forRange lo hi a f) := loop hs _ _ _

theorem each {f : Nat → Mem Unit} (lo hi : Nat) (hs : ∀ j, Quiet (f j)) : Quiet (Mem.each lo hi f) := forRange lo hi () fun j _ => hs j

end Quiet

/-- every array of bytes that functions outside the model will make has `w` spare bytes or more -/
def Wide (w : Nat) (h : Heap) : Prop := ∀ i, w ≤ (h.spare .byte i).length

theorem Wide.same {w : Nat} {h h' : Heap} (hw : Wide w h) (e : h'.spare .byte = h.spare .byte) : Wide w h' := by
  intro i
  rw [e]
  exact hw i

theorem Wide.shift {w : Nat} {h h' : Heap} (hw : Wide w h) (e : h'.spare .byte = fun i => h.spare .byte (i + 1)) : Wide w h' := by
  intro i
  rw [e]
  exact hw (i + 1)

/-- `m` does what `g` does, or a slice is out of range and some digest has fewer than `w` spare bytes -/
def Maybe (w : Nat) (m : Mem α) (h : Heap) (g : Go β) (Q : α → β → Heap → Prop) : Prop :=
  ∀ b, g = .ok b → (∃ a h', m h = .ok (a, h') ∧ Q a b h') ∨ (∃ h', m h = .error (.panic .slice, h') ∧ ¬ Wide w h)

variable {w : Nat}

theorem Mem.bind_error {m : Mem α} {k : α → Mem β} {h h' : Heap} {x : Stop} (hm : m h = .error (x, h')) : (m >>= k) h = .error (x, h') := by
  show Mem.bind m k h = _
  unfold Mem.bind
  rw [hm]
  rfl

theorem Maybe.bind {m : Mem α} {k : α → Mem γ} {h : Heap} {g : Go β} {l : β → Go δ} {Q : α → β → Heap → Prop} {R : γ → δ → Heap → Prop}
    (h1 : Maybe w m h g Q) (h2 : ∀ a b h', g = .ok b → Q a b h' → (Wide w h → Wide w h') ∧ Maybe w (k a) h' (l b) R) : Maybe w (m >>= k) h (g >>= l) R := by
  intro d hd
  cases hg : g with
  | error e => rw [hg] at hd; cases hd
  | ok b =>
    rw [hg] at hd
    rcases h1 b hg with ⟨a, h', e, q⟩ | ⟨h', e, n⟩
    · obtain ⟨kw, hk⟩ := h2 a b h' hg q
      rw [Mem.bind_ok e]
      rcases hk d hd with r | ⟨h'', e', n⟩
      · exact Or.inl r
      · exact Or.inr ⟨h'', e', fun hw => n (kw hw)⟩
    · exact Or.inr ⟨h', Mem.bind_error e, n⟩

theorem Maybe.pure {a : α} {b : β} {h : Heap} {Q : α → β → Heap → Prop} (hq : Q a b h) : Maybe w (Pure.pure a) h (.ok b) Q := by
  intro b' hb
  obtain rfl := Except.ok.inj hb
  exact Or.inl ⟨a, h, rfl, hq⟩

theorem Maybe.step {m : Mem α} {k : α → Mem γ} {h h' : Heap} {a : α} {g : Go β} {Q : γ → β → Heap → Prop} (hm : m h = .ok (a, h'))
    (hw : Wide w h → Wide w h') (hk : Maybe w (k a) h' g Q) : Maybe w (m >>= k) h g Q := by
  intro b hb
  rw [Mem.bind_ok hm]
  rcases hk b hb with r | ⟨h'', e', n⟩
  · exact Or.inl r
  · exact Or.inr ⟨h'', e', fun h => n (hw h)⟩

theorem Maybe.post {m : Mem α} {h : Heap} {g : Go β} {Q R : α → β → Heap → Prop} (hm : Maybe w m h g Q) (hq : ∀ a b h', g = .ok b → Q a b h' → R a b h') :
    Maybe w m h g R := by
  intro b hb
  rcases hm b hb with ⟨a, h', e, q⟩ | r
  · exact Or.inl ⟨a, h', e, hq a b h' hb q⟩
  · exact Or.inr r

theorem Runs.maybe {m : Mem α} {h : Heap} {g : Go β} {Q : α → β → Heap → Prop} (hm : Runs m h g Q) : Maybe w m h g Q := fun b hb => Or.inl (hm b hb)

/-- a quiet computation also keeps the spare bytes -/
theorem Runs.quiet {m : Mem α} {h : Heap} {g : Go β} {Q : α → β → Heap → Prop} (hm : Runs m h g Q) (hq : Quiet m) :
    Runs m h g fun a b h' => Q a b h' ∧ h'.spare .byte = h.spare .byte := by
  intro b hb
  obtain ⟨a, h', e, q⟩ := hm b hb
  exact ⟨a, h', e, q, hq h a h' e⟩

/-- a quiet computation and the rest -/
theorem Maybe.after {m : Mem α} {k : α → Mem γ} {h : Heap} {g : Go β} {l : β → Go δ} {Q : α → β → Heap → Prop} {R : γ → δ → Heap → Prop} (h1 : Runs m h g Q)
    (hq : Quiet m) (h2 : ∀ a b h', g = .ok b → h'.spare .byte = h.spare .byte → Q a b h' → Maybe w (k a) h' (l b) R) : Maybe w (m >>= k) h (g >>= l) R :=
  Maybe.bind (h1.quiet hq).maybe fun a b h' e q => ⟨fun hw => hw.same q.2, h2 a b h' e q.2 q.1⟩

/-- a computation that changes nothing -/
theorem Maybe.val {m : Mem α} {k : α → Mem γ} {h : Heap} {g : Go α} {l : α → Go δ} {Q : γ → δ → Heap → Prop}
    (hm : Runs m h g fun a b h' => a = b ∧ h' = h) (hk : ∀ a, g = .ok a → Maybe w (k a) h (l a) Q) : Maybe w (m >>= k) h (g >>= l) Q :=
  Maybe.bind hm.maybe fun a b h' e q => by
    obtain ⟨rfl, rfl⟩ := q
    exact ⟨id, hk a e⟩

/-- the rest does not need the spare bytes -/
theorem Maybe.then {m : Mem α} {k : α → Mem γ} {h : Heap} {g : Go β} {l : β → Go δ} {Q : α → β → Heap → Prop} {R : γ → δ → Heap → Prop}
    (h1 : Maybe w m h g Q) (h2 : ∀ a b h', g = .ok b → Q a b h' → Runs (k a) h' (l b) R) : Maybe w (m >>= k) h (g >>= l) R := by
  intro d hd
  cases hg : g with
  | error e => rw [hg] at hd; cases hd
  | ok b =>
    rw [hg] at hd
    rcases h1 b hg with ⟨a, h', e, q⟩ | ⟨h', e, n⟩
    · rw [Mem.bind_ok e]
      exact Or.inl (h2 a b h' hg q d hd)
    · exact Or.inr ⟨h', Mem.bind_error e, n⟩

theorem maybe_loopE {f : Nat → σ → Mem (Step σ ρ)} {g : Nat → τ → Go (Step τ κ)} (I : σ → τ → Heap → Prop) (R : ρ → κ → Heap → Prop) :
    ∀ (n i : Nat) (a : σ) (b : τ) (h : Heap), I a b h →
      (∀ j a b h, i ≤ j → j < i + n → I a b h → Maybe w (f j a) h (g j b) fun x y h' => (Wide w h → Wide w h') ∧ Related I R x y h') →
      Maybe w (Mem.loopE n i a f) h (Go.loopE n i b g) (Related I R)
  | 0, _, _, _, _, h0, _ => Maybe.pure h0
  | n + 1, i, a, b, h, h0, hs => by
    unfold Mem.loopE Go.loopE
    refine Maybe.bind (hs i a b h (Nat.le_refl _) (by omega) h0) fun x y h' _ q => ⟨q.1, ?_⟩
    have q := q.2
    cases x with
    | cont a' =>
      cases y with
      | cont b' => exact maybe_loopE I R n (i + 1) a' b' h' q fun j a b h h1 h2 hi => hs j a b h (by omega) (by omega) hi
      | ret b' => exact q.elim
    | ret a' =>
      cases y with
      | cont b' => exact q.elim
      | ret b' => exact Maybe.pure q

end Verif.Go
