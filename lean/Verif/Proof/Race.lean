import Verif.Model.Race
import Verif.Proof.Mutex

/-! # No data races -/

set_option autoImplicit false

namespace Verif.Race

open Go Dag Spec.Mem
open Manager (Mgr Thread Once evictStep delete put takeCache startFuture preGenerate Grown)
open Mutex (Holder Phase)

/-! ## what happens before the next operation of somebody -/

section
variable {L : Type}

theorem get_app {tr l : Trace L} {p : Nat} {x : Gid × Event L} (h : tr[p]? = some x) : (tr ++ l)[p]? = some x := by
  have hp : p < tr.length := by
    by_contra hc
    rw [List.getElem?_eq_none (by omega)] at h
    cases h
  rw [List.getElem?_append_left hp]
  exact h

theorem get_last (tr : Trace L) (x : Gid × Event L) (l : Trace L) : (tr ++ x :: l)[tr.length]? = some x := by simp

theorem get_lt {tr : Trace L} {p : Nat} {x : Gid × Event L} (h : tr[p]? = some x) : p < tr.length := by
  by_contra hc
  rw [List.getElem?_eq_none (by omega)] at h
  cases h

theorem get_snoc {tr : Trace L} {p : Nat} {x y : Gid × Event L} (h : (tr ++ [y])[p]? = some x) :
    tr[p]? = some x ∨ p = tr.length ∧ x = y := by
  by_cases hp : p < tr.length
  · rw [List.getElem?_append_left hp] at h
    exact Or.inl h
  · right
    have hlt := get_lt h
    rw [List.length_append, List.length_singleton] at hlt
    have he : p = tr.length := by omega
    subst he
    rw [get_last] at h
    exact ⟨rfl, (Option.some.inj h).symm⟩

theorem hb_mono {tr l : Trace L} {p q : Nat} (h : HB tr p q) : HB (tr ++ l) p q := by
  induction h with
  | program hl h1 h2 => exact .program hl (get_app h1) (get_app h2)
  | mutex hl h1 h2 => exact .mutex hl (get_app h1) (get_app h2)
  | go hl h1 h2 => exact .go hl (get_app h1) (get_app h2)
  | once hl h1 h2 => exact .once hl (get_app h1) (get_app h2)
  | finalizer hl h1 h2 => exact .finalizer hl (get_app h1) (get_app h2)
  | trans _ _ ih1 ih2 => exact .trans ih1 ih2

/-- `p` is `j` or happens before it -/
def Upto (tr : Trace L) (p j : Nat) : Prop := p = j ∨ HB tr p j

theorem Upto.mono {tr : Trace L} (l : Trace L) {p j : Nat} (h : Upto tr p j) : Upto (tr ++ l) p j :=
  h.imp id hb_mono

theorem Upto.hb {tr : Trace L} {p j q : Nat} (h : Upto tr p j) (h' : HB tr j q) : HB tr p q := by
  rcases h with rfl | h
  · exact h'
  · exact .trans h h'

/-- `p` happens before the next operation of the goroutine `g` -/
def KnownG (tr : Trace L) (g p : Nat) : Prop :=
  ∃ j, Upto tr p j ∧ ((∃ e, tr[j]? = some (.user g, e)) ∨ ∃ g', tr[j]? = some (g', .go g))

/-- `p` happens before the next lock of the mutex -/
def KnownM (tr : Trace L) (p : Nat) : Prop := ∃ j g, Upto tr p j ∧ tr[j]? = some (g, .unlock)

/-- `p` happens before the next return of `Do` of the `sync.Once` number `o` -/
def KnownO (tr : Trace L) (o p : Nat) : Prop := ∃ j g, Upto tr p j ∧ tr[j]? = some (g, .onceEnd o)

theorem KnownG.mono {tr : Trace L} (l : Trace L) {g p : Nat} (h : KnownG tr g p) : KnownG (tr ++ l) g p := by
  obtain ⟨j, h1, h2⟩ := h
  refine ⟨j, h1.mono l, ?_⟩
  rcases h2 with ⟨e, h2⟩ | ⟨g', h2⟩
  · exact Or.inl ⟨e, get_app h2⟩
  · exact Or.inr ⟨g', get_app h2⟩

theorem KnownM.mono {tr : Trace L} (l : Trace L) {p : Nat} (h : KnownM tr p) : KnownM (tr ++ l) p := by
  obtain ⟨j, g, h1, h2⟩ := h
  exact ⟨j, g, h1.mono l, get_app h2⟩

theorem KnownO.mono {tr : Trace L} (l : Trace L) {o p : Nat} (h : KnownO tr o p) : KnownO (tr ++ l) o p := by
  obtain ⟨j, g, h1, h2⟩ := h
  exact ⟨j, g, h1.mono l, get_app h2⟩

theorem KnownG.hb {tr : Trace L} {g p : Nat} (h : KnownG tr g p) (e : Event L) (l : Trace L) :
    HB (tr ++ (.user g, e) :: l) p tr.length := by
  obtain ⟨j, h1, h2⟩ := h
  refine (h1.mono _).hb ?_
  rcases h2 with ⟨e', h2⟩ | ⟨g', h2⟩
  · exact .program (get_lt h2) (get_app h2) (get_last _ _ _)
  · exact .go (get_lt h2) (get_app h2) (get_last _ _ _)

theorem KnownM.hb {tr : Trace L} {p : Nat} (h : KnownM tr p) (g : Gid) (l : Trace L) : HB (tr ++ (g, .lock) :: l) p tr.length := by
  obtain ⟨j, g', h1, h2⟩ := h
  exact (h1.mono _).hb (.mutex (get_lt h2) (get_app h2) (get_last _ _ _))

theorem KnownO.hb {tr : Trace L} {o p : Nat} (h : KnownO tr o p) (g : Gid) (l : Trace L) :
    HB (tr ++ (g, .onceReturn o) :: l) p tr.length := by
  obtain ⟨j, g', h1, h2⟩ := h
  exact (h1.mono _).hb (.once (get_lt h2) (get_app h2) (get_last _ _ _))

theorem knownG_self (tr : Trace L) (g : Nat) (e : Event L) : KnownG (tr ++ [(.user g, e)]) g tr.length :=
  ⟨tr.length, Or.inl rfl, Or.inl ⟨e, get_last _ _ _⟩⟩

theorem KnownM.lock {tr : Trace L} {p : Nat} (h : KnownM tr p) (g : Nat) : KnownG (tr ++ [(.user g, .lock)]) g p :=
  ⟨tr.length, Or.inr (h.hb _ _), Or.inl ⟨_, get_last _ _ _⟩⟩

theorem KnownG.unlock {tr : Trace L} {g p : Nat} (h : KnownG tr g p) : KnownM (tr ++ [(.user g, .unlock)]) p :=
  ⟨tr.length, _, Or.inr (h.hb _ _), get_last _ _ _⟩

theorem KnownG.go {tr : Trace L} {g p : Nat} (h : KnownG tr g p) (c : Nat) : KnownG (tr ++ [(.user g, .go c)]) c p :=
  ⟨tr.length, Or.inr (h.hb _ _), Or.inr ⟨_, get_last _ _ _⟩⟩

theorem KnownG.onceEnd {tr : Trace L} {g p : Nat} (h : KnownG tr g p) (o : Nat) : KnownO (tr ++ [(.user g, .onceEnd o)]) o p :=
  ⟨tr.length, _, Or.inr (h.hb _ _), get_last _ _ _⟩

theorem KnownO.onceReturn {tr : Trace L} {o p : Nat} (h : KnownO tr o p) (g : Nat) : KnownG (tr ++ [(.user g, .onceReturn o)]) g p :=
  ⟨tr.length, Or.inr (h.hb _ _), Or.inl ⟨_, get_last _ _ _⟩⟩

end

/-! ## the invariant -/

/-- the position is an access of the program -/
def IsAcc (tr : Trace Loc) (p : Nat) (l : Loc) (w : Bool) : Prop := ∃ g, tr[p]? = some (.user g, .access l w)

theorem IsAcc.snoc {tr : Trace Loc} {p : Nat} {l : Loc} {w : Bool} {y : Gid × Event Loc} (h : IsAcc (tr ++ [y]) p l w) :
    IsAcc tr p l w ∨ p = tr.length ∧ ∃ g, y = (.user g, .access l w) := by
  obtain ⟨g, h⟩ := h
  rcases get_snoc h with h | ⟨hp, h⟩
  · exact Or.inl ⟨g, h⟩
  · exact Or.inr ⟨hp, g, h.symm⟩

/-- the location exists -/
def Below (n : Nat) : Loc → Prop
  | .map => True
  | .future => True
  | .epoch i => i < n
  | .used i => i < n
  | .data i => i < n

/-- the accesses that the mutex protects -/
def Guard (m : Mgr) : Loc → Bool → Prop
  | .map, _ => True
  | .future, _ => True
  | .used _, _ => True
  | .epoch _, w => w = true
  | .data i, _ => (m.heap i).once = .idle

/-- the initialisation of a cache that nobody generates yet -/
def Initial (m : Mgr) (i : Nat) (l : Loc) (w : Bool) : Prop := l = .epoch i ∧ w = true ∨ l = .data i ∧ (m.heap i).once = .idle

theorem Initial.guard {m : Mgr} {i : Nat} {l : Loc} {w : Bool} (h : Initial m i l w) : Guard m l w := by
  rcases h with ⟨rfl, h⟩ | ⟨rfl, h⟩
  · exact h
  · exact h

/-- the goroutine has the cache -/
def Has (th : Thread) (i : Nat) : Prop := ∃ r, th = .waiting r i ∨ th = .filling r i ∨ th = .ended r i

/-- the caches that a phase refers to exist -/
def PhaseOk (n : Nat) : Phase → Prop
  | .look => True
  | .evict rest best => (∀ x ∈ rest, x.2 < n) ∧ ∀ v, best = some v → v < n
  | .take => True
  | .store c => c < n
  | .ahead c => c < n
  | .spawn c f => c < n ∧ f < n
  | .use c => c < n
  | .unlock c => c < n

/-- `p` happens before the next operation under the mutex -/
def KnownL (s : State) (p : Nat) : Prop :=
  match s.proc.holder with
  | some h => KnownG s.trace h.thread p
  | none => s.proc.base.stuck = false → KnownM s.trace p

structure Inv (s : State) : Prop where
  below : ∀ p l w, IsAcc s.trace p l w → Below s.proc.base.mgr.fresh l
  caches : ∀ x ∈ s.proc.base.mgr.caches, x.2 < s.proc.base.mgr.fresh
  future : ∀ f, s.proc.base.mgr.future = some f → f < s.proc.base.mgr.fresh
  refs : ∀ (t : Nat) th i, s.proc.base.threads[t]? = some th → Has th i → i < s.proc.base.mgr.fresh
  phase : ∀ h, s.proc.holder = some h → PhaseOk s.proc.base.mgr.fresh h.phase
  guarded : ∀ p l w, IsAcc s.trace p l w → Guard s.proc.base.mgr l w → KnownL s p
  initial : ∀ p l w (t : Nat) th i, IsAcc s.trace p l w → s.proc.base.threads[t]? = some th → Has th i → Initial s.proc.base.mgr i l w →
    KnownG s.trace t p
  running : ∀ (t : Nat) r i, s.proc.base.threads[t]? = some (.filling r i) → (s.proc.base.mgr.heap i).once = .running
  single : ∀ (t t' : Nat) r r' i, s.proc.base.threads[t]? = some (.filling r i) → s.proc.base.threads[t']? = some (.filling r' i) → t = t'
  filling : ∀ (t : Nat) r i p w, s.proc.base.threads[t]? = some (.filling r i) → IsAcc s.trace p (.data i) w → KnownG s.trace t p
  done : ∀ i x p, (s.proc.base.mgr.heap i).once = .done x → IsAcc s.trace p (.data i) true → KnownO s.trace i p
  ended : ∀ (t : Nat) r i, s.proc.base.threads[t]? = some (.ended r i) → (∃ x, (s.proc.base.mgr.heap i).once = .done x) ∧
    ∀ p, IsAcc s.trace p (.data i) true → KnownG s.trace t p
  free : ∀ p q g g', p < q → Conflict s.trace p q (.user g) (.user g') → HB s.trace p q

theorem KnownL.mono {s : State} {p : Nat} (h : KnownL s p) (l : Trace Loc) : KnownL { s with trace := s.trace ++ l } p := by
  unfold KnownL at h ⊢
  cases hh : s.proc.holder with
  | none => rw [hh] at h; simp only; exact fun hs => (h hs).mono l
  | some x => rw [hh] at h; simp only; exact h.mono l

/-- operations that are not accesses of the program -/
theorem Inv.silent {s : State} (h : Inv s) (y : Gid × Event Loc) (hy : ∀ g l w, y ≠ (.user g, .access l w)) :
    Inv { s with trace := s.trace ++ [y] } := by
  have old : ∀ {p l w}, IsAcc (s.trace ++ [y]) p l w → IsAcc s.trace p l w := by
    intro p l w ha
    rcases ha.snoc with ha | ⟨_, g, he⟩
    · exact ha
    · exact absurd he (hy g l w)
  exact {
    below := fun p l w ha => h.below p l w (old ha)
    caches := h.caches
    future := h.future
    refs := h.refs
    phase := h.phase
    guarded := fun p l w ha hg => (h.guarded p l w (old ha) hg).mono _
    initial := fun p l w t th i ha h1 h2 h3 => (h.initial p l w t th i (old ha) h1 h2 h3).mono _
    running := h.running
    single := h.single
    filling := fun t r i p w h1 ha => (h.filling t r i p w h1 (old ha)).mono _
    done := fun i x p h1 ha => (h.done i x p h1 (old ha)).mono _
    ended := fun t r i h1 => ⟨(h.ended t r i h1).1, fun p ha => ((h.ended t r i h1).2 p (old ha)).mono _⟩
    free := by
      rintro p q g g' hpq ⟨l, w, w', h1, h2, h3⟩
      obtain ⟨_, h1'⟩ := old ⟨g, h1⟩
      obtain ⟨_, h2'⟩ := old ⟨g', h2⟩
      have e1 := get_app (l := [y]) h1'
      have e2 := get_app (l := [y]) h2'
      rw [h1] at e1
      rw [h2] at e2
      rw [← Option.some.inj e1] at h1'
      rw [← Option.some.inj e2] at h2'
      exact hb_mono (h.free p q g g' hpq ⟨l, w, w', h1', h2', h3⟩) }

/-- the goroutine may access the location now -/
structure May (s : State) (g : Nat) (l : Loc) (w : Bool) : Prop where
  below : Below s.proc.base.mgr.fresh l
  order : ∀ p w', IsAcc s.trace p l w' → (w = true ∨ w' = true) → KnownG s.trace g p
  guard : Guard s.proc.base.mgr l w → ∃ h, s.proc.holder = some h ∧ h.thread = g
  initial : ∀ (t : Nat) th i, s.proc.base.threads[t]? = some th → Has th i → ¬ Initial s.proc.base.mgr i l w
  filling : ∀ (t : Nat) r i, s.proc.base.threads[t]? = some (.filling r i) → l = .data i → t = g
  done : ∀ i x, (s.proc.base.mgr.heap i).once = .done x → l = .data i → w = false

theorem Inv.access {s : State} (h : Inv s) {g : Nat} {l : Loc} {w : Bool} (hm : May s g l w) :
    Inv { s with trace := s.trace ++ [(.user g, .access l w)] } := by
  have split : ∀ {p l' w'}, IsAcc (s.trace ++ [(.user g, .access l w)]) p l' w' →
      IsAcc s.trace p l' w' ∨ p = s.trace.length ∧ l' = l ∧ w' = w := by
    intro p l' w' ha
    rcases ha.snoc with ha | ⟨hp, g', he⟩
    · exact Or.inl ha
    · injection he with _ he
      injection he with he1 he2
      exact Or.inr ⟨hp, he1.symm, he2.symm⟩
  have self := knownG_self s.trace g (.access l w)
  exact {
    below := by
      intro p l' w' ha
      rcases split ha with ha | ⟨_, rfl, _⟩
      · exact h.below p l' w' ha
      · exact hm.below
    caches := h.caches
    future := h.future
    refs := h.refs
    phase := h.phase
    guarded := by
      intro p l' w' ha hg
      rcases split ha with ha | ⟨rfl, rfl, rfl⟩
      · exact (h.guarded p l' w' ha hg).mono _
      · obtain ⟨x, hx, rfl⟩ := hm.guard hg
        unfold KnownL
        simp only [hx]
        exact self
    initial := by
      intro p l' w' t th i ha h1 h2 h3
      rcases split ha with ha | ⟨rfl, rfl, rfl⟩
      · exact (h.initial p l' w' t th i ha h1 h2 h3).mono _
      · exact absurd h3 (hm.initial t th i h1 h2)
    running := h.running
    single := h.single
    filling := by
      intro t r i p w' h1 ha
      rcases split ha with ha | ⟨rfl, hl, rfl⟩
      · exact (h.filling t r i p w' h1 ha).mono _
      · rw [hm.filling t r i h1 hl.symm]
        exact self
    done := by
      intro i x p h1 ha
      rcases split ha with ha | ⟨rfl, hl, hw⟩
      · exact (h.done i x p h1 ha).mono _
      · have := hm.done i x h1 hl.symm
        rw [this] at hw
        cases hw
    ended := by
      intro t r i h1
      refine ⟨(h.ended t r i h1).1, fun p ha => ?_⟩
      rcases split ha with ha | ⟨rfl, hl, hw⟩
      · exact ((h.ended t r i h1).2 p ha).mono _
      · obtain ⟨x, hx⟩ := (h.ended t r i h1).1
        have := hm.done i x hx hl.symm
        rw [this] at hw
        cases hw
    free := by
      rintro p q g1 g2 hpq ⟨l', w1, w2, h1, h2, h3⟩
      rcases get_snoc h2 with h2 | ⟨rfl, h4⟩
      · have hp : p < s.trace.length := lt_trans hpq (get_lt h2)
        rw [List.getElem?_append_left hp] at h1
        exact hb_mono (h.free p q g1 g2 hpq ⟨l', w1, w2, h1, h2, h3⟩)
      · rw [List.getElem?_append_left hpq] at h1
        injection h4 with _ h4
        injection h4 with h4 h5
        subst h4 h5
        exact (hm.order p w1 ⟨g1, h1⟩ h3.symm).hb _ _ }

/-- several accesses, each of which is possible where the earlier ones are done -/
theorem Inv.accesses (g : Nat) (as : List Acc) : ∀ {s : State}, Inv s → (∀ a ∈ as, ∀ l : Trace Loc, Inv { s with trace := s.trace ++ l } →
    (∀ p (a' : Acc), IsAcc (s.trace ++ l) p a'.1 a'.2 → IsAcc s.trace p a'.1 a'.2 ∨ KnownG (s.trace ++ l) g p) →
    May { s with trace := s.trace ++ l } g a.1 a.2) → Inv { s with trace := s.trace ++ accs g as } := by
  suffices H : ∀ (as : List Acc) (s : State) (l : Trace Loc), Inv { s with trace := s.trace ++ l } →
      (∀ p (a' : Acc), IsAcc (s.trace ++ l) p a'.1 a'.2 → IsAcc s.trace p a'.1 a'.2 ∨ KnownG (s.trace ++ l) g p) →
      (∀ a ∈ as, ∀ l : Trace Loc, Inv { s with trace := s.trace ++ l } →
        (∀ p (a' : Acc), IsAcc (s.trace ++ l) p a'.1 a'.2 → IsAcc s.trace p a'.1 a'.2 ∨ KnownG (s.trace ++ l) g p) →
        May { s with trace := s.trace ++ l } g a.1 a.2) → Inv { s with trace := s.trace ++ (l ++ accs g as) } by
    intro s h hm
    have := H as s [] (by simpa using h) (fun p a' ha => Or.inl (by simpa using ha)) hm
    simpa using this
  intro as
  induction as with
  | nil => intro s l h _ _; simpa [accs] using h
  | cons a as ih =>
    intro s l h hl hm
    have h1 := h.access (hm a (by simp) l h hl)
    simp only [List.append_assoc] at h1
    have := ih s (l ++ [(.user g, .access a.1 a.2)]) h1 (by
      intro p a' ha
      rw [← List.append_assoc] at ha ⊢
      rcases ha.snoc with ha | ⟨rfl, _⟩
      · exact (hl p a' ha).imp id fun hk => hk.mono _
      · exact Or.inr (knownG_self _ _ _)) (fun b hb => hm b (by simp [hb]))
    rw [List.append_assoc] at this
    exact this

/-! ## changes of the state -/

theorem Guard.old {m m' : Mgr} (hg : Grown m m') {l : Loc} {w : Bool} (hl : Below m.fresh l) (h : Guard m' l w) : Guard m l w := by
  cases l with
  | data i => exact (hg.once i hl).symm.trans h
  | map => exact h
  | future => exact h
  | epoch i => exact h
  | used i => exact h

theorem Below.grow {n n' : Nat} (h : n ≤ n') {l : Loc} (hl : Below n l) : Below n' l := by
  cases l with
  | map => exact trivial
  | future => exact trivial
  | epoch i => exact Nat.lt_of_lt_of_le hl h
  | used i => exact Nat.lt_of_lt_of_le hl h
  | data i => exact Nat.lt_of_lt_of_le hl h

/-- the goroutine that has the mutex goes on -/
theorem Inv.advance {s : State} (hI : Inv s) {h h' : Holder} {P : Mutex.State} (hh : s.proc.holder = some h) (hP : P.holder = some h')
    (ht : h'.thread = h.thread) (hth : P.base.threads = s.proc.base.threads) (hg : Grown s.proc.base.mgr P.base.mgr)
    (hc : ∀ x ∈ P.base.mgr.caches, x.2 < P.base.mgr.fresh) (hf : ∀ f, P.base.mgr.future = some f → f < P.base.mgr.fresh)
    (hp : PhaseOk P.base.mgr.fresh h'.phase) : Inv { s with proc := P } := by
  have lt : ∀ {t th i}, s.proc.base.threads[t]? = some th → Has th i → i < s.proc.base.mgr.fresh := fun h1 h2 => hI.refs _ _ _ h1 h2
  exact {
    below := fun p l w ha => (hI.below p l w ha).grow hg.fresh
    caches := hc
    future := hf
    refs := fun t th i h1 h2 => Nat.lt_of_lt_of_le (hI.refs t th i (by rw [← hth]; exact h1) h2) hg.fresh
    phase := by
      intro x hx
      rw [hP] at hx
      rw [← Option.some.inj hx]
      exact hp
    guarded := by
      intro p l w ha hgd
      have := hI.guarded p l w ha (hgd.old hg (hI.below p l w ha))
      unfold KnownL at this ⊢
      rw [hh] at this
      simp only [hP, ht]
      exact this
    initial := by
      intro p l w t th i ha h1 h2 h3
      simp only [hth] at h1
      refine hI.initial p l w t th i ha h1 h2 ?_
      rcases h3 with h3 | ⟨rfl, h3⟩
      · exact Or.inl h3
      · exact Or.inr ⟨rfl, (hg.once i (lt h1 h2)).symm.trans h3⟩
    running := by
      intro t r i h1
      simp only [hth] at h1
      exact (hg.once i (lt h1 ⟨r, by simp⟩)).trans (hI.running t r i h1)
    single := by
      intro t t' r r' i h1 h2
      simp only [hth] at h1 h2
      exact hI.single t t' r r' i h1 h2
    filling := by
      intro t r i p w h1 ha
      simp only [hth] at h1
      exact hI.filling t r i p w h1 ha
    done := by
      intro i x p h1 ha
      exact hI.done i x p ((hg.once i (hI.below _ _ _ ha)).symm.trans h1) ha
    ended := by
      intro t r i h1
      simp only [hth] at h1
      obtain ⟨⟨x, hx⟩, h2⟩ := hI.ended t r i h1
      exact ⟨⟨x, (hg.once i (lt h1 ⟨r, by simp⟩)).trans hx⟩, h2⟩
    free := hI.free }

/-- what the goroutine that has the mutex may do -/
theorem Inv.may_holder {s : State} (hI : Inv s) {h : Holder} (hh : s.proc.holder = some h) {l : Loc} {w : Bool}
    (hl : l = .map ∨ l = .future ∨ (∃ i, l = .used i) ∨ w = false ∧ ∃ i, l = .epoch i) (hb : Below s.proc.base.mgr.fresh l) :
    May s h.thread l w := by
  have hk : ∀ p, KnownL s p → KnownG s.trace h.thread p := by
    intro p hp
    unfold KnownL at hp
    rw [hh] at hp
    exact hp
  refine ⟨hb, ?_, fun _ => ⟨h, hh, rfl⟩, ?_, ?_, ?_⟩
  · intro p w' ha hw
    refine hk p (hI.guarded p l w' ha ?_)
    rcases hl with rfl | rfl | ⟨i, rfl⟩ | ⟨rfl, i, rfl⟩
    · trivial
    · trivial
    · trivial
    · rcases hw with hw | hw
      · cases hw
      · exact hw
  · rintro t th i h1 h2 (⟨rfl, rfl⟩ | ⟨rfl, _⟩)
    · rcases hl with hl | hl | ⟨i, hl⟩ | ⟨hl, _⟩ <;> cases hl
    · rcases hl with hl | hl | ⟨i, hl⟩ | ⟨_, i, hl⟩ <;> cases hl
  · rintro t r i h1 rfl
    rcases hl with hl | hl | ⟨i, hl⟩ | ⟨_, i, hl⟩ <;> cases hl
  · rintro i x h1 rfl
    rcases hl with hl | hl | ⟨i, hl⟩ | ⟨_, i, hl⟩ <;> cases hl

/-- an access that the mutex allows: not the initialisation of a cache -/
def Plain (n : Nat) (a : Acc) : Prop :=
  (a.1 = .map ∨ a.1 = .future ∨ (∃ i, a.1 = .used i) ∨ a.2 = false ∧ ∃ i, a.1 = .epoch i) ∧ Below n a.1

theorem Inv.holder_accs {s : State} (hI : Inv s) {h : Holder} (hh : s.proc.holder = some h) (as : List Acc)
    (ha : ∀ a ∈ as, Plain s.proc.base.mgr.fresh a) : Inv { s with trace := s.trace ++ accs h.thread as } :=
  hI.accesses h.thread as fun a hm l hI' _ => hI'.may_holder (s := { s with trace := s.trace ++ l }) hh (ha a hm).1 (ha a hm).2

/-- the initialisation of the new cache `n`, by the goroutine that has the mutex -/
theorem may_create {s : State} {h : Holder} (hh : s.proc.holder = some h) {n : Nat} (hn : n < s.proc.base.mgr.fresh)
    (hidle : (s.proc.base.mgr.heap n).once = .idle) (hno : ∀ (t : Nat) th, s.proc.base.threads[t]? = some th → ¬ Has th n)
    (hold : ∀ p l w, IsAcc s.trace p l w → l = .epoch n ∨ l = .used n ∨ l = .data n → KnownG s.trace h.thread p) {a : Acc}
    (ha : a ∈ created n) : May s h.thread a.1 a.2 := by
  have hcase : a.2 = true ∧ (a.1 = .epoch n ∨ a.1 = .used n ∨ a.1 = .data n) := by
    simp only [created, wr, List.mem_cons, List.not_mem_nil, or_false] at ha
    rcases ha with rfl | rfl | rfl <;> simp
  refine ⟨?_, fun p w' hp _ => hold p _ w' hp hcase.2, fun _ => ⟨h, hh, rfl⟩, ?_, ?_, ?_⟩
  · rcases hcase.2 with e | e | e <;> rw [e] <;> exact hn
  · rintro t th i h1 h2 (⟨e, _⟩ | ⟨e, _⟩)
    all_goals
      rcases hcase.2 with e' | e' | e' <;> rw [e'] at e <;> cases e
      exact hno t th h1 h2
  · intro t r i h1 e
    rcases hcase.2 with e' | e' | e' <;> rw [e'] at e <;> cases e
    exact absurd ⟨r, Or.inr (Or.inl rfl)⟩ (hno t _ h1)
  · intro i x h1 e
    rcases hcase.2 with e' | e' | e' <;> rw [e'] at e <;> cases e
    rw [hidle] at h1
    cases h1

/-- accesses under the mutex when the cache `n` has just been made -/
theorem Inv.create_accs {s : State} (hI : Inv s) {h : Holder} (hh : s.proc.holder = some h) {n : Nat} (hn : n < s.proc.base.mgr.fresh)
    (hidle : (s.proc.base.mgr.heap n).once = .idle) (hno : ∀ (t : Nat) th, s.proc.base.threads[t]? = some th → ¬ Has th n)
    (hold : ∀ p l w, IsAcc s.trace p l w → Below n l) (as : List Acc)
    (ha : ∀ a ∈ as, a ∈ created n ∨ Plain s.proc.base.mgr.fresh a) : Inv { s with trace := s.trace ++ accs h.thread as } := by
  refine hI.accesses h.thread as fun a hm l hI' hl => ?_
  rcases ha a hm with hc | hp
  · refine may_create (s := { s with trace := s.trace ++ l }) hh hn hidle hno ?_ hc
    intro p l' w hp he
    rcases hl p (l', w) hp with h1 | h1
    · have := hold p l' w h1
      rcases he with rfl | rfl | rfl <;> exact absurd this (Nat.lt_irrefl n)
    · exact h1
  · exact hI'.may_holder (s := { s with trace := s.trace ++ l }) hh hp.1 hp.2

theorem take_cases (e : U64) (m : Mgr) :
    (∃ f, m.future = some f ∧ takeCache e m = ({ m with future := none }, f) ∧ takeAcc e m = futureAcc m ++ [rd .future, wr .future]) ∨
    (takeCache e m = m.alloc e ∧ takeAcc e m = futureAcc m ++ created m.fresh) := by
  unfold takeCache takeAcc
  cases hf : m.future with
  | none => exact Or.inr ⟨rfl, rfl⟩
  | some f =>
    by_cases he : (m.heap f).epoch = e
    · exact Or.inl ⟨f, rfl, by simp only [if_pos he], by simp only [if_pos he]⟩
    · exact Or.inr ⟨by simp only [if_neg he], by simp only [if_neg he]⟩

theorem preGenerate_cases (e : U64) (m : Mgr) : preGenerate e m = (m, none) ∨ preGenerate e m = startFuture e m := by
  unfold preGenerate
  cases hf : m.future with
  | none => exact Or.inr rfl
  | some f =>
    by_cases he : (m.heap f).epoch ≤ e
    · exact Or.inr (by simp only [if_pos he])
    · exact Or.inl (by simp only [if_neg he])

theorem plain_map (n : Nat) (w : Bool) : Plain n (.map, w) := ⟨Or.inl rfl, trivial⟩
theorem plain_future (n : Nat) (w : Bool) : Plain n (.future, w) := ⟨Or.inr (Or.inl rfl), trivial⟩
theorem plain_used {n i : Nat} (h : i < n) (w : Bool) : Plain n (.used i, w) := ⟨Or.inr (Or.inr (Or.inl ⟨i, rfl⟩)), h⟩
theorem plain_epoch {n i : Nat} (h : i < n) : Plain n (.epoch i, false) := ⟨Or.inr (Or.inr (Or.inr ⟨rfl, i, rfl⟩)), h⟩

theorem plain_futureAcc {m : Mgr} {n : Nat} (h : ∀ f, m.future = some f → f < n) : ∀ a ∈ futureAcc m, Plain n a := by
  intro a ha
  unfold futureAcc at ha
  cases hf : m.future with
  | none =>
    rw [hf] at ha
    simp only [rd, List.mem_singleton] at ha
    subst ha
    exact plain_future n _
  | some f =>
    rw [hf] at ha
    simp only [rd, List.mem_cons, List.not_mem_nil, or_false] at ha
    rcases ha with rfl | rfl | rfl
    · exact plain_future n _
    · exact plain_future n _
    · exact plain_epoch (h f hf)

theorem grown_caches (m : Mgr) (c : List (U64 × Nat)) (f : Option Nat) : Grown m { m with caches := c, future := f } :=
  ⟨Nat.le_refl _, fun _ _ => rfl, fun _ _ => rfl, fun i h1 h2 => absurd h2 (by show ¬ i < m.fresh; omega)⟩

/-- the goroutine that has the mutex goes on and does plain accesses -/
theorem Inv.statement {s : State} (hI : Inv s) {h h' : Holder} {P : Mutex.State} (hh : s.proc.holder = some h) (hP : P.holder = some h')
    (ht : h'.thread = h.thread) (hth : P.base.threads = s.proc.base.threads) (hg : Grown s.proc.base.mgr P.base.mgr)
    (hc : ∀ x ∈ P.base.mgr.caches, x.2 < P.base.mgr.fresh) (hf : ∀ f, P.base.mgr.future = some f → f < P.base.mgr.fresh)
    (hp : PhaseOk P.base.mgr.fresh h'.phase) (as : List Acc) (ha : ∀ a ∈ as, Plain P.base.mgr.fresh a) : Inv (s.does h.thread as P) := by
  have h1 := hI.advance hh hP ht hth hg hc hf hp
  have h2 := h1.holder_accs (s := { s with proc := P }) hP as ha
  rw [ht] at h2
  exact h2

/-- the same when a cache is made -/
theorem Inv.creation {s : State} (hI : Inv s) {h h' : Holder} {P : Mutex.State} (hh : s.proc.holder = some h) (hP : P.holder = some h')
    (ht : h'.thread = h.thread) (hth : P.base.threads = s.proc.base.threads) (hg : Grown s.proc.base.mgr P.base.mgr)
    (hc : ∀ x ∈ P.base.mgr.caches, x.2 < P.base.mgr.fresh) (hf : ∀ f, P.base.mgr.future = some f → f < P.base.mgr.fresh)
    (hp : PhaseOk P.base.mgr.fresh h'.phase) (hn : s.proc.base.mgr.fresh < P.base.mgr.fresh) (as : List Acc)
    (ha : ∀ a ∈ as, a ∈ created s.proc.base.mgr.fresh ∨ Plain P.base.mgr.fresh a) : Inv (s.does h.thread as P) := by
  have h1 := hI.advance hh hP ht hth hg hc hf hp
  have h2 := h1.create_accs (s := { s with proc := P }) hP hn (hg.idle _ (Nat.le_refl _) hn)
    (by
      intro t th h1 h2
      simp only [hth] at h1
      exact Nat.lt_irrefl _ (hI.refs t th _ h1 h2)) (fun p l w ha => hI.below p l w ha) as ha
  rw [ht] at h2
  exact h2

/-- a goroutine comes or goes without a cache -/
theorem Inv.threads {s : State} (hI : Inv s) {P : Mutex.State} (hm : P.base.mgr = s.proc.base.mgr)
    (hh : ∀ h, P.holder = some h → PhaseOk s.proc.base.mgr.fresh h.phase)
    (hk : ∀ p, KnownL s p → KnownL { s with proc := P } p)
    (hth : ∀ (t : Nat) th i, P.base.threads[t]? = some th → Has th i → s.proc.base.threads[t]? = some th) : Inv { s with proc := P } where
  below := by simp only [hm]; exact hI.below
  caches := by simp only [hm]; exact hI.caches
  future := by simp only [hm]; exact hI.future
  refs := by
    intro t th i h1 h2
    simp only [hm]
    exact hI.refs t th i (hth t th i h1 h2) h2
  phase := by simp only [hm]; exact hh
  guarded := by
    intro p l w ha hg
    simp only [hm] at hg
    exact hk p (hI.guarded p l w ha hg)
  initial := by
    intro p l w t th i ha h1 h2 h3
    simp only [hm] at h3
    exact hI.initial p l w t th i ha (hth t th i h1 h2) h2 h3
  running := by
    intro t r i h1
    simp only [hm]
    exact hI.running t r i (hth t _ i h1 ⟨r, by simp⟩)
  single := by
    intro t t' r r' i h1 h2
    exact hI.single t t' r r' i (hth t _ i h1 ⟨r, by simp⟩) (hth t' _ i h2 ⟨r', by simp⟩)
  filling := by
    intro t r i p w h1
    exact hI.filling t r i p w (hth t _ i h1 ⟨r, by simp⟩)
  done := by simp only [hm]; exact hI.done
  ended := by
    intro t r i h1
    simp only [hm]
    exact hI.ended t r i (hth t _ i h1 ⟨r, by simp⟩)
  free := hI.free

/-- a goroutine gets a cache from the section under the mutex -/
theorem Inv.hand_over {s : State} (hI : Inv s) {P : Mutex.State} (hm : P.base.mgr = s.proc.base.mgr)
    (hh : ∀ h, P.holder = some h → PhaseOk s.proc.base.mgr.fresh h.phase)
    (hk : ∀ p, KnownL s p → KnownL { s with proc := P } p) (t₀ : Nat) (r₀ : Option U64) (c : Nat) (hc : c < s.proc.base.mgr.fresh)
    (hkt : ∀ p l w, IsAcc s.trace p l w → Guard s.proc.base.mgr l w → KnownG s.trace t₀ p)
    (hth : ∀ (t : Nat) th i, P.base.threads[t]? = some th → Has th i → (t = t₀ ∧ th = .waiting r₀ c) ∨ s.proc.base.threads[t]? = some th) :
    Inv { s with proc := P } where
  below := by simp only [hm]; exact hI.below
  caches := by simp only [hm]; exact hI.caches
  future := by simp only [hm]; exact hI.future
  refs := by
    intro t th i h1 h2
    simp only [hm]
    rcases hth t th i h1 h2 with ⟨_, rfl⟩ | h
    · obtain ⟨r, h2⟩ := h2
      rcases h2 with h2 | h2 | h2 <;> cases h2
      exact hc
    · exact hI.refs t th i h h2
  phase := by simp only [hm]; exact hh
  guarded := by
    intro p l w ha hg
    simp only [hm] at hg
    exact hk p (hI.guarded p l w ha hg)
  initial := by
    intro p l w t th i ha h1 h2 h3
    simp only [hm] at h3
    rcases hth t th i h1 h2 with ⟨rfl, rfl⟩ | h
    · exact hkt p l w ha h3.guard
    · exact hI.initial p l w t th i ha h h2 h3
  running := by
    intro t r i h1
    simp only [hm]
    rcases hth t _ i h1 ⟨r, by simp⟩ with ⟨_, h⟩ | h
    · cases h
    · exact hI.running t r i h
  single := by
    intro t t' r r' i h1 h2
    rcases hth t _ i h1 ⟨r, by simp⟩ with ⟨_, h⟩ | h
    · cases h
    · rcases hth t' _ i h2 ⟨r', by simp⟩ with ⟨_, h'⟩ | h'
      · cases h'
      · exact hI.single t t' r r' i h h'
  filling := by
    intro t r i p w h1
    rcases hth t _ i h1 ⟨r, by simp⟩ with ⟨_, h⟩ | h
    · cases h
    · exact hI.filling t r i p w h
  done := by simp only [hm]; exact hI.done
  ended := by
    intro t r i h1
    simp only [hm]
    rcases hth t _ i h1 ⟨r, by simp⟩ with ⟨_, h⟩ | h
    · cases h
    · exact hI.ended t r i h
  free := hI.free

theorem inv_init : Inv init := by
  have no : ∀ {p l w}, ¬ IsAcc ([] : Trace Loc) p l w := by
    rintro p l w ⟨g, h⟩
    simp at h
  constructor
  case free => rintro p q g g' _ ⟨l, w, w', h, _⟩; simp [init] at h
  all_goals first
    | (intro p l w h; exact absurd h no)
    | (intro p l w t th i h; exact absurd h no)
    | (intro i x p _ h; exact absurd h no)
    | (intro t r i h; simp [init, Mutex.init, Manager.init] at h)
    | (intro x h; simp [init, Mutex.init, Manager.init, Manager.new] at h)
    | (intro t r r' i h1 h2; simp [init, Mutex.init, Manager.init] at h2)

theorem KnownL.of_holder {s : State} {h : Holder} (hh : s.proc.holder = some h) {p : Nat} (hk : KnownL s p) : KnownG s.trace h.thread p := by
  unfold KnownL at hk
  rw [hh] at hk
  exact hk

theorem KnownL.to_holder {s : State} {h : Holder} (hh : s.proc.holder = some h) {p : Nat} (hk : KnownG s.trace h.thread p) : KnownL s p := by
  unfold KnownL
  rw [hh]
  exact hk

theorem KnownL.same {s : State} {P : Mutex.State} (h1 : P.holder = s.proc.holder) (h2 : P.base.stuck = s.proc.base.stuck) {p : Nat}
    (hk : KnownL s p) : KnownL { s with proc := P } p := by
  unfold KnownL at hk ⊢
  simp only [h1, h2]
  exact hk

variable {fin : Prop} {k : Int} {Body : U64 → Go Loaded → Prop}

/-- changes of the `sync.Once` of `i`, and of the goroutine `t₀` that has the cache -/
theorem Inv.once_change {s : State} (hI : Inv s) {P : Mutex.State} {i₀ t₀ : Nat} {o : Once} {th₀ : Thread}
    (ho : o ≠ .idle) (hm : P.base.mgr = s.proc.base.mgr.setOnce i₀ o) (hh : P.holder = s.proc.holder)
    (hst : P.base.stuck = s.proc.base.stuck)
    (hth : P.base.threads = s.proc.base.threads.set t₀ th₀)
    (hhas : ∀ i, Has th₀ i → i = i₀) (hlt : i₀ < s.proc.base.mgr.fresh)
    (hinit : ∀ p l w, IsAcc s.trace p l w → Initial (s.proc.base.mgr.setOnce i₀ o) i₀ l w → Has th₀ i₀ → KnownG s.trace t₀ p)
    (hrun : ∀ r, th₀ = .filling r i₀ → o = .running)
    (hother : ∀ (t : Nat) r, t ≠ t₀ → s.proc.base.threads[t]? ≠ some (.filling r i₀))
    (hfill : ∀ r p w, th₀ = .filling r i₀ → IsAcc s.trace p (.data i₀) w → KnownG s.trace t₀ p)
    (hdone : ∀ x p, o = .done x → IsAcc s.trace p (.data i₀) true → KnownO s.trace i₀ p)
    (hend : ∀ r, th₀ = .ended r i₀ → (∃ x, o = .done x) ∧ ∀ p, IsAcc s.trace p (.data i₀) true → KnownG s.trace t₀ p)
    (hended : (∀ x, o ≠ .done x) → ∀ (t : Nat) r, s.proc.base.threads[t]? ≠ some (.ended r i₀)) : Inv { s with proc := P } := by
  have hap : ∀ j, ((s.proc.base.mgr.setOnce i₀ o).heap j).once = if j = i₀ then o else (s.proc.base.mgr.heap j).once :=
    fun j => (Manager.setOnce_heap s.proc.base.mgr i₀ o j).2.2
  have hne : ∀ {j}, j ≠ i₀ → ((s.proc.base.mgr.setOnce i₀ o).heap j).once = (s.proc.base.mgr.heap j).once := fun h => by
    rw [hap, if_neg h]
  have hself : ((s.proc.base.mgr.setOnce i₀ o).heap i₀).once = o := by rw [hap, if_pos rfl]
  have cases_ : ∀ {t th}, P.base.threads[t]? = some th → (t = t₀ ∧ th = th₀) ∨ (t ≠ t₀ ∧ s.proc.base.threads[t]? = some th) := by
    intro t th h
    rw [hth] at h
    exact Manager.get_set h
  exact {
    below := by simp only [hm]; exact hI.below
    caches := by simp only [hm]; exact hI.caches
    future := by simp only [hm]; exact hI.future
    refs := by
      intro t th i h1 h2
      simp only [hm]
      rcases cases_ h1 with ⟨_, rfl⟩ | ⟨_, h⟩
      · rw [hhas i h2]; exact hlt
      · exact hI.refs t th i h h2
    phase := by simp only [hm, hh]; exact hI.phase
    guarded := by
      intro p l w ha hg
      simp only [hm] at hg
      refine KnownL.same hh hst (hI.guarded p l w ha ?_)
      cases l with
      | data i =>
        have hi : i ≠ i₀ := by
          rintro rfl
          exact ho (hself.symm.trans hg)
        exact (hne hi).symm.trans hg
      | map => exact hg
      | future => exact hg
      | epoch i => exact hg
      | used i => exact hg
    initial := by
      intro p l w t th i ha h1 h2 h3
      simp only [hm] at h3
      rcases cases_ h1 with ⟨rfl, rfl⟩ | ⟨_, h⟩
      · obtain rfl := hhas i h2
        exact hinit p l w ha h3 h2
      · refine hI.initial p l w t th i ha h h2 ?_
        rcases h3 with h3 | ⟨rfl, h3⟩
        · exact Or.inl h3
        · have hi : i ≠ i₀ := by
            rintro rfl
            exact ho (hself.symm.trans h3)
          exact Or.inr ⟨rfl, (hne hi).symm.trans h3⟩
    running := by
      intro t r i h1
      simp only [hm]
      rcases cases_ h1 with ⟨rfl, h⟩ | ⟨ht, h⟩
      · obtain rfl := hhas i ⟨r, by simp [← h]⟩
        rw [hself]
        exact hrun r h.symm
      · have hi : i ≠ i₀ := by
          rintro rfl
          exact hother t r ht h
        rw [hne hi]
        exact hI.running t r i h
    single := by
      intro t t' r r' i h1 h2
      rcases cases_ h1 with ⟨rfl, h⟩ | ⟨ht, h⟩
      · obtain rfl := hhas i ⟨r, by simp [← h]⟩
        rcases cases_ h2 with ⟨rfl, _⟩ | ⟨ht', h'⟩
        · rfl
        · exact absurd h' (hother t' r' ht')
      · rcases cases_ h2 with ⟨rfl, h'⟩ | ⟨ht', h'⟩
        · obtain rfl := hhas i ⟨r', by simp [← h']⟩
          exact absurd h (hother t r ht)
        · exact hI.single t t' r r' i h h'
    filling := by
      intro t r i p w h1 ha
      rcases cases_ h1 with ⟨rfl, h⟩ | ⟨ht, h⟩
      · obtain rfl := hhas i ⟨r, by simp [← h]⟩
        exact hfill r p w h.symm ha
      · exact hI.filling t r i p w h ha
    done := by
      intro i x p h1 ha
      simp only [hm] at h1
      by_cases hi : i = i₀
      · subst hi
        exact hdone x p (hself.symm.trans h1) ha
      · rw [hne hi] at h1
        exact hI.done i x p h1 ha
    ended := by
      intro t r i h1
      simp only [hm]
      rcases cases_ h1 with ⟨rfl, h⟩ | ⟨ht, h⟩
      · obtain rfl := hhas i ⟨r, by simp [← h]⟩
        rw [hself]
        exact hend r h.symm
      · by_cases hi : i = i₀
        · subst hi
          refine ⟨?_, (hI.ended t r i h).2⟩
          rw [hself]
          by_contra hc
          exact hended (fun x hx => hc ⟨x, hx⟩) t r h
        · rw [hne hi]
          exact hI.ended t r i h
    free := hI.free }

theorem IsAcc.old {tr : Trace Loc} {p : Nat} {l : Loc} {w : Bool} {y : Gid × Event Loc} (hy : ∀ g l w, y ≠ (.user g, .access l w))
    (h : IsAcc (tr ++ [y]) p l w) : IsAcc tr p l w := by
  rcases h.snoc with h | ⟨_, g, he⟩
  · exact h
  · exact absurd he (hy g l w)

theorem Inv.no_has_of_idle {s : State} (hI : Inv s) {i : Nat} (h : (s.proc.base.mgr.heap i).once = .idle) (t : Nat) (r : Option U64) :
    s.proc.base.threads[t]? ≠ some (.filling r i) ∧ s.proc.base.threads[t]? ≠ some (.ended r i) := by
  constructor
  · intro h1
    have := hI.running t r i h1
    rw [h] at this
    cases this
  · intro h1
    obtain ⟨⟨x, hx⟩, _⟩ := hI.ended t r i h1
    rw [h] at hx
    cases hx

theorem inv_step {s s' : State} (hI : Inv s) (hs : Step fin k Body s s') : Inv s' := by
  have hlt : ∀ {t th i}, s.proc.base.threads[t]? = some th → Has th i → i < s.proc.base.mgr.fresh := fun h1 h2 => hI.refs _ _ _ h1 h2
  cases hs with
  | call e hc =>
    refine hI.threads rfl hI.phase (fun p hp => KnownL.same rfl rfl hp) ?_
    intro t th i h1 h2
    by_cases h : t < s.proc.base.threads.length
    · rw [List.getElem?_append_left h] at h1; exact h1
    · rw [List.getElem?_append_right (by omega)] at h1
      have hm := List.mem_of_getElem? h1
      rw [List.mem_singleton] at hm
      subst hm
      obtain ⟨r, h2⟩ := h2
      rcases h2 with h2 | h2 | h2 <;> cases h2
  | lock t e hc hst hh ht =>
    have h1 := hI.silent (.user t, .lock) (by intro g l w h; cases h)
    refine Inv.threads (s := { s with trace := s.trace ++ [(.user t, .lock)] }) h1 rfl ?_ ?_ (fun _ _ _ h _ => h)
    · intro h hx
      simp only [Option.some.injEq] at hx
      subst hx
      exact trivial
    · intro p hp
      refine KnownL.to_holder rfl ?_
      unfold KnownL at hp
      rw [hh] at hp
      have hM := hp hst
      obtain ⟨j, g, h1, h2⟩ := hM
      have hj : j ≠ s.trace.length := by
        rintro rfl
        rw [get_last] at h2
        cases h2
      refine ⟨s.trace.length, Or.inr (h1.hb (.mutex (g := g) (g' := .user t) ?_ h2 (get_last _ _ _))), Or.inl ⟨_, get_last _ _ _⟩⟩
      have := get_lt h2
      simp only [List.length_append, List.length_singleton] at this
      omega
  | hit h c hc hh hp hg =>
    refine hI.statement (P := s.proc.at h s.proc.base.mgr (.use c)) hh rfl rfl rfl (Grown.refl _) hI.caches hI.future ?_ _ ?_
    · exact hI.caches _ (Manager.get_some hg)
    · intro a ha
      simp only [rd, List.mem_cons, List.not_mem_nil, or_false] at ha
      rcases ha with rfl | rfl <;> exact plain_map _ _
  | room h hc hh hp hg hk =>
    refine hI.statement (P := s.proc.at h s.proc.base.mgr .take) hh rfl rfl rfl (Grown.refl _) hI.caches hI.future trivial _ ?_
    intro a ha
    simp only [rd, List.mem_cons, List.not_mem_nil, or_false] at ha
    rcases ha with rfl | rfl | rfl <;> exact plain_map _ _
  | full h order hc hh hp hg hk ho =>
    refine hI.statement (P := s.proc.at h s.proc.base.mgr (.evict order none)) hh rfl rfl rfl (Grown.refl _) hI.caches hI.future ?_ _ ?_
    · exact ⟨fun x hx => hI.caches x (ho.mem_iff.mp hx), by simp⟩
    · intro a ha
      simp only [rd, List.mem_cons, List.not_mem_nil, or_false] at ha
      rcases ha with rfl | rfl | rfl <;> exact plain_map _ _
  | scan h x rest best hc hh hp =>
    have hph := hI.phase h hh
    rw [hp] at hph
    refine hI.statement (P := s.proc.at h s.proc.base.mgr (.evict rest (evictStep s.proc.base.mgr.heap best x))) hh rfl rfl rfl (Grown.refl _)
      hI.caches hI.future ?_ _ ?_
    · refine ⟨fun y hy => hph.1 y (by simp [hy]), ?_⟩
      intro v hv
      cases best with
      | none =>
        simp only [evictStep, Option.some.injEq] at hv
        subst hv
        exact hph.1 x (by simp)
      | some b =>
        simp only [evictStep] at hv
        by_cases hu : (s.proc.base.mgr.heap x.2).used < (s.proc.base.mgr.heap b).used
        · rw [if_pos hu] at hv
          rw [← Option.some.inj hv]
          exact hph.1 x (by simp)
        · rw [if_neg hu] at hv
          exact hph.2 v hv
    · intro a ha
      cases best with
      | none =>
        simp only [scanAcc, rd, List.mem_singleton] at ha
        subst ha
        exact plain_map _ _
      | some b =>
        simp only [scanAcc, rd, List.mem_cons, List.not_mem_nil, or_false] at ha
        rcases ha with rfl | rfl | rfl
        · exact plain_map _ _
        · exact plain_used (hph.2 b rfl) _
        · exact plain_used (hph.1 x (by simp)) _
  | drop h v hc hh hp =>
    have hph := hI.phase h hh
    rw [hp] at hph
    refine hI.statement (P := s.proc.at h
      { s.proc.base.mgr with caches := delete s.proc.base.mgr.caches (s.proc.base.mgr.heap v).epoch } .take) hh rfl rfl rfl (grown_caches _ _ _) ?_ hI.future trivial _ ?_
    · intro x hx
      exact hI.caches x (List.mem_of_mem_filter hx)
    · intro a ha
      simp only [rd, wr, List.mem_cons, List.not_mem_nil, or_false] at ha
      rcases ha with rfl | rfl
      · exact plain_epoch (hph.2 v rfl)
      · exact plain_map _ _
  | nilEvict h hc hh hp =>
    have : s.does h.thread [] ⟨{ s.proc.base with stuck := true, threads := s.proc.base.threads.set h.thread (.panicked (some h.epoch)) }, none⟩ =
        { s with proc := ⟨{ s.proc.base with stuck := true, threads := s.proc.base.threads.set h.thread (.panicked (some h.epoch)) }, none⟩ } := by
      simp [State.does, accs]
    rw [this]
    refine hI.threads rfl (by simp) ?_ ?_
    · intro p _
      unfold KnownL
      simp
    · intro t th i h1 h2
      rcases Manager.get_set h1 with ⟨_, rfl⟩ | ⟨_, h⟩
      · obtain ⟨r, h2⟩ := h2
        rcases h2 with h2 | h2 | h2 <;> cases h2
      · exact h
  | take h hc hh hp =>
    rcases take_cases h.epoch s.proc.base.mgr with ⟨f, hf, ht, ha⟩ | ⟨ht, ha⟩
    · rw [ht, ha]
      refine hI.statement (P := s.proc.at h { s.proc.base.mgr with future := none } (.store f)) hh rfl rfl rfl (grown_caches _ _ _) hI.caches
        (by intro f h; cases h)
        (hI.future f hf) _ ?_
      intro a ha
      rcases List.mem_append.mp ha with ha | ha
      · exact plain_futureAcc hI.future a ha
      · simp only [rd, wr, List.mem_cons, List.not_mem_nil, or_false] at ha
        rcases ha with rfl | rfl <;> exact plain_future _ _
    · rw [ht, ha]
      refine hI.creation (P := s.proc.at h (s.proc.base.mgr.alloc h.epoch).1 (.store s.proc.base.mgr.fresh)) hh rfl rfl rfl (Manager.alloc_grown _ _) ?_ ?_
        (Nat.lt_succ_self _) (Nat.lt_succ_self _) _ ?_
      · exact fun x hx => Nat.lt_succ_of_lt (hI.caches x hx)
      · exact fun f hf => Nat.lt_succ_of_lt (hI.future f hf)
      · intro a ha
        rcases List.mem_append.mp ha with ha | ha
        · exact Or.inr (plain_futureAcc (fun f hf => Nat.lt_succ_of_lt (hI.future f hf)) a ha)
        · exact Or.inl ha
  | store h c hc hh hp =>
    have hph := hI.phase h hh
    rw [hp] at hph
    refine hI.statement (P := s.proc.at h { s.proc.base.mgr with caches := put s.proc.base.mgr.caches h.epoch c } (.ahead c)) hh rfl rfl rfl
      (grown_caches _ _ _) ?_ hI.future hph _ ?_
    · intro x hx
      rcases List.mem_cons.mp hx with rfl | hx
      · exact hph
      · exact hI.caches x (List.mem_of_mem_filter hx)
    · intro a ha
      simp only [wr, List.mem_singleton] at ha
      subst ha
      exact plain_map _ _
  | keep h c m hc hh hp hm =>
    have hph := hI.phase h hh
    rw [hp] at hph
    have he : m = s.proc.base.mgr := by
      rcases preGenerate_cases h.epoch s.proc.base.mgr with h1 | h1
      · rw [h1] at hm; exact (Prod.mk.inj hm).1.symm
      · rw [h1] at hm; cases (Prod.mk.inj hm).2
    subst he
    exact hI.statement (P := s.proc.at h s.proc.base.mgr (.use c)) hh rfl rfl rfl (Grown.refl _) hI.caches hI.future hph _ (plain_futureAcc hI.future)
  | next h c f m hc hh hp hm =>
    have hph := hI.phase h hh
    rw [hp] at hph
    have he : m = (startFuture h.epoch s.proc.base.mgr).1 ∧ f = s.proc.base.mgr.fresh := by
      rcases preGenerate_cases h.epoch s.proc.base.mgr with h1 | h1
      · rw [h1] at hm; cases (Prod.mk.inj hm).2
      · rw [h1] at hm
        exact ⟨(Prod.mk.inj hm).1.symm, (Option.some.inj (Prod.mk.inj hm).2).symm⟩
    obtain ⟨rfl, rfl⟩ := he
    have hgr := Manager.alloc_grown s.proc.base.mgr (h.epoch + 1)
    refine hI.creation (P := s.proc.at h (startFuture h.epoch s.proc.base.mgr).1 (.spawn c s.proc.base.mgr.fresh)) hh rfl rfl rfl
      ⟨hgr.fresh, hgr.epoch, hgr.once, hgr.idle⟩ ?_ ?_ ⟨Nat.lt_succ_of_lt hph, Nat.lt_succ_self _⟩ (Nat.lt_succ_self _) _ ?_
    · exact fun x hx => Nat.lt_succ_of_lt (hI.caches x hx)
    · intro f hf
      rw [← Option.some.inj hf]
      exact Nat.lt_succ_self _
    · intro a ha
      rcases List.mem_append.mp ha with ha | ha
      · rcases List.mem_append.mp ha with ha | ha
        · exact Or.inr (plain_futureAcc (fun f hf => Nat.lt_succ_of_lt (hI.future f hf)) a ha)
        · exact Or.inl ha
      · simp only [wr, List.mem_singleton] at ha
        subst ha
        exact Or.inr (plain_future _ _)
  | spawn h c f hc hh hp =>
    have hph := hI.phase h hh
    rw [hp] at hph
    obtain ⟨s1, hs1⟩ : ∃ s1, s1 = s.does h.thread [rd .future] s.proc := ⟨_, rfl⟩
    have hI1 : Inv s1 := by
      rw [hs1]
      refine hI.statement hh hh rfl rfl (Grown.refl _) hI.caches hI.future (hI.phase h hh) _ ?_
      intro a ha
      simp only [rd, List.mem_singleton] at ha
      subst ha
      exact plain_future _ _
    have hpr : s1.proc = s.proc := by rw [hs1]; rfl
    rw [← hs1, ← hpr]
    have hh1 : s1.proc.holder = some h := by rw [hpr]; exact hh
    have hI2 := hI1.silent (.user h.thread, .go s1.proc.base.threads.length) (by intro g l w h; cases h)
    refine Inv.hand_over (s := { s1 with trace := s1.trace ++ [(.user h.thread, .go s1.proc.base.threads.length)] }) hI2 rfl ?_ ?_
      s1.proc.base.threads.length none f (by rw [hpr]; exact hph.2) ?_ ?_
    · intro x hx
      simp only [Option.some.injEq] at hx
      subst hx
      rw [hpr]
      exact hph.1
    · intro p hk
      refine KnownL.to_holder rfl ?_
      exact KnownL.of_holder (s := { s1 with trace := s1.trace ++ [(.user h.thread, .go s1.proc.base.threads.length)] }) hh1 hk
    · intro p l w ha hg
      exact (KnownL.of_holder hh1 (hI1.guarded p l w (ha.old (by intro g l w h; cases h)) hg)).go _
    · intro t th i h1 h2
      by_cases h : t < s1.proc.base.threads.length
      · rw [List.getElem?_append_left h] at h1; exact Or.inr h1
      · have hl := (List.getElem?_eq_some_iff.mp h1).1
        rw [List.length_append, List.length_singleton] at hl
        have ht : t = s1.proc.base.threads.length := by omega
        rw [ht] at h1
        simp only [List.getElem?_concat_length, Option.some.injEq] at h1
        exact Or.inl ⟨ht, h1.symm⟩
  | use h c now hc hh hp hn =>
    have hph := hI.phase h hh
    rw [hp] at hph
    refine hI.statement (P := ⟨{ s.proc.base with mgr := s.proc.base.mgr.use c now, clock := now, hist := (h.epoch, now) :: s.proc.base.hist },
      some { h with phase := .unlock c }⟩) hh rfl rfl rfl (Manager.use_grown _ _ _) hI.caches hI.future hph _ ?_
    intro a ha
    simp only [wr, List.mem_singleton] at ha
    subst ha
    exact plain_used hph _
  | unlock h c hc hh hp =>
    have hph := hI.phase h hh
    rw [hp] at hph
    have hI1 := hI.silent (.user h.thread, .unlock) (by intro g l w h; cases h)
    refine Inv.hand_over (s := { s with trace := s.trace ++ [(.user h.thread, .unlock)] }) hI1 rfl (by simp) ?_ h.thread (some h.epoch) c hph ?_ ?_
    · intro p hk
      have := KnownL.of_holder (s := { s with trace := s.trace ++ [(.user h.thread, .unlock)] }) hh hk
      intro _
      obtain ⟨j, h1, h2⟩ := this
      by_cases hj : j = s.trace.length
      · subst hj
        exact ⟨s.trace.length, _, h1, get_last _ _ _⟩
      · refine ⟨s.trace.length, .user h.thread, Or.inr (h1.hb ?_), get_last _ _ _⟩
        have hlt' : j < s.trace.length := by
          rcases h2 with ⟨e, h2⟩ | ⟨g, h2⟩
          all_goals
            have := get_lt h2
            simp only [List.length_append, List.length_singleton] at this
            omega
        rcases h2 with ⟨e, h2⟩ | ⟨g, h2⟩
        · exact .program hlt' h2 (get_last _ _ _)
        · exact .go hlt' h2 (get_last _ _ _)
    · intro p l w ha hg
      exact (KnownL.of_holder hh (hI.guarded p l w (ha.old (by intro g l w h; cases h)) hg)).mono _
    · intro t th i h1 h2
      rcases Manager.get_set h1 with ⟨ht, he⟩ | ⟨_, h⟩
      · exact Or.inl ⟨ht, he⟩
      · exact Or.inr h
  | start t role i hc ht ho =>
    have : ∀ P, s.does t [] P = { s with proc := P } := by intro P; simp [State.does, accs]
    rw [this]
    have hi := hlt ht ⟨role, Or.inl rfl⟩
    refine hI.once_change (i₀ := i) (t₀ := t) (o := .running) (th₀ := .filling role i) (by simp) rfl rfl rfl rfl ?_ hi ?_ ?_ ?_ ?_ ?_ ?_ ?_
    · rintro j ⟨r, h | h | h⟩ <;> cases h
      rfl
    · intro p l w ha h3 _
      refine hI.initial p l w t _ i ha ht ⟨role, Or.inl rfl⟩ ?_
      rcases h3 with h3 | ⟨rfl, _⟩
      · exact Or.inl h3
      · exact Or.inr ⟨rfl, ho⟩
    · intro _ _; rfl
    · intro t' r _
      exact (hI.no_has_of_idle ho t' r).1
    · intro r p w _ ha
      exact hI.initial p _ w t _ i ha ht ⟨role, Or.inl rfl⟩ (Or.inr ⟨rfl, ho⟩)
    · intro x p h; cases h
    · intro r h; cases h
    · intro _ t' r
      exact (hI.no_has_of_idle ho t' r).2
  | setFinalizer t role i hf hc ht => exact hI.silent _ (by intro g l w h; cases h)
  | fill t role i a hc ht ha =>
    have hrun := hI.running t role i ht
    have hi := hlt ht ⟨role, Or.inr (Or.inl rfl)⟩
    have hcase : a = rd (.epoch i) ∨ a.1 = .data i := by
      simp only [rd, wr, List.mem_cons, List.not_mem_nil, or_false] at ha
      rcases ha with rfl | rfl | rfl <;> simp [rd]
    refine hI.access (g := t) (l := a.1) (w := a.2) ?_
    rcases hcase with rfl | hd
    · refine ⟨hi, ?_, ?_, ?_, ?_, ?_⟩
      · intro p w' hp hw
        simp only [rd, Bool.false_eq_true, false_or] at hw
        exact hI.initial p _ w' t _ i hp ht ⟨role, Or.inr (Or.inl rfl)⟩ (Or.inl ⟨rfl, hw⟩)
      · intro h; cases h
      · rintro t' th j h1 h2 (⟨_, h⟩ | ⟨h, _⟩) <;> cases h
      · intro t' r j h1 h; cases h
      · intro j x h1 h; cases h
    · rw [hd]
      refine ⟨hi, ?_, ?_, ?_, ?_, ?_⟩
      · intro p w' hp _
        exact hI.filling t role i p w' ht hp
      · intro h
        have : (s.proc.base.mgr.heap i).once = .idle := h
        rw [hrun] at this
        cases this
      · rintro t' th j h1 h2 (⟨h, _⟩ | ⟨h, h'⟩)
        · cases h
        · cases h
          rw [hrun] at h'
          cases h'
      · intro t' r j h1 h
        cases h
        exact hI.single t' t r role i h1 ht
      · intro j x h1 h
        cases h
        rw [hrun] at h1
        cases h1
  | finish t role i r hc ht hb =>
    have hi := hlt ht ⟨role, Or.inr (Or.inl rfl)⟩
    have hI1 := hI.silent (.user t, .onceEnd i) (by intro g l w h; cases h)
    have old : ∀ {p l w}, IsAcc (s.trace ++ [(.user t, .onceEnd i)]) p l w → IsAcc s.trace p l w := fun h => h.old (by intro g l w h; cases h)
    refine Inv.once_change (s := { s with trace := s.trace ++ [(.user t, .onceEnd i)] }) hI1 (i₀ := i) (t₀ := t) (o := .done (some r))
      (th₀ := .ended role i) (by simp) rfl rfl rfl rfl ?_ hi ?_ ?_ ?_ ?_ ?_ ?_ ?_
    · rintro j ⟨r, h | h | h⟩ <;> cases h
      rfl
    · intro p l w ha h3 _
      refine (hI.initial p l w t _ i (old ha) ht ⟨role, Or.inr (Or.inl rfl)⟩ ?_).mono _
      rcases h3 with h3 | ⟨rfl, h3⟩
      · exact Or.inl h3
      · rw [(Manager.setOnce_heap _ _ _ _).2.2, if_pos rfl] at h3
        cases h3
    · intro _ h; cases h
    · intro t' r' hne h
      exact hne (hI.single t' t r' role i h ht)
    · intro _ _ _ h; cases h
    · intro x p _ ha
      exact (hI.filling t role i p true ht (old ha)).onceEnd i
    · intro _ _
      exact ⟨⟨_, rfl⟩, fun p ha => (hI.filling t role i p true ht (old ha)).mono _⟩
    · intro h; exact absurd rfl (h _)
  | finishPanic t role i p hc ht hb =>
    have hi := hlt ht ⟨role, Or.inr (Or.inl rfl)⟩
    have hI1 := hI.silent (.user t, .onceEnd i) (by intro g l w h; cases h)
    have old : ∀ {p l w}, IsAcc (s.trace ++ [(.user t, .onceEnd i)]) p l w → IsAcc s.trace p l w := fun h => h.old (by intro g l w h; cases h)
    refine Inv.once_change (s := { s with trace := s.trace ++ [(.user t, .onceEnd i)] }) hI1 (i₀ := i) (t₀ := t) (o := .done none)
      (th₀ := .panicked role) (by simp) rfl rfl rfl rfl ?_ hi ?_ ?_ ?_ ?_ ?_ ?_ ?_
    · rintro j ⟨r, h | h | h⟩ <;> cases h
    · rintro p l w ha h3 ⟨r, h | h | h⟩ <;> cases h
    · intro _ h; cases h
    · intro t' r' hne h
      exact hne (hI.single t' t r' role i h ht)
    · intro _ _ _ h; cases h
    · intro x p _ ha
      exact (hI.filling t role i p true ht (old ha)).onceEnd i
    · intro _ h; cases h
    · intro h; exact absurd rfl (h _)
  | skip t role i r hc ht ho =>
    have hi := hlt ht ⟨role, Or.inl rfl⟩
    have hI1 := hI.silent (.user t, .onceReturn i) (by intro g l w h; cases h)
    have old : ∀ {p l w}, IsAcc (s.trace ++ [(.user t, .onceReturn i)]) p l w → IsAcc s.trace p l w := fun h => h.old (by intro g l w h; cases h)
    have hself : s.proc.base.mgr = s.proc.base.mgr.setOnce i (.done r) := by rw [← ho]; exact (Mutex.setOnce_self _ _).symm
    refine Inv.once_change (s := { s with trace := s.trace ++ [(.user t, .onceReturn i)] }) hI1 (i₀ := i) (t₀ := t) (o := .done r)
      (th₀ := .ended role i) (by simp) hself rfl rfl rfl ?_ hi ?_ ?_ ?_ ?_ ?_ ?_ ?_
    · rintro j ⟨r, h | h | h⟩ <;> cases h
      rfl
    · intro p l w ha h3 _
      refine (hI.initial p l w t _ i (old ha) ht ⟨role, Or.inl rfl⟩ ?_).mono _
      rcases h3 with h3 | ⟨rfl, h3⟩
      · exact Or.inl h3
      · rw [(Manager.setOnce_heap _ _ _ _).2.2, if_pos rfl] at h3
        cases h3
    · intro _ h; cases h
    · intro t' r' hne h
      have := hI.running t' r' i h
      rw [ho] at this
      cases this
    · intro _ _ _ h; cases h
    · intro x p _ ha
      exact (hI.done i r p ho (old ha)).mono _
    · intro _ _
      exact ⟨⟨_, rfl⟩, fun p ha => (hI.done i r p ho (old ha)).onceReturn t⟩
    · intro h; exact absurd rfl (h _)
  | read t e i hc ht hr =>
    have hi := hlt ht ⟨some e, Or.inr (Or.inr rfl)⟩
    obtain ⟨⟨x, hx⟩, hk⟩ := hI.ended t (some e) i ht
    refine hI.access (g := t) (l := .data i) (w := false) ⟨hi, ?_, ?_, ?_, ?_, ?_⟩
    · intro p w' hp hw
      simp only [Bool.false_eq_true, false_or] at hw
      subst hw
      exact hk p hp
    · intro h
      have : (s.proc.base.mgr.heap i).once = .idle := h
      rw [hx] at this
      cases this
    · rintro t' th j h1 h2 (⟨h, _⟩ | ⟨h, h'⟩)
      · cases h
      · cases h
        rw [hx] at h'
        cases h'
    · intro t' r j h1 h
      cases h
      have := hI.running t' r i h1
      rw [hx] at this
      cases this
    · intro j x _ _; rfl
  | ret t e i hc ht => exact ⟨hI.below, hI.caches, hI.future, hI.refs, hI.phase, hI.guarded, hI.initial, hI.running, hI.single, hI.filling,
      hI.done, hI.ended, hI.free⟩
  | finalize i t hf hc hu hi =>
    have h1 := hI.silent (.finalizer, .finalize i) (by intro g l w h; cases h)
    have h2 := h1.silent (.finalizer, .access (.data i) false) (by intro g l w h; cases h)
    have h3 := h2.silent (.finalizer, .access (.data i) true) (by intro g l w h; cases h)
    simpa using h3

/-! ## the finalizer comes last -/

/-- the statement at which the section stands refers to the cache -/
def Mentions : Phase → Nat → Prop
  | .look, _ => False
  | .evict rest best, i => (∃ e, (e, i) ∈ rest) ∨ best = some i
  | .take, _ => False
  | .store c, i => c = i
  | .ahead c, i => c = i
  | .spawn c f, i => c = i ∨ f = i
  | .use c, i => c = i
  | .unlock c, i => c = i

/-- nothing refers to the cache any more -/
structure Gone (s : State) (i : Nat) : Prop where
  old : i < s.proc.base.mgr.fresh
  caches : ∀ e, (e, i) ∉ s.proc.base.mgr.caches
  future : s.proc.base.mgr.future ≠ some i
  phase : ∀ h, s.proc.holder = some h → ¬ Mentions h.phase i
  threads : ∀ (t : Nat) (r : Option U64), s.proc.base.threads[t]? ≠ some (.waiting r i) ∧ s.proc.base.threads[t]? ≠ some (.filling r i)
  ended : ∀ (t : Nat) (e : U64), s.proc.base.threads[t]? = some (.ended (some e) i) → t ∈ s.returned

/-- the location belongs to the cache -/
def Part : Loc → Nat → Prop
  | .map, _ => False
  | .future, _ => False
  | .epoch j, i => j = i
  | .used j, i => j = i
  | .data j, i => j = i

/-- the operations of the program do not touch the cache -/
def Off (l : Trace Loc) (i : Nat) : Prop := ∀ (g : Nat) (x : Loc) (w : Bool), (.user g, .access x w) ∈ l → ¬ Part x i

theorem off_accs {g : Nat} {as : List Acc} {i : Nat} (h : ∀ a ∈ as, ¬ Part a.1 i) : Off (accs g as) i := by
  intro g' x w hm
  unfold accs at hm
  obtain ⟨a, ha, he⟩ := List.mem_map.mp hm
  cases he
  exact h a ha

theorem off_sync {g : Nat} {e : Event Loc} {i : Nat} (h : ∀ x w, e ≠ .access x w) : Off [(.user g, e)] i := by
  intro g' x w hm
  rw [List.mem_singleton] at hm
  cases hm
  exact absurd rfl (h x w)

theorem off_append {l l' : Trace Loc} {i : Nat} (h : Off l i) (h' : Off l' i) : Off (l ++ l') i := by
  intro g x w hm
  rcases List.mem_append.mp hm with hm | hm
  · exact h g x w hm
  · exact h' g x w hm

theorem not_part_future {m : Mgr} {i : Nat} (h : m.future ≠ some i) : ∀ a ∈ futureAcc m, ¬ Part a.1 i := by
  intro a ha
  unfold futureAcc at ha
  cases hf : m.future with
  | none =>
    rw [hf] at ha
    simp only [rd, List.mem_singleton] at ha
    subst ha
    exact id
  | some f =>
    rw [hf] at ha h
    simp only [rd, List.mem_cons, List.not_mem_nil, or_false] at ha
    rcases ha with rfl | rfl | rfl
    · exact id
    · exact id
    · exact fun he => h (congrArg some he)

theorem not_part_created {i j : Nat} (h : i < j) : ∀ a ∈ created j, ¬ Part a.1 i := by
  intro a ha
  simp only [created, wr, List.mem_cons, List.not_mem_nil, or_false] at ha
  rcases ha with rfl | rfl | rfl <;> exact fun he => absurd h (by simp only [Part] at he; omega)

/-- a statement of the section -/
theorem Gone.at {s : State} {i : Nat} (hg : Gone s i) {h : Holder} {m : Mgr} {p : Phase} (tr : Trace Loc)
    (hf : s.proc.base.mgr.fresh ≤ m.fresh) (hc : ∀ e, (e, i) ∉ m.caches) (hu : m.future ≠ some i) (hp : ¬ Mentions p i) :
    Gone { s with proc := s.proc.at h m p, trace := tr } i where
  old := Nat.lt_of_lt_of_le hg.old hf
  caches := hc
  future := hu
  phase := by
    intro x hx
    rw [← Option.some.inj hx]
    exact hp
  threads := hg.threads
  ended := hg.ended

theorem get_set_has {l : List Thread} {t t' : Nat} {a th : Thread} (h : (l.set t a)[t']? = some th) (hne : th ≠ a) : l[t']? = some th := by
  rcases Manager.get_set h with ⟨_, he⟩ | ⟨_, h⟩
  · exact absurd he hne
  · exact h

theorem get_push {l : List Thread} {t' : Nat} {a th : Thread} (h : (l ++ [a])[t']? = some th) (hne : th ≠ a) : l[t']? = some th := by
  by_cases hl : t' < l.length
  · rw [List.getElem?_append_left hl] at h; exact h
  · rw [List.getElem?_append_right (by omega)] at h
    have := List.mem_of_getElem? h
    rw [List.mem_singleton] at this
    exact absurd this hne

theorem gone_step {s s' : State} {i : Nat} (hg : Gone s i) (hs : Step fin k Body s s') :
    Gone s' i ∧ ∃ l, s'.trace = s.trace ++ l ∧ Off l i := by
  have hnil : Off [] i := by intro g x w h; cases h
  cases hs with
  | call e hc =>
    refine ⟨⟨hg.old, hg.caches, hg.future, hg.phase, ?_, ?_⟩, [], by simp, hnil⟩
    · exact fun t r => ⟨fun h => (hg.threads t r).1 (get_push h (by simp)), fun h => (hg.threads t r).2 (get_push h (by simp))⟩
    · exact fun t e h => hg.ended t e (get_push h (by simp))
  | lock t e hc hst hh ht =>
    refine ⟨⟨hg.old, hg.caches, hg.future, ?_, hg.threads, hg.ended⟩, _, rfl, off_sync (by simp)⟩
    intro h hx
    rw [← Option.some.inj hx]
    exact id
  | hit h c hc hh hp hm =>
    refine ⟨hg.at _ (Nat.le_refl _) hg.caches hg.future ?_, _, rfl, off_accs ?_⟩
    · intro he
      have he : c = i := he
      subst he
      exact hg.caches _ (Manager.get_some hm)
    · intro a ha
      simp only [rd, List.mem_cons, List.not_mem_nil, or_false] at ha
      rcases ha with rfl | rfl <;> exact id
  | room h hc hh hp hm hk =>
    refine ⟨hg.at _ (Nat.le_refl _) hg.caches hg.future id, _, rfl, off_accs ?_⟩
    intro a ha
    simp only [rd, List.mem_cons, List.not_mem_nil, or_false] at ha
    rcases ha with rfl | rfl | rfl <;> exact id
  | full h order hc hh hp hm hk ho =>
    refine ⟨hg.at _ (Nat.le_refl _) hg.caches hg.future ?_, _, rfl, off_accs ?_⟩
    · rintro (⟨e, he⟩ | he)
      · exact hg.caches e (ho.mem_iff.mp he)
      · cases he
    · intro a ha
      simp only [rd, List.mem_cons, List.not_mem_nil, or_false] at ha
      rcases ha with rfl | rfl | rfl <;> exact id
  | scan h x rest best hc hh hp =>
    have hph := hg.phase h hh
    rw [hp] at hph
    have hx : x.2 ≠ i := by
      intro he
      subst he
      exact hph (Or.inl ⟨x.1, by simp⟩)
    refine ⟨hg.at _ (Nat.le_refl _) hg.caches hg.future ?_, _, rfl, off_accs ?_⟩
    · rintro (⟨e, he⟩ | he)
      · exact hph (Or.inl ⟨e, by simp [he]⟩)
      · cases best with
        | none => exact hx (Option.some.inj he)
        | some b =>
          simp only [evictStep] at he
          by_cases hu : (s.proc.base.mgr.heap x.2).used < (s.proc.base.mgr.heap b).used
          · rw [if_pos hu] at he
            exact hx (Option.some.inj he)
          · rw [if_neg hu] at he
            exact hph (Or.inr he)
    · intro a ha
      cases best with
      | none =>
        simp only [scanAcc, rd, List.mem_singleton] at ha
        subst ha
        exact id
      | some b =>
        simp only [scanAcc, rd, List.mem_cons, List.not_mem_nil, or_false] at ha
        rcases ha with rfl | rfl | rfl
        · exact id
        · exact fun he => hph (Or.inr (congrArg some he))
        · exact hx
  | drop h v hc hh hp =>
    have hph := hg.phase h hh
    rw [hp] at hph
    refine ⟨hg.at _ (Nat.le_refl _) (fun e he => hg.caches e (List.mem_of_mem_filter he)) hg.future id, _, rfl, off_accs ?_⟩
    intro a ha
    simp only [rd, wr, List.mem_cons, List.not_mem_nil, or_false] at ha
    rcases ha with rfl | rfl
    · exact fun he => hph (Or.inr (congrArg some he))
    · exact id
  | nilEvict h hc hh hp =>
    refine ⟨⟨hg.old, hg.caches, hg.future, (by intro h hx; cases hx), ?_, ?_⟩, [], by simp [State.does, accs], hnil⟩
    · exact fun t r => ⟨fun h => (hg.threads t r).1 (get_set_has h (by simp)), fun h => (hg.threads t r).2 (get_set_has h (by simp))⟩
    · exact fun t e h => hg.ended t e (get_set_has h (by simp))
  | take h hc hh hp =>
    rcases take_cases h.epoch s.proc.base.mgr with ⟨f, hf, ht, ha⟩ | ⟨ht, ha⟩
    · rw [ht, ha]
      refine ⟨hg.at _ (Nat.le_refl _) hg.caches (by simp) ?_, _, rfl, off_accs ?_⟩
      · intro he
        have he : f = i := he
        subst he
        exact hg.future hf
      · intro a ha
        rcases List.mem_append.mp ha with ha | ha
        · exact not_part_future hg.future a ha
        · simp only [rd, wr, List.mem_cons, List.not_mem_nil, or_false] at ha
          rcases ha with rfl | rfl <;> exact id
    · rw [ht, ha]
      refine ⟨hg.at _ (Nat.le_succ _) hg.caches hg.future ?_, _, rfl, off_accs ?_⟩
      · intro he
        have he : s.proc.base.mgr.fresh = i := he
        have := hg.old
        omega
      · intro a ha
        rcases List.mem_append.mp ha with ha | ha
        · exact not_part_future hg.future a ha
        · exact not_part_created hg.old a ha
  | store h c hc hh hp =>
    have hph := hg.phase h hh
    rw [hp] at hph
    refine ⟨hg.at _ (Nat.le_refl _) ?_ hg.future hph, _, rfl, off_accs ?_⟩
    · intro e he
      rcases List.mem_cons.mp he with he | he
      · exact hph (Prod.mk.inj he).2.symm
      · exact hg.caches e (List.mem_of_mem_filter he)
    · intro a ha
      simp only [wr, List.mem_singleton] at ha
      subst ha
      exact id
  | keep h c m hc hh hp hm =>
    have hph := hg.phase h hh
    rw [hp] at hph
    have he : m = s.proc.base.mgr := by
      rcases preGenerate_cases h.epoch s.proc.base.mgr with h1 | h1
      · rw [h1] at hm; exact (Prod.mk.inj hm).1.symm
      · rw [h1] at hm; cases (Prod.mk.inj hm).2
    subst he
    exact ⟨hg.at _ (Nat.le_refl _) hg.caches hg.future hph, _, rfl, off_accs (not_part_future hg.future)⟩
  | next h c f m hc hh hp hm =>
    have hph := hg.phase h hh
    rw [hp] at hph
    have he : m = (startFuture h.epoch s.proc.base.mgr).1 ∧ f = s.proc.base.mgr.fresh := by
      rcases preGenerate_cases h.epoch s.proc.base.mgr with h1 | h1
      · rw [h1] at hm; cases (Prod.mk.inj hm).2
      · rw [h1] at hm
        exact ⟨(Prod.mk.inj hm).1.symm, (Option.some.inj (Prod.mk.inj hm).2).symm⟩
    obtain ⟨rfl, rfl⟩ := he
    have hne : s.proc.base.mgr.fresh ≠ i := Nat.ne_of_gt hg.old
    refine ⟨hg.at _ (Nat.le_succ _) hg.caches (fun he => hne (Option.some.inj he)) ?_, _, rfl, off_accs ?_⟩
    · rintro (he | he)
      · exact hph he
      · exact hne he
    · intro a ha
      rcases List.mem_append.mp ha with ha | ha
      · rcases List.mem_append.mp ha with ha | ha
        · exact not_part_future hg.future a ha
        · exact not_part_created hg.old a ha
      · simp only [wr, List.mem_singleton] at ha
        subst ha
        exact id
  | spawn h c f hc hh hp =>
    have hph := hg.phase h hh
    rw [hp] at hph
    refine ⟨⟨hg.old, hg.caches, hg.future, ?_, ?_, ?_⟩, accs h.thread [rd .future] ++ [(.user h.thread, .go s.proc.base.threads.length)],
      (by simp [State.does, State.syncs]), off_append (off_accs ?_) (off_sync (by simp))⟩
    · intro x hx
      rw [← Option.some.inj hx]
      exact fun he => hph (Or.inl he)
    · refine fun t r => ⟨fun h => (hg.threads t r).1 (get_push h ?_), fun h => (hg.threads t r).2 (get_push h (by simp))⟩
      intro he
      cases he
      exact hph (Or.inr rfl)
    · exact fun t e h => hg.ended t e (get_push h (by simp))
    · intro a ha
      simp only [rd, List.mem_singleton] at ha
      subst ha
      exact id
  | use h c now hc hh hp hn =>
    have hph := hg.phase h hh
    rw [hp] at hph
    refine ⟨⟨hg.old, hg.caches, hg.future, ?_, hg.threads, hg.ended⟩, _, rfl, off_accs ?_⟩
    · intro x hx
      rw [← Option.some.inj hx]
      exact hph
    · intro a ha
      simp only [wr, List.mem_singleton] at ha
      subst ha
      exact hph
  | unlock h c hc hh hp =>
    have hph := hg.phase h hh
    rw [hp] at hph
    refine ⟨⟨hg.old, hg.caches, hg.future, (by intro h hx; cases hx), ?_, ?_⟩, _, rfl, off_sync (by simp)⟩
    · refine fun t r => ⟨fun h => (hg.threads t r).1 (get_set_has h ?_), fun h => (hg.threads t r).2 (get_set_has h (by simp))⟩
      intro he
      cases he
      exact hph rfl
    · exact fun t e h => hg.ended t e (get_set_has h (by simp))
  | start t role j hc ht ho =>
    have hne : j ≠ i := by
      rintro rfl
      exact (hg.threads t role).1 ht
    refine ⟨⟨hg.old, hg.caches, hg.future, hg.phase, ?_, ?_⟩, [], by simp [State.does, accs], hnil⟩
    · refine fun t r => ⟨fun h => (hg.threads t r).1 (get_set_has h (by simp)), fun h => (hg.threads t r).2 (get_set_has h ?_)⟩
      intro he
      cases he
      exact hne rfl
    · exact fun t e h => hg.ended t e (get_set_has h (by simp))
  | setFinalizer t role j hf hc ht => exact ⟨⟨hg.old, hg.caches, hg.future, hg.phase, hg.threads, hg.ended⟩, _, rfl, off_sync (by simp)⟩
  | fill t role j a hc ht ha =>
    have hne : j ≠ i := by
      rintro rfl
      exact (hg.threads t role).2 ht
    refine ⟨⟨hg.old, hg.caches, hg.future, hg.phase, hg.threads, hg.ended⟩, _, rfl, off_accs ?_⟩
    intro b hb
    rw [List.mem_singleton] at hb
    subst hb
    simp only [rd, wr, List.mem_cons, List.not_mem_nil, or_false] at ha
    rcases ha with rfl | rfl | rfl <;> exact hne
  | finish t role j r hc ht hb =>
    have hne : j ≠ i := by
      rintro rfl
      exact (hg.threads t role).2 ht
    refine ⟨⟨hg.old, hg.caches, hg.future, hg.phase, ?_, ?_⟩, _, rfl, off_sync (by simp)⟩
    · exact fun t r => ⟨fun h => (hg.threads t r).1 (get_set_has h (by simp)), fun h => (hg.threads t r).2 (get_set_has h (by simp))⟩
    · refine fun t e h => hg.ended t e (get_set_has h ?_)
      intro he
      cases he
      exact hne rfl
  | finishPanic t role j p hc ht hb =>
    refine ⟨⟨hg.old, hg.caches, hg.future, hg.phase, ?_, ?_⟩, _, rfl, off_sync (by simp)⟩
    · exact fun t r => ⟨fun h => (hg.threads t r).1 (get_set_has h (by simp)), fun h => (hg.threads t r).2 (get_set_has h (by simp))⟩
    · exact fun t e h => hg.ended t e (get_set_has h (by simp))
  | skip t role j r hc ht ho =>
    have hne : j ≠ i := by
      rintro rfl
      exact (hg.threads t role).1 ht
    refine ⟨⟨hg.old, hg.caches, hg.future, hg.phase, ?_, ?_⟩, _, rfl, off_sync (by simp)⟩
    · exact fun t r => ⟨fun h => (hg.threads t r).1 (get_set_has h (by simp)), fun h => (hg.threads t r).2 (get_set_has h (by simp))⟩
    · refine fun t e h => hg.ended t e (get_set_has h ?_)
      intro he
      cases he
      exact hne rfl
  | read t e j hc ht hr =>
    refine ⟨⟨hg.old, hg.caches, hg.future, hg.phase, hg.threads, hg.ended⟩, _, rfl, off_accs ?_⟩
    intro b hb
    rw [List.mem_singleton] at hb
    subst hb
    intro he
    have he : j = i := he
    subst he
    exact hr (hg.ended t e ht)
  | ret t e j hc ht =>
    exact ⟨⟨hg.old, hg.caches, hg.future, hg.phase, hg.threads, fun t e h => List.mem_cons_of_mem _ (hg.ended t e h)⟩, [], by simp, hnil⟩
  | finalize j t hf hc hm hn hu =>
    refine ⟨⟨hg.old, hg.caches, hg.future, hg.phase, hg.threads, hg.ended⟩, _, rfl, ?_⟩
    intro g x w h
    simp only [List.mem_cons, List.not_mem_nil, or_false] at h
    rcases h with h | h | h <;> cases h

theorem inv_reach {s : State} (h : Reach fin k Body s) : Inv s := by
  induction h with
  | init => exact inv_init
  | step _ hs ih => exact inv_step ih hs

theorem not_set_accs {g t i : Nat} {as : List Acc} : (Gid.user t, Event.setFinalizer i) ∉ accs g as := by
  intro h
  unfold accs at h
  obtain ⟨a, _, he⟩ := List.mem_map.mp h
  cases he

theorem step_new {s s' : State} (hs : Step fin k Body s s') : ∃ l, s'.trace = s.trace ++ l ∧ s.proc.base.mgr.fresh ≤ s'.proc.base.mgr.fresh ∧
    ∀ t i, (Gid.user t, Event.setFinalizer i) ∈ l → ∃ r, s.proc.base.threads[t]? = some (.filling r i) := by
  have hsy : ∀ {g : Nat} {e : Event Loc} {t i : Nat}, (∀ o, e ≠ .setFinalizer o) → (Gid.user t, Event.setFinalizer i) ∈ [(Gid.user g, e)] →
      ∃ r, s.proc.base.threads[t]? = some (.filling r i) := by
    intro g e t i h hm
    rw [List.mem_singleton] at hm
    cases hm
    exact absurd rfl (h _)
  cases hs with
  | call e hc => exact ⟨[], by simp, Nat.le_refl _, by intro t i h; cases h⟩
  | lock t e hc hst hh ht => exact ⟨_, rfl, Nat.le_refl _, fun t i h => hsy (by simp) h⟩
  | hit h c hc hh hp hm => exact ⟨_, rfl, Nat.le_refl _, fun t i h => absurd h not_set_accs⟩
  | room h hc hh hp hm hk => exact ⟨_, rfl, Nat.le_refl _, fun t i h => absurd h not_set_accs⟩
  | full h order hc hh hp hm hk ho => exact ⟨_, rfl, Nat.le_refl _, fun t i h => absurd h not_set_accs⟩
  | scan h x rest best hc hh hp => exact ⟨_, rfl, Nat.le_refl _, fun t i h => absurd h not_set_accs⟩
  | drop h v hc hh hp => exact ⟨_, rfl, Nat.le_refl _, fun t i h => absurd h not_set_accs⟩
  | nilEvict h hc hh hp => exact ⟨_, rfl, Nat.le_refl _, fun t i h => absurd h not_set_accs⟩
  | take h hc hh hp =>
    refine ⟨_, rfl, ?_, fun t i h => absurd h not_set_accs⟩
    rcases take_cases h.epoch s.proc.base.mgr with ⟨f, hf, ht, ha⟩ | ⟨ht, ha⟩
    · rw [ht]
      exact Nat.le_refl _
    · rw [ht]
      exact Nat.le_succ _
  | store h c hc hh hp => exact ⟨_, rfl, Nat.le_refl _, fun t i h => absurd h not_set_accs⟩
  | keep h c m hc hh hp hm =>
    refine ⟨_, rfl, ?_, fun t i h => absurd h not_set_accs⟩
    rcases preGenerate_cases h.epoch s.proc.base.mgr with h1 | h1
    · rw [h1] at hm
      rw [← (Prod.mk.inj hm).1]
      exact Nat.le_refl _
    · rw [h1] at hm; cases (Prod.mk.inj hm).2
  | next h c f m hc hh hp hm =>
    refine ⟨_, rfl, ?_, fun t i h => absurd h not_set_accs⟩
    rcases preGenerate_cases h.epoch s.proc.base.mgr with h1 | h1
    · rw [h1] at hm; cases (Prod.mk.inj hm).2
    · rw [h1] at hm
      rw [← (Prod.mk.inj hm).1]
      exact Nat.le_succ _
  | spawn h c f hc hh hp =>
    refine ⟨accs h.thread [rd .future] ++ [(.user h.thread, .go s.proc.base.threads.length)], by simp [State.does, State.syncs], Nat.le_refl _, ?_⟩
    intro t i h
    rcases List.mem_append.mp h with h | h
    · exact absurd h not_set_accs
    · exact hsy (by simp) h
  | use h c now hc hh hp hn => exact ⟨_, rfl, Nat.le_refl _, fun t i h => absurd h not_set_accs⟩
  | unlock h c hc hh hp => exact ⟨_, rfl, Nat.le_refl _, fun t i h => hsy (by simp) h⟩
  | start t role j hc ht ho => exact ⟨_, rfl, Nat.le_refl _, fun t i h => absurd h not_set_accs⟩
  | setFinalizer t role j hf hc ht =>
    refine ⟨_, rfl, Nat.le_refl _, ?_⟩
    intro t' i h
    rw [List.mem_singleton] at h
    cases h
    exact ⟨role, ht⟩
  | fill t role j a hc ht ha => exact ⟨_, rfl, Nat.le_refl _, fun t i h => absurd h not_set_accs⟩
  | finish t role j r hc ht hb => exact ⟨_, rfl, Nat.le_refl _, fun t i h => hsy (by simp) h⟩
  | finishPanic t role j p hc ht hb => exact ⟨_, rfl, Nat.le_refl _, fun t i h => hsy (by simp) h⟩
  | skip t role j r hc ht ho => exact ⟨_, rfl, Nat.le_refl _, fun t i h => hsy (by simp) h⟩
  | read t e j hc ht hr => exact ⟨_, rfl, Nat.le_refl _, fun t i h => absurd h not_set_accs⟩
  | ret t e j hc ht => exact ⟨[], by simp, Nat.le_refl _, by intro t i h; cases h⟩
  | finalize j t hf hc hm hn hu =>
    refine ⟨_, rfl, Nat.le_refl _, ?_⟩
    intro t i h
    simp only [List.mem_cons, List.not_mem_nil, or_false] at h
    rcases h with h | h | h <;> cases h

/-- a finalizer was set only for a cache that exists -/
theorem set_below {s : State} (h : Reach fin k Body s) : ∀ t i, (Gid.user t, Event.setFinalizer i) ∈ s.trace → i < s.proc.base.mgr.fresh := by
  induction h with
  | init => intro t i h; cases h
  | step hr hs ih =>
    intro t i hm
    obtain ⟨l, hl, hf, hn⟩ := step_new hs
    rw [hl] at hm
    refine Nat.lt_of_lt_of_le ?_ hf
    rcases List.mem_append.mp hm with hm | hm
    · exact ih t i hm
    · obtain ⟨r, h⟩ := hn t i hm
      exact (inv_reach hr).refs t _ i h ⟨r, Or.inr (Or.inl rfl)⟩

theorem finalizer_new {s s' : State} (hs : Step fin k Body s s') (q i : Nat) (hq : s'.trace[q]? = some (.finalizer, .finalize i)) :
    s.trace[q]? = some (.finalizer, .finalize i) ∨
    Unreachable s i ∧ q = s.trace.length ∧ s'.proc = s.proc ∧ s'.returned = s.returned ∧ (∃ t, (.user t, .setFinalizer i) ∈ s.trace) ∧
      ∀ (p g : Nat) (x : Loc) (w : Bool), s'.trace[p]? = some (.user g, .access x w) → p < s.trace.length := by
  have key : ∀ l : Trace Loc, s'.trace = s.trace ++ l → (∀ x ∈ l, ∃ g e, x = (Gid.user g, e)) → s.trace[q]? = some (.finalizer, .finalize i) := by
    intro l hl hu
    rw [hl] at hq
    by_cases h : q < s.trace.length
    · rw [List.getElem?_append_left h] at hq; exact hq
    · rw [List.getElem?_append_right (by omega)] at hq
      obtain ⟨g, e, h⟩ := hu _ (List.mem_of_getElem? hq)
      cases h
  have hacc : ∀ (g : Nat) (as : List Acc), ∀ x ∈ accs g as, ∃ g e, x = (Gid.user g, e) := by
    intro g as x hx
    unfold accs at hx
    obtain ⟨a, _, rfl⟩ := List.mem_map.mp hx
    exact ⟨_, _, rfl⟩
  have hsy : ∀ (g : Nat) (e : Event Loc), ∀ x ∈ [(Gid.user g, e)], ∃ g e, x = (Gid.user g, e) := by
    intro g e x hx
    rw [List.mem_singleton] at hx
    exact ⟨_, _, hx⟩
  cases hs with
  | call e hc => exact Or.inl hq
  | lock t e hc hst hh ht => exact Or.inl (key _ rfl (hsy _ _))
  | hit h c hc hh hp hm => exact Or.inl (key _ rfl (hacc _ _))
  | room h hc hh hp hm hk => exact Or.inl (key _ rfl (hacc _ _))
  | full h order hc hh hp hm hk ho => exact Or.inl (key _ rfl (hacc _ _))
  | scan h x rest best hc hh hp => exact Or.inl (key _ rfl (hacc _ _))
  | drop h v hc hh hp => exact Or.inl (key _ rfl (hacc _ _))
  | nilEvict h hc hh hp => exact Or.inl (key _ rfl (hacc _ _))
  | take h hc hh hp => exact Or.inl (key _ rfl (hacc _ _))
  | store h c hc hh hp => exact Or.inl (key _ rfl (hacc _ _))
  | keep h c m hc hh hp hm => exact Or.inl (key _ rfl (hacc _ _))
  | next h c f m hc hh hp hm => exact Or.inl (key _ rfl (hacc _ _))
  | spawn h c f hc hh hp =>
    refine Or.inl (key (accs h.thread [rd .future] ++ [(.user h.thread, .go s.proc.base.threads.length)]) (by simp [State.does, State.syncs]) ?_)
    intro x hx
    rcases List.mem_append.mp hx with hx | hx
    · exact hacc _ _ x hx
    · exact hsy _ _ x hx
  | use h c now hc hh hp hn => exact Or.inl (key _ rfl (hacc _ _))
  | unlock h c hc hh hp => exact Or.inl (key _ rfl (hsy _ _))
  | start t role j hc ht ho => exact Or.inl (key _ rfl (hacc _ _))
  | setFinalizer t role j hf hc ht => exact Or.inl (key _ rfl (hsy _ _))
  | fill t role j a hc ht ha => exact Or.inl (key _ rfl (hacc _ _))
  | finish t role j r hc ht hb => exact Or.inl (key _ rfl (hsy _ _))
  | finishPanic t role j p hc ht hb => exact Or.inl (key _ rfl (hsy _ _))
  | skip t role j r hc ht ho => exact Or.inl (key _ rfl (hsy _ _))
  | read t e j hc ht hr => exact Or.inl (key _ rfl (hacc _ _))
  | ret t e j hc ht => exact Or.inl hq
  | finalize j t hf hc hm hn hu =>
    by_cases h : q < s.trace.length
    · simp only at hq
      rw [List.getElem?_append_left h] at hq
      exact Or.inl hq
    · right
      have hlen := get_lt hq
      simp only [List.length_append, List.length_cons, List.length_nil] at hlen
      simp only at hq
      rw [List.getElem?_append_right (by omega)] at hq
      obtain ⟨d, hd⟩ : ∃ d, d = q - s.trace.length := ⟨_, rfl⟩
      rw [← hd] at hq
      have hd3 : d = 0 ∨ d = 1 ∨ d = 2 := by omega
      rcases hd3 with rfl | rfl | rfl
      · cases hq
        refine ⟨hu, by omega, rfl, rfl, ⟨t, hm⟩, ?_⟩
        intro p g x w hp
        by_contra hlt
        simp only at hp
        rw [List.getElem?_append_right (by omega)] at hp
        have hm := List.mem_of_getElem? hp
        simp only [List.mem_cons, List.not_mem_nil, or_false] at hm
        rcases hm with hm | hm | hm <;> cases hm
      · cases hq
      · cases hq

theorem finalizer_last {s : State} (h : Reach fin k Body s) : ∀ i q, s.trace[q]? = some (.finalizer, .finalize i) →
    Gone s i ∧ ∀ (p g : Nat) (x : Loc) (w : Bool), s.trace[p]? = some (.user g, .access x w) → Part x i → p < q := by
  induction h with
  | init => intro i q h; cases h
  | @step s s' hr hs ih =>
    intro i q hq
    rcases finalizer_new hs q i hq with hq | ⟨hu, rfl, hp, hre, ⟨t, ht⟩, hlast⟩
    · obtain ⟨hg, hlast⟩ := ih i q hq
      obtain ⟨hg', l, hl, ho⟩ := gone_step hg hs
      refine ⟨hg', ?_⟩
      intro p g x w hpa hpx
      rw [hl] at hpa
      by_cases h : p < s.trace.length
      · rw [List.getElem?_append_left h] at hpa
        exact hlast p g x w hpa hpx
      · rw [List.getElem?_append_right (by omega)] at hpa
        exact absurd hpx (ho g x w (List.mem_of_getElem? hpa))
    · refine ⟨?_, fun p g x w hpa _ => hlast p g x w hpa⟩
      have hlt := set_below hr t i ht
      refine ⟨?_, ?_, ?_, ?_, ?_, ?_⟩
      · rw [hp]; exact hlt
      · rw [hp]; exact hu.1
      · rw [hp]; exact hu.2.1
      · rw [hp]
        intro h hh
        rw [hu.2.2.1] at hh
        cases hh
      · rw [hp]; exact hu.2.2.2.1
      · rw [hp, hre]; exact hu.2.2.2.2

end Verif.Race
