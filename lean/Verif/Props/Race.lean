import Verif.Proof.Race
import Verif.Props.Mutex

/-! # No data races: property C79 -/

set_option autoImplicit false

namespace Verif.Props

open Go Dag Spec.Mem
open Manager (Mgr Thread Once evictStep takeCache preGenerate)
open Mutex (Holder Phase)
open Race (Loc Acc accs rd wr created Unreachable)

section
variable {fin : Prop} {k : Int} {Body : U64 → Go Loaded → Prop} {s s' : Race.State}

/-- **C79** Two accesses of the goroutines of the program to one location, of which one is a write, are ordered by the Go memory model: of
the map and the caches in it, of `dag.future`, of the fields of the caches and of the words of the caches, in every execution, with and
without finalizers. -/
theorem C79_race_free (h : Race.Reach fin k Body s) (p q g g' : Nat) (hpq : p < q) (hc : Conflict s.trace p q (.user g) (.user g')) :
    HB s.trace p q := (Race.inv_reach h).free p q g g' hpq hc

/-- no finalizers, no operations of the goroutine that runs them -/
theorem all_user (h : Race.Reach False k Body s) : ∀ x ∈ s.trace, ∃ g e, x = (Gid.user g, e) := by
  have hacc : ∀ (g : Nat) (as : List Acc), ∀ x ∈ accs g as, ∃ g e, x = (Gid.user g, e) := by
    intro g as x hx
    unfold accs at hx
    obtain ⟨a, _, rfl⟩ := List.mem_map.mp hx
    exact ⟨_, _, rfl⟩
  induction h with
  | init => intro x h; cases h
  | @step s s' hr hs ih =>
    have key : ∀ l : Trace Loc, (∀ x ∈ l, ∃ g e, x = (Gid.user g, e)) → ∀ x ∈ s.trace ++ l, ∃ g e, x = (Gid.user g, e) := by
      intro l hl x hx
      rcases List.mem_append.mp hx with hx | hx
      · exact ih x hx
      · exact hl x hx
    have hsy : ∀ (g : Nat) (e : Event Loc), ∀ x ∈ [(Gid.user g, e)], ∃ g e, x = (Gid.user g, e) := by
      intro g e x hx
      rw [List.mem_singleton] at hx
      exact ⟨_, _, hx⟩
    cases hs with
    | call e hc => exact ih
    | lock t e hc hst hh ht => exact key _ (hsy _ _)
    | hit h c hc hh hp hm => exact key _ (hacc _ _)
    | room h hc hh hp hm hk => exact key _ (hacc _ _)
    | full h order hc hh hp hm hk ho => exact key _ (hacc _ _)
    | scan h x rest best hc hh hp => exact key _ (hacc _ _)
    | drop h v hc hh hp => exact key _ (hacc _ _)
    | nilEvict h hc hh hp => exact key _ (hacc _ _)
    | take h hc hh hp => exact key _ (hacc _ _)
    | store h c hc hh hp => exact key _ (hacc _ _)
    | keep h c m hc hh hp hm => exact key _ (hacc _ _)
    | next h c f m hc hh hp hm => exact key _ (hacc _ _)
    | spawn h c f hc hh hp =>
      intro x hx
      rcases List.mem_append.mp hx with hx | hx
      · exact key _ (hacc _ _) x hx
      · exact hsy _ _ x hx
    | use h c now hc hh hp hn => exact key _ (hacc _ _)
    | unlock h c hc hh hp => exact key _ (hsy _ _)
    | start t role j hc ht ho => exact key _ (hacc _ _)
    | setFinalizer t role j hf hc ht => exact hf.elim
    | fill t role j a hc ht ha => exact key _ (hacc _ _)
    | finish t role j r hc ht hb => exact key _ (hsy _ _)
    | finishPanic t role j p hc ht hb => exact key _ (hsy _ _)
    | skip t role j r hc ht ho => exact key _ (hsy _ _)
    | read t e j hc ht hr => exact key _ (hacc _ _)
    | ret t e j hc ht => exact ih
    | finalize j t hf hc hm hn hu => exact hf.elim

/-- **C79** With caches in memory only, all executions are free of data races. -/
theorem C79_memory (h : Race.Reach False k Body s) : RaceFree s.trace := by
  rintro p q g g' hpq ⟨l, w, w', h1, h2, h3⟩
  obtain ⟨a, e, he⟩ := all_user h _ (List.mem_of_getElem? h1)
  obtain ⟨b, e', he'⟩ := all_user h _ (List.mem_of_getElem? h2)
  cases he
  cases he'
  exact C79_race_free h p q a b hpq ⟨l, w, w', h1, h2, h3⟩

/-- **C79** The finalizer of a cache runs after all accesses to the cache, in the order of time. -/
theorem C79_finalizer_last (h : Race.Reach fin k Body s) (i p q g : Nat) (x : Loc) (w : Bool)
    (hq : s.trace[q]? = some (.finalizer, .finalize i)) (hp : s.trace[p]? = some (.user g, .access x w))
    (hx : x = .epoch i ∨ x = .used i ∨ x = .data i) : p < q := by
  refine (Race.finalizer_last h i q hq).2 p g x w hp ?_
  rcases hx with rfl | rfl | rfl <;> rfl

/-! ## the accesses belong to the program of the other theorems -/

/-- no finalizer is set or run -/
def Quiet (l : Trace Loc) : Prop := ∀ x ∈ l, ∃ g e, x = (Gid.user g, e) ∧ ∀ o, e ≠ Event.setFinalizer o

theorem quiet_accs (g : Nat) (as : List Acc) : Quiet (accs g as) := by
  intro x hx
  unfold accs at hx
  obtain ⟨a, _, rfl⟩ := List.mem_map.mp hx
  exact ⟨_, _, rfl, by simp⟩

theorem quiet_sync {g : Nat} {e : Event Loc} (h : ∀ o, e ≠ .setFinalizer o) : Quiet [(Gid.user g, e)] := by
  intro x hx
  rw [List.mem_singleton] at hx
  exact ⟨_, _, hx, h⟩

theorem quiet_append {l l' : Trace Loc} (h : Quiet l) (h' : Quiet l') : Quiet (l ++ l') := by
  intro x hx
  rcases List.mem_append.mp hx with hx | hx
  · exact h x hx
  · exact h' x hx

/-- **C79** A step with its accesses is a step of the process, or changes nothing but what was recorded. -/
theorem C79_erase (hs : Race.Step fin k Body s s') : s'.proc = s.proc ∨ Mutex.Step k Body s.proc s'.proc := by
  cases hs with
  | call e hc => exact Or.inr (.call _ e hc)
  | lock t e hc hst hh ht => exact Or.inr (.lock _ t e hc hst hh ht)
  | hit h c hc hh hp hm => exact Or.inr (.hit _ h c hc hh hp hm)
  | room h hc hh hp hm hk => exact Or.inr (.room _ h hc hh hp hm hk)
  | full h order hc hh hp hm hk ho => exact Or.inr (.full _ h order hc hh hp hm hk ho)
  | scan h x rest best hc hh hp => exact Or.inr (.scan _ h x rest best hc hh hp)
  | drop h v hc hh hp => exact Or.inr (.drop _ h v hc hh hp)
  | nilEvict h hc hh hp => exact Or.inr (.nilEvict _ h hc hh hp)
  | take h hc hh hp => exact Or.inr (.take _ h hc hh hp)
  | store h c hc hh hp => exact Or.inr (.store _ h c hc hh hp)
  | keep h c m hc hh hp hm => exact Or.inr (.keep _ h c m hc hh hp hm)
  | next h c f m hc hh hp hm => exact Or.inr (.next _ h c f m hc hh hp hm)
  | spawn h c f hc hh hp => exact Or.inr (.spawn _ h c f hc hh hp)
  | use h c now hc hh hp hn => exact Or.inr (.use _ h c now hc hh hp hn)
  | unlock h c hc hh hp => exact Or.inr (.unlock _ h c hc hh hp)
  | start t role j hc ht ho => exact Or.inr (.start _ t role j hc ht ho)
  | setFinalizer t role j hf hc ht => exact Or.inl rfl
  | fill t role j a hc ht ha => exact Or.inl rfl
  | finish t role j r hc ht hb => exact Or.inr (.finish _ t role j r hc ht hb)
  | finishPanic t role j p hc ht hb => exact Or.inr (.finishPanic _ t role j p hc ht hb)
  | skip t role j r hc ht ho => exact Or.inr (.skip _ t role j r hc ht ho)
  | read t e j hc ht hr => exact Or.inl rfl
  | ret t e j hc ht => exact Or.inl rfl
  | finalize j t hf hc hm hn hu => exact Or.inl rfl

/-- **C79** Every step of the process is possible with its accesses. -/
theorem C79_lift (P : Mutex.State) (hs : Mutex.Step k Body s.proc P) :
    ∃ l, Quiet l ∧ Race.Step fin k Body s { s with proc := P, trace := s.trace ++ l } := by
  have h0 : s.trace ++ [] = s.trace := List.append_nil _
  cases hs with
  | call e hc =>
    refine ⟨[], (by intro x h; cases h), ?_⟩
    rw [h0]
    exact .call _ e hc
  | lock t e hc hst hh ht => exact ⟨_, quiet_sync (by simp), .lock _ t e hc hst hh ht⟩
  | hit h c hc hh hp hm => exact ⟨_, quiet_accs _ _, .hit _ h c hc hh hp hm⟩
  | room h hc hh hp hm hk => exact ⟨_, quiet_accs _ _, .room _ h hc hh hp hm hk⟩
  | full h order hc hh hp hm hk ho => exact ⟨_, quiet_accs _ _, .full _ h order hc hh hp hm hk ho⟩
  | scan h x rest best hc hh hp => exact ⟨_, quiet_accs _ _, .scan _ h x rest best hc hh hp⟩
  | drop h v hc hh hp => exact ⟨_, quiet_accs _ _, .drop _ h v hc hh hp⟩
  | nilEvict h hc hh hp => exact ⟨_, quiet_accs _ _, .nilEvict _ h hc hh hp⟩
  | take h hc hh hp => exact ⟨_, quiet_accs _ _, .take _ h hc hh hp⟩
  | store h c hc hh hp => exact ⟨_, quiet_accs _ _, .store _ h c hc hh hp⟩
  | keep h c m hc hh hp hm => exact ⟨_, quiet_accs _ _, .keep _ h c m hc hh hp hm⟩
  | next h c f m hc hh hp hm => exact ⟨_, quiet_accs _ _, .next _ h c f m hc hh hp hm⟩
  | spawn h c f hc hh hp =>
    refine ⟨accs h.thread [rd .future] ++ [(.user h.thread, .go s.proc.base.threads.length)],
      quiet_append (quiet_accs _ _) (quiet_sync (by simp)), ?_⟩
    rw [← List.append_assoc]
    exact .spawn _ h c f hc hh hp
  | use h c now hc hh hp hn => exact ⟨_, quiet_accs _ _, .use _ h c now hc hh hp hn⟩
  | unlock h c hc hh hp => exact ⟨_, quiet_sync (by simp), .unlock _ h c hc hh hp⟩
  | start t role j hc ht ho => exact ⟨_, quiet_accs _ _, .start _ t role j hc ht ho⟩
  | finish t role j r hc ht hb => exact ⟨_, quiet_sync (by simp), .finish _ t role j r hc ht hb⟩
  | finishPanic t role j p hc ht hb => exact ⟨_, quiet_sync (by simp), .finishPanic _ t role j p hc ht hb⟩
  | skip t role j r hc ht ho => exact ⟨_, quiet_sync (by simp), .skip _ t role j r hc ht ho⟩

/-- **C79** The executions are those of the process of C70. -/
theorem C79_executions (fin : Prop) (P : Mutex.State) : Mutex.Reach k Body P ↔ ∃ s : Race.State, Race.Reach fin k Body s ∧ s.proc = P := by
  constructor
  · intro h
    induction h with
    | init => exact ⟨_, .init, rfl⟩
    | step _ hs ih =>
      obtain ⟨s, hr, rfl⟩ := ih
      obtain ⟨l, _, h⟩ := C79_lift (fin := fin) _ hs
      exact ⟨_, hr.step h, rfl⟩
  · rintro ⟨s, hr, rfl⟩
    induction hr with
    | init => exact .init
    | step _ hs ih =>
      rcases C79_erase hs with h | h
      · rw [h]; exact ih
      · exact ih.step h

/-- what `s` and `s'` differ in is written in `l` by the goroutine that has the mutex -/
structure Recorded (s s' : Race.State) (l : Trace Loc) : Prop where
  caches : s'.proc.base.mgr.caches ≠ s.proc.base.mgr.caches → ∃ h, s.proc.holder = some h ∧ (.user h.thread, .access .map true) ∈ l
  future : s'.proc.base.mgr.future ≠ s.proc.base.mgr.future → ∃ h, s.proc.holder = some h ∧ (.user h.thread, .access .future true) ∈ l
  used : ∀ i, (s'.proc.base.mgr.heap i).used ≠ (s.proc.base.mgr.heap i).used →
    ∃ h, s.proc.holder = some h ∧ (.user h.thread, .access (.used i) true) ∈ l
  epoch : ∀ i, (s'.proc.base.mgr.heap i).epoch ≠ (s.proc.base.mgr.heap i).epoch →
    ∃ h, s.proc.holder = some h ∧ (.user h.thread, .access (.epoch i) true) ∈ l
  created : ∀ i, s.proc.base.mgr.fresh ≤ i → i < s'.proc.base.mgr.fresh →
    ∃ h, s.proc.holder = some h ∧ ∀ x ∈ [Loc.epoch i, .used i, .data i], (.user h.thread, .access x true) ∈ l

/-- **C79** No write is left out: what a step changes in the map, in `dag.future` or in the fields of a cache is among its accesses, as a write
of the goroutine that has the mutex. -/
theorem C79_writes (hs : Race.Step fin k Body s s') : ∃ l, s'.trace = s.trace ++ l ∧ Recorded s s' l := by
  have same : ∀ {l : Trace Loc}, s'.trace = s.trace ++ l → s'.proc.base.mgr = s.proc.base.mgr → ∃ l, s'.trace = s.trace ++ l ∧ Recorded s s' l := by
    intro l hl hm
    refine ⟨l, hl, ?_⟩
    constructor <;> rw [hm]
    · exact fun h => absurd rfl h
    · exact fun h => absurd rfl h
    · exact fun i h => absurd rfl h
    · exact fun i h => absurd rfl h
    · exact fun i h1 h2 => absurd h2 (by omega)
  have once : ∀ {l : Trace Loc} {j : Nat} {o : Once}, s'.trace = s.trace ++ l → s'.proc.base.mgr = s.proc.base.mgr.setOnce j o →
      ∃ l, s'.trace = s.trace ++ l ∧ Recorded s s' l := by
    intro l j o hl hm
    refine ⟨l, hl, ?_⟩
    constructor <;> rw [hm]
    · exact fun h => absurd rfl h
    · exact fun h => absurd rfl h
    · exact fun i h => absurd (Manager.setOnce_heap _ j o i).2.1 h
    · exact fun i h => absurd (Manager.setOnce_heap _ j o i).1 h
    · exact fun i (h1 : _ ≤ i) (h2 : i < s.proc.base.mgr.fresh) => absurd h2 (by omega)
  have hcre : ∀ {t i : Nat} {pre post : List Acc}, ∀ x ∈ [Loc.epoch i, .used i, .data i],
      ((Gid.user t, Event.access x true) : Gid × Event Loc) ∈ accs t (pre ++ created i ++ post) := by
    intro t i pre post x hx
    unfold accs
    refine List.mem_map.mpr ⟨(x, true), ?_, rfl⟩
    refine List.mem_append_left _ (List.mem_append_right _ ?_)
    simp only [List.mem_cons, List.not_mem_nil, or_false] at hx
    rcases hx with rfl | rfl | rfl <;> simp [created, wr]
  have halloc : ∀ (e : U64) (i : Nat), i ≠ s.proc.base.mgr.fresh → (s.proc.base.mgr.alloc e).1.heap i = s.proc.base.mgr.heap i := by
    intro e i hi
    simp [Manager.Mgr.alloc, hi]
  cases hs with
  | call e hc => exact same (l := []) (by simp) rfl
  | lock t e hc hst hh ht => exact same rfl rfl
  | hit h c hc hh hp hm => exact same rfl rfl
  | room h hc hh hp hm hk => exact same rfl rfl
  | full h order hc hh hp hm hk ho => exact same rfl rfl
  | scan h x rest best hc hh hp => exact same rfl rfl
  | drop h v hc hh hp =>
    refine ⟨_, rfl, fun _ => ⟨h, hh, by simp [accs, rd, wr]⟩, fun h => absurd rfl h, fun i h => absurd rfl h, fun i h => absurd rfl h, ?_⟩
    exact fun i (h1 : _ ≤ i) (h2 : i < s.proc.base.mgr.fresh) => absurd h2 (by omega)
  | nilEvict h hc hh hp => exact same rfl rfl
  | take h hc hh hp =>
    rcases Race.take_cases h.epoch s.proc.base.mgr with ⟨f, hf, ht, ha⟩ | ⟨ht, ha⟩
    · rw [ht, ha]
      refine ⟨_, rfl, fun h => absurd rfl h, fun _ => ⟨h, hh, by simp [accs, rd, wr]⟩, fun i h => absurd rfl h, fun i h => absurd rfl h, ?_⟩
      exact fun i (h1 : _ ≤ i) (h2 : i < s.proc.base.mgr.fresh) => absurd h2 (by omega)
    · rw [ht, ha, ← List.append_nil (created _), ← List.append_assoc]
      refine ⟨_, rfl, fun h => absurd rfl h, fun h => absurd rfl h, ?_, ?_, ?_⟩
      · intro i hi
        have : i = s.proc.base.mgr.fresh := by
          by_contra hne
          exact hi (congrArg _ (halloc h.epoch i hne))
        subst this
        exact ⟨h, hh, hcre _ (by simp)⟩
      · intro i hi
        have : i = s.proc.base.mgr.fresh := by
          by_contra hne
          exact hi (congrArg _ (halloc h.epoch i hne))
        subst this
        exact ⟨h, hh, hcre _ (by simp)⟩
      · intro i h1 h2
        have h2 : i < s.proc.base.mgr.fresh + 1 := h2
        have : i = s.proc.base.mgr.fresh := by omega
        subst this
        exact ⟨h, hh, hcre⟩
  | store h c hc hh hp =>
    refine ⟨_, rfl, fun _ => ⟨h, hh, by simp [accs, wr]⟩, fun h => absurd rfl h, fun i h => absurd rfl h, fun i h => absurd rfl h, ?_⟩
    exact fun i (h1 : _ ≤ i) (h2 : i < s.proc.base.mgr.fresh) => absurd h2 (by omega)
  | keep h c m hc hh hp hm =>
    refine same rfl ?_
    rcases Race.preGenerate_cases h.epoch s.proc.base.mgr with h1 | h1
    · rw [h1] at hm
      exact (Prod.mk.inj hm).1.symm
    · rw [h1] at hm; cases (Prod.mk.inj hm).2
  | next h c f m hc hh hp hm =>
    have he : m = (Manager.startFuture h.epoch s.proc.base.mgr).1 ∧ f = s.proc.base.mgr.fresh := by
      rcases Race.preGenerate_cases h.epoch s.proc.base.mgr with h1 | h1
      · rw [h1] at hm; cases (Prod.mk.inj hm).2
      · rw [h1] at hm
        exact ⟨(Prod.mk.inj hm).1.symm, (Option.some.inj (Prod.mk.inj hm).2).symm⟩
    obtain ⟨rfl, rfl⟩ := he
    refine ⟨_, rfl, fun h => absurd rfl h, fun _ => ⟨h, hh, by simp [accs, wr]⟩, ?_, ?_, ?_⟩
    · intro i hi
      have : i = s.proc.base.mgr.fresh := by
        by_contra hne
        exact hi (congrArg _ (halloc _ i hne))
      subst this
      exact ⟨h, hh, hcre _ (by simp)⟩
    · intro i hi
      have : i = s.proc.base.mgr.fresh := by
        by_contra hne
        exact hi (congrArg _ (halloc _ i hne))
      subst this
      exact ⟨h, hh, hcre _ (by simp)⟩
    · intro i h1 h2
      have h2 : i < s.proc.base.mgr.fresh + 1 := h2
      have : i = s.proc.base.mgr.fresh := by omega
      subst this
      exact ⟨h, hh, hcre⟩
  | spawn h c f hc hh hp =>
    exact same (l := accs h.thread [rd .future] ++ [(.user h.thread, .go s.proc.base.threads.length)]) (by simp [Race.State.does, Race.State.syncs]) rfl
  | use h c now hc hh hp hn =>
    clear same once
    have hu : ∀ i, i ≠ c → (s.proc.base.mgr.use c now).heap i = s.proc.base.mgr.heap i := fun i hi => Function.update_of_ne hi _ _
    have hs : ((s.proc.base.mgr.use c now).heap c).epoch = (s.proc.base.mgr.heap c).epoch := by
      show (Function.update s.proc.base.mgr.heap c _ c).epoch = _
      rw [Function.update_self]
    refine ⟨_, rfl, fun h => absurd rfl h, fun h => absurd rfl h, ?_, ?_, ?_⟩
    · intro i hi
      have : i = c := by
        by_contra hne
        exact hi (congrArg _ (hu i hne))
      subst this
      exact ⟨h, hh, by simp [accs, wr]⟩
    · intro i hi
      refine absurd ?_ hi
      by_cases hne : i = c
      · subst hne; exact hs
      · exact congrArg _ (hu i hne)
    · exact fun i (h1 : _ ≤ i) (h2 : i < s.proc.base.mgr.fresh) => absurd h2 (by omega)
  | unlock h c hc hh hp => exact same rfl rfl
  | start t role j hc ht ho => exact once rfl rfl
  | setFinalizer t role j hf hc ht => exact same rfl rfl
  | fill t role j a hc ht ha => exact same rfl rfl
  | finish t role j r hc ht hb => exact once rfl rfl
  | finishPanic t role j p hc ht hb => exact once rfl rfl
  | skip t role j r hc ht ho => exact same rfl rfl
  | read t e j hc ht hr => exact same rfl rfl
  | ret t e j hc ht => exact same (l := []) (by simp) rfl
  | finalize j t hf hc hm hn hu => exact same rfl rfl

end

/-! ## without synchronisation there is no order: the finalizer -/

/-- what happens before an operation of the goroutine of the finalizers is its own or comes, in time, before a call of `SetFinalizer` -/
theorem hb_into_finalizer {tr : Trace Loc} (hf : ∀ (q : Nat) (e : Event Loc), tr[q]? = some (.finalizer, e) → e ≠ .lock ∧ ∀ o, e ≠ .onceReturn o)
    {p q : Nat} (h : HB tr p q) : p < q ∧ ∀ e, tr[q]? = some (.finalizer, e) →
      (∃ e', tr[p]? = some (.finalizer, e')) ∨ ∃ j g o, p ≤ j ∧ tr[j]? = some (g, .setFinalizer o) := by
  induction h with
  | @program p q g e e' hl h1 h2 =>
    refine ⟨hl, fun x hx => ?_⟩
    rw [h2] at hx
    cases hx
    exact Or.inl ⟨_, h1⟩
  | @mutex p q g g' hl h1 h2 =>
    refine ⟨hl, fun x hx => ?_⟩
    rw [h2] at hx
    cases hx
    exact absurd rfl (hf _ _ h2).1
  | @go p q g c e hl h1 h2 =>
    refine ⟨hl, fun x hx => ?_⟩
    rw [h2] at hx
    cases hx
  | @once p q g g' o hl h1 h2 =>
    refine ⟨hl, fun x hx => ?_⟩
    rw [h2] at hx
    cases hx
    exact absurd rfl ((hf _ _ h2).2 _)
  | @finalizer p q g g' o hl h1 h2 =>
    exact ⟨hl, fun _ _ => Or.inr ⟨p, g, o, Nat.le_refl _, h1⟩⟩
  | @trans p m q _ _ ih1 ih2 =>
    refine ⟨Nat.lt_trans ih1.1 ih2.1, fun x hx => ?_⟩
    rcases ih2.2 x hx with ⟨e', he⟩ | ⟨j, g, o, hj, he⟩
    · exact ih1.2 e' he
    · exact Or.inr ⟨j, g, o, Nat.le_trans (Nat.le_of_lt ih1.1) hj, he⟩

section
variable {fin : Prop} {k : Int} {Body : U64 → Go Loaded → Prop} {s s' : Race.State}

theorem run_step (h : Race.Reach fin k Body s) (P : Mutex.State) (hs : Mutex.Step k Body s.proc P) :
    ∃ l, Quiet l ∧ Race.Reach fin k Body ⟨P, s.returned, s.trace ++ l⟩ := by
  obtain ⟨l, hq, hs⟩ := C79_lift (fin := fin) P hs
  exact ⟨l, hq, h.step hs⟩

theorem run_alone {P P' : Mutex.State} (ha : Alone k Body P P') (r : List Nat) (tr : Trace Loc) (h : Race.Reach fin k Body ⟨P, r, tr⟩) :
    ∃ l, Quiet l ∧ Race.Reach fin k Body ⟨P', r, tr ++ l⟩ := by
  induction ha with
  | refl => exact ⟨[], (by intro x h; cases h), by rw [List.append_nil]; exact h⟩
  | tail _ hs _ ih =>
    obtain ⟨l, hq, hr⟩ := ih
    obtain ⟨l', hq', hr'⟩ := run_step hr _ hs
    refine ⟨l ++ l', quiet_append hq hq', ?_⟩
    rw [← List.append_assoc]
    exact hr'

/-- a whole call of `GetCache` up to `Unlock` -/
theorem run_call {b : Manager.State} (r : List Nat) (tr : Trace Loc) (h : Race.Reach fin k Body ⟨⟨b, none⟩, r, tr⟩) (e : U64)
    (hc : b.crashed = false) (hst : b.stuck = false) (order : List (U64 × Nat)) (ho : order.Perm b.mgr.caches) (now : Nat) (hn : b.clock ≤ now)
    (m : Mgr) (c : Nat) (sp : Option Nat) (hl : Manager.locked k order now e b.mgr = .ok (m, c, sp)) :
    ∃ l, Quiet l ∧ Race.Reach fin k Body ⟨⟨{ b with
      mgr := m, clock := now, hist := (e, now) :: b.hist,
      threads := ((b.threads ++ [Thread.locking e]) ++ (sp.map fun f => Thread.waiting none f).toList).set b.threads.length (.waiting (some e) c) }, none⟩,
      r, tr ++ l⟩ := by
  obtain ⟨l₁, hq₁, h₁⟩ := run_step h _ (.call _ e hc)
  obtain ⟨l₂, hq₂, h₂⟩ := run_step h₁ _ (.lock _ b.threads.length e hc hst rfl (by simp))
  obtain ⟨l₃, hq₃, h₃⟩ := run_alone (alone_locked (k := k) (Body := Body) (b := { b with threads := b.threads ++ [.locking e] })
    (h := ⟨b.threads.length, e, .look⟩) hc rfl order ho now hn m c sp hl) _ _ h₂
  refine ⟨l₁ ++ (l₂ ++ l₃), quiet_append hq₁ (quiet_append hq₂ hq₃), ?_⟩
  rw [← List.append_assoc, ← List.append_assoc]
  exact h₃

end

/-- the hypotheses of `C79_race_free` are met: one call fills the cache, another for the same epoch reads it -/
example (Body : U64 → Go Loaded → Prop) (r : Loaded) (hr : Body 0 (.ok r)) :
    ∃ (s : Race.State) (p q : Nat), Race.Reach False 3 Body s ∧ p < q ∧ Conflict s.trace p q (.user 0) (.user 2) := by
  obtain ⟨l1, q1, h1⟩ := run_call (fin := False) (k := 3) (Body := Body) [] [] .init 0 rfl rfl [] (List.Perm.refl _) 1 (Nat.le_succ _) _ 0 (some 1) rfl
  obtain ⟨l2, q2, h2⟩ := run_step h1 _ (.start _ 0 (some 0) 0 rfl rfl rfl)
  have h3 := h2.step (.fill _ 0 (some 0) 0 (wr (.data 0)) rfl rfl (by simp))
  obtain ⟨l4, q4, h4⟩ := run_step h3 _ (.finish _ 0 (some 0) 0 r rfl rfl hr)
  obtain ⟨l5, q5, h5⟩ := run_call _ _ h4 0 rfl rfl [(0, 0)] (List.Perm.refl _) 2 (Nat.le_succ _) _ 0 none rfl
  obtain ⟨l6, q6, h6⟩ := run_step h5 _ (.skip _ 2 (some 0) 0 (some r) rfl rfl rfl)
  have h7 := h6.step (.read _ 2 0 0 rfl rfl (by simp [Race.State.does]))
  refine ⟨_, (l1 ++ l2).length, (l1 ++ l2).length + 1 + (l4 ++ l5 ++ l6).length, h7, by omega, .data 0, true, false, ?_, ?_, Or.inl rfl⟩
  · simp [Race.State.does, accs, wr, rd]
  · have : ((l1 ++ l2 ++ [(Gid.user 0, Event.access (Loc.data 0) true)] ++ (l4 ++ l5 ++ l6)) ++ [(Gid.user 2, Event.access (Loc.data 0) false)])[
        (l1 ++ l2 ++ [(Gid.user 0, Event.access (Loc.data 0) true)] ++ (l4 ++ l5 ++ l6)).length]? =
        some (.user 2, .access (.data 0) false) := by simp
    have hlen : (l1 ++ l2 ++ [(Gid.user 0, Event.access (Loc.data 0) true)] ++ (l4 ++ l5 ++ l6)).length =
      (l1 ++ l2).length + 1 + (l4 ++ l5 ++ l6).length := by simp only [List.length_append, List.length_singleton]
    rw [hlen] at this
    rw [← this]
    congr 1
    simp [Race.State.does, accs, wr, rd]

/-- an execution in which the body of `once.Do` writes its cache after it has set the finalizer, and the finalizer runs after three further
calls, with the shipped `CachesCount = 3` -/
theorem finalizer_run (Body : U64 → Go Loaded → Prop) (r : Loaded) (hr : Body 0 (.ok r)) :
    ∃ (s : Race.State) (l l' : Trace Loc), Race.Reach True 3 Body s ∧ Quiet l ∧ Quiet l' ∧
      s.trace = l ++ (.user 0, .setFinalizer 0) :: (.user 0, .access (.data 0) true) :: (l' ++
        [(.finalizer, .finalize 0), (.finalizer, .access (.data 0) false), (.finalizer, .access (.data 0) true)]) := by
  obtain ⟨l1, q1, h1⟩ := run_call (fin := True) (k := 3) (Body := Body) [] [] .init 0 rfl rfl [] (List.Perm.refl _) 1 (Nat.le_succ _) _ 0 (some 1) rfl
  obtain ⟨l2, q2, h2⟩ := run_step h1 _ (.start _ 0 (some 0) 0 rfl rfl rfl)
  have h3 := h2.step (.setFinalizer _ 0 (some 0) 0 trivial rfl rfl)
  have h4 := h3.step (.fill _ 0 (some 0) 0 (wr (.data 0)) rfl rfl (by simp))
  obtain ⟨l5, q5, h5⟩ := run_step h4 _ (.finish _ 0 (some 0) 0 r rfl rfl hr)
  have h6 := h5.step (.ret _ 0 0 0 rfl rfl)
  obtain ⟨l7, q7, h7⟩ := run_call _ _ h6 10 rfl rfl [(0, 0)] (List.Perm.refl _) 2 (Nat.le_succ _) _ 2 (some 3) rfl
  obtain ⟨l8, q8, h8⟩ := run_call _ _ h7 20 rfl rfl [(10, 2), (0, 0)] (List.Perm.refl _) 3 (Nat.le_succ _) _ 4 (some 5) rfl
  obtain ⟨l9, q9, h9⟩ := run_call _ _ h8 30 rfl rfl [(20, 4), (10, 2), (0, 0)] (List.Perm.refl _) 4 (Nat.le_succ _) _ 6 (some 7) rfl
  have hno : ∀ l, Quiet l → (Gid.finalizer, Event.finalize (Loc := Loc) 0) ∉ l := by
    intro l hl hm
    obtain ⟨g, e, he, _⟩ := hl _ hm
    cases he
  have h10 := h9.step (.finalize _ 0 0 trivial rfl (by simp [Race.State.syncs, Race.State.does]) (by
    simp [Race.State.syncs, Race.State.does, accs, hno l1 q1, hno l2 q2, hno l5 q5, hno l7 q7, hno l8 q8, hno l9 q9]) (by
      refine ⟨?_, ?_, rfl, ?_, ?_⟩
      · intro e hi
        have hi : (e, 0) ∈ ([(30, 6), (20, 4), (10, 2)] : List (U64 × Nat)) := hi
        simp at hi
      · intro hi
        have hi : some 7 = some 0 := hi
        cases hi
      · intro t x
        have hno : ∀ th ∈ [Thread.ended (some 0) 0, .waiting none 1, .waiting (some 10) 2, .waiting none 3, .waiting (some 20) 4, .waiting none 5,
            .waiting (some 30) 6, .waiting none 7], th ≠ .waiting x 0 ∧ th ≠ .filling x 0 := by
          intro th hm
          simp only [List.mem_cons, List.not_mem_nil, or_false] at hm
          rcases hm with rfl | rfl | rfl | rfl | rfl | rfl | rfl | rfl <;> simp
        exact ⟨fun h => (hno _ (List.mem_of_getElem? h)).1 rfl, fun h => (hno _ (List.mem_of_getElem? h)).2 rfl⟩
      · intro t e ht
        have ht : [Thread.ended (some 0) 0, .waiting none 1, .waiting (some 10) 2, .waiting none 3, .waiting (some 20) 4, .waiting none 5,
            .waiting (some 30) 6, .waiting none 7][t]? = some (.ended (some e) 0) := ht
        have : t = 0 := by
          rcases t with _ | _ | _ | _ | _ | _ | _ | _ | t <;> simp at ht
          rfl
        subst this
        exact List.mem_singleton.mpr rfl))
  refine ⟨_, l1 ++ l2, l5 ++ (l7 ++ (l8 ++ l9)), h10, quiet_append q1 q2, quiet_append q5 (quiet_append q7 (quiet_append q8 q9)), ?_⟩
  simp [Race.State.syncs, Race.State.does, accs, wr]

/-- **C79** Nothing in the code orders the writes of `generate` that come after `SetFinalizer` before the finalizer: in the sense of the
memory model they race, though the finalizer comes later in time (`C79_finalizer_last`). -/
theorem C79_finalizer_unordered (Body : U64 → Go Loaded → Prop) (r : Loaded) (hr : Body 0 (.ok r)) :
    ∃ (s : Race.State) (p q g : Nat), Race.Reach True 3 Body s ∧ p < q ∧ Conflict s.trace p q (.user g) .finalizer ∧ ¬ HB s.trace p q := by
  obtain ⟨s, l, l', hs, hl, hl', htr⟩ := finalizer_run Body r hr
  have hp : s.trace[l.length + 1]? = some (.user 0, .access (.data 0) true) := by
    rw [htr, List.getElem?_append_right (by omega)]
    simp
  have hq : s.trace[l.length + 2 + l'.length + 1]? = some (.finalizer, .access (.data 0) false) := by
    rw [htr, List.getElem?_append_right (by omega), show l.length + 2 + l'.length + 1 - l.length = l'.length + 1 + 1 + 1 by omega]
    simp only [List.getElem?_cons_succ]
    rw [List.getElem?_append_right (by omega)]
    simp
  refine ⟨s, l.length + 1, l.length + 2 + l'.length + 1, 0, hs, by omega, ⟨_, _, _, hp, hq, Or.inl rfl⟩, ?_⟩
  intro hb
  have hmem : ∀ (n : Nat) (x : Gid × Event Loc), s.trace[n]? = some x → x ∈ l ∨ x = (.user 0, .setFinalizer 0) ∨
      x = (.user 0, .access (.data 0) true) ∨ x ∈ l' ∨
      x ∈ [(Gid.finalizer, Event.finalize 0), (.finalizer, .access (.data 0) false), (.finalizer, .access (.data 0) true)] := by
    intro n x hx
    have := List.mem_of_getElem? hx
    rw [htr] at this
    simpa only [List.mem_append, List.mem_cons (b := (Gid.user 0, _))] using this
  have hf : ∀ (q : Nat) (e : Event Loc), s.trace[q]? = some (.finalizer, e) → e ≠ .lock ∧ ∀ o, e ≠ .onceReturn o := by
    intro q e he
    rcases hmem q _ he with h | h | h | h | h
    · obtain ⟨_, _, h, _⟩ := hl _ h; cases h
    · cases h
    · cases h
    · obtain ⟨_, _, h, _⟩ := hl' _ h; cases h
    · simp only [List.mem_cons, List.not_mem_nil, or_false] at h
      rcases h with h | h | h <;> cases h <;> simp
  rcases (hb_into_finalizer hf hb).2 _ hq with ⟨e', he⟩ | ⟨j, g, o, hj, he⟩
  · rw [hp] at he; cases he
  · rw [htr, List.getElem?_append_right (by omega)] at he
    obtain ⟨d, hd⟩ : ∃ d, j - l.length = d + 1 := ⟨j - l.length - 1, by omega⟩
    rw [hd, List.getElem?_cons_succ] at he
    have hm := List.mem_of_getElem? he
    rcases List.mem_cons.mp hm with h | hm
    · cases h
    · rcases List.mem_append.mp hm with hm | hm
      · obtain ⟨_, e, h, hne⟩ := hl' _ hm
        cases h
        exact hne o rfl
      · simp only [List.mem_cons, List.not_mem_nil, or_false] at hm
        rcases hm with h | h | h <;> cases h

end Verif.Props
