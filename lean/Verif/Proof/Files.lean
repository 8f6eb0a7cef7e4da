import Verif.Model.Files
import Verif.Spec.Disk
import Mathlib.Tactic.Tauto

/-! # Several processes on one directory: a logic for the programs of `Verif.Model.Files` -/

set_option autoImplicit false

namespace Verif.Files

open Go Dag

/-- what is known about a goroutine: the temporary file it is writing with its contents, the files it has opened or mapped with their
contents, and the numbers it drew -/
structure Ghost where
  own : Option (String × Nat × List Byte)
  held : List (Nat × List Byte)
  nums : List Nat

/- `Good` says which contents belong under a final name, `junk` whether files may also have contents that are rejected. -/
variable (Good : String → List Byte → Prop) (junk : Prop)

/-- temporary names of the files in question -/
def IsTemp (q : String) : Prop := ∃ p c n, Good p c ∧ q = tempPath p n

/-- the contents of the file are known -/
def Ghost.Knows (g : Ghost) (f : Nat) (c : List Byte) : Prop := (f, c) ∈ g.held ∨ ∃ name, g.own = some (name, f, c)

/-- when a call may be made, and what is known afterwards -/
def rule : (c : Call) → (c.Reply → Ghost → Prop) → Ghost → Prop
  | .mkdirAll _, Q, g => ∀ b : Bool, Q b g
  | .random, Q, g => ∀ n : Nat, Q n { g with nums := n :: g.nums }
  | .create path, Q, g => (∃ p c n, Good p c ∧ path = tempPath p n ∧ n ∈ g.nums) ∧ Q (none : Option Nat) g ∧
      ∀ f : Nat, Q (some f : Option Nat) { g with own := some (path, f, []) }
  | .open path, Q, g => ∃ c, Good path c ∧ Q (none : Option Nat) g ∧ ∀ (f : Nat) (c' : List Byte),
      (c' = c ∨ (junk ∧ Spec.Disk.Rejected c')) → Q (some f : Option Nat) { g with held := (f, c') :: g.held }
  | .truncate f n, Q, g => ∃ name c, g.own = some (name, f, c) ∧ Q false g ∧
      (0 ≤ n → Q true { g with own := some (name, f, resize c n.toNat) })
  | .map f, Q, g => Q false g ∧ ((∀ c, g.Knows f c → c ≠ []) → Q true g)
  | .read f, Q, g => ∃ c : List Byte, g.Knows f c ∧ Q c g
  | .store f off bytes, Q, g => ∃ name c, g.own = some (name, f, c) ∧ Q () { g with own := some (name, f, splice c off bytes) }
  | .lock _, Q, g => ∀ b : Bool, Q b g
  | .unmap _, Q, g => ∀ b : Bool, Q b g
  | .close _, Q, g => ∀ b : Bool, Q b g
  | .rename source target, Q, g => ∃ f c, g.own = some (source, f, c) ∧ Good target c ∧ Q false g ∧ Q true { g with own := none }
  | .remove _, Q, g => ∀ b : Bool, Q b g

/-- the program makes only calls it may make, does not panic, and ends with `Q` -/
def wp {α : Type} : Prog α → (α → Ghost → Prop) → Ghost → Prop
  | .ret a, Q, g => Q a g
  | .stop _, _, _ => False
  | .call c k, Q, g => rule Good junk c (fun r g => wp (k r) Q g) g

theorem rule_mono (c : Call) (Q Q' : c.Reply → Ghost → Prop) (h : ∀ r g, Q r g → Q' r g) (g : Ghost) (hr : rule Good junk c Q g) :
    rule Good junk c Q' g := by
  cases c with
  | mkdirAll p => exact fun b => h _ _ (hr b)
  | random => exact fun n => h _ _ (hr n)
  | create p => exact ⟨hr.1, h _ _ hr.2.1, fun f => h _ _ (hr.2.2 f)⟩
  | «open» p => obtain ⟨c, h1, h2, h3⟩ := hr; exact ⟨c, h1, h _ _ h2, fun f c' hc => h _ _ (h3 f c' hc)⟩
  | truncate f n => obtain ⟨a, c, h1, h2, h3⟩ := hr; exact ⟨a, c, h1, h _ _ h2, fun hn => h _ _ (h3 hn)⟩
  | map f => exact ⟨h _ _ hr.1, fun hc => h _ _ (hr.2 hc)⟩
  | read f => obtain ⟨c, h1, h2⟩ := hr; exact ⟨c, h1, h _ _ h2⟩
  | store f o b => obtain ⟨a, c, h1, h2⟩ := hr; exact ⟨a, c, h1, h _ _ h2⟩
  | lock f => exact fun b => h _ _ (hr b)
  | unmap f => exact fun b => h _ _ (hr b)
  | close f => exact fun b => h _ _ (hr b)
  | rename a b => obtain ⟨f, c, h1, h2, h3, h4⟩ := hr; exact ⟨f, c, h1, h2, h _ _ h3, h _ _ h4⟩
  | remove p => exact fun b => h _ _ (hr b)

theorem wp_mono {α : Type} (p : Prog α) (Q Q' : α → Ghost → Prop) (h : ∀ r g, Q r g → Q' r g) (g : Ghost) (hr : wp Good junk p Q g) :
    wp Good junk p Q' g := by
  induction p generalizing g with
  | ret a => exact h _ _ hr
  | stop s => exact hr
  | call c k ih => exact rule_mono Good junk c _ _ (fun r g => ih r g) g hr

theorem bind_ret {α β : Type} (a : α) (f : α → Prog β) : (Prog.ret a >>= f) = f a := rfl

theorem wp_bind {α β : Type} (p : Prog α) (f : α → Prog β) (Q : β → Ghost → Prop) (g : Ghost)
    (h : wp Good junk p (fun a g => wp Good junk (f a) Q g) g) : wp Good junk (p >>= f) Q g := by
  induction p generalizing g with
  | ret a => exact h
  | stop s => exact h
  | call c k ih => exact rule_mono Good junk c _ _ (fun r g h => ih r g h) g h

/-! ## The invariant -/

/-- a name under which the goroutine may write -/
def Mine (drawn : List (Nat × Nat)) (t : Nat) (name : String) : Prop := ∃ p c n, Good p c ∧ name = tempPath p n ∧ (t, n) ∈ drawn

/-- how the directory and what is known about the goroutines belong together -/
structure Core (d : Disk) (drawn : List (Nat × Nat)) (run : Nat → Prop) (G : Nat → Ghost) : Prop where
  inj : ∀ q q' f, d.names q = some f → d.names q' = some f → q = q'
  lt : ∀ q f, d.names q = some f → f < d.fresh
  good : ∀ q f c, d.names q = some f → Good q c → d.data f = c ∨ (junk ∧ Spec.Disk.Rejected (d.data f))
  excl : ∀ t t' n, run t → run t' → (t, n) ∈ drawn → (t', n) ∈ drawn → t = t'
  own : ∀ t name f c, (G t).own = some (name, f, c) → run t ∧ Mine Good drawn t name ∧ f < d.fresh ∧ d.data f = c ∧
    (∀ q, d.names q = some f → q = name) ∧ ∀ j, d.names name = some j → j = f
  held : ∀ t f c, (f, c) ∈ (G t).held → f < d.fresh ∧ d.data f = c ∧ ∀ q, d.names q = some f → ¬ IsTemp Good q
  nums : ∀ t, ∀ n ∈ (G t).nums, (t, n) ∈ drawn
  owners : ∀ t t' name name' f c c', (G t).own = some (name, f, c) → (G t').own = some (name', f, c') → t = t'
  sep : ∀ t t' name f c c', (f, c) ∈ (G t).held → (G t').own = some (name, f, c') → False

/-- new knowledge about one goroutine -/
def upd (G : Nat → Ghost) (t : Nat) (g : Ghost) : Nat → Ghost := fun t' => if t' = t then g else G t'

theorem upd_same (G : Nat → Ghost) (t : Nat) (g : Ghost) : upd G t g t = g := if_pos rfl
theorem upd_other (G : Nat → Ghost) (t t' : Nat) (g : Ghost) (h : t' ≠ t) : upd G t g t' = G t' := if_neg h

section
variable {Good} {junk} {d : Disk} {drawn : List (Nat × Nat)} {run : Nat → Prop} {G : Nat → Ghost}
variable (h : Core Good junk d drawn run G)
include h

theorem Core.knows {t : Nat} {f : Nat} {c : List Byte} (hk : (G t).Knows f c) : d.data f = c := by
  rcases hk with hk | ⟨name, hk⟩
  · exact (h.held t f c hk).2.1
  · exact (h.own t name f c hk).2.2.2.1

/-- fewer goroutines run, and what they owned is forgotten -/
theorem Core.less {run' : Nat → Prop} {G' : Nat → Ghost} (hr : ∀ t, run' t → run t)
    (ho : ∀ t x, (G' t).own = some x → (G t).own = some x ∧ run' t) (hh : ∀ t, (G' t).held = (G t).held)
    (hn : ∀ t, (G' t).nums = (G t).nums) : Core Good junk d drawn run' G' where
  inj := h.inj
  lt := h.lt
  good := h.good
  excl t t' n h1 h2 := h.excl t t' n (hr t h1) (hr t' h2)
  own t name f c hx := ⟨(ho t _ hx).2, (h.own t name f c (ho t _ hx).1).2⟩
  held t f c hx := h.held t f c (hh t ▸ hx)
  nums t n hx := h.nums t n (hn t ▸ hx)
  owners t t' name name' f c c' h1 h2 := h.owners t t' name name' f c c' (ho t _ h1).1 (ho t' _ h2).1
  sep t t' name f c c' h1 h2 := h.sep t t' name f c c' (hh t ▸ h1) (ho t' _ h2).1

/-- the owner writes to its file -/
theorem Core.put {t : Nat} {name : String} {f : Nat} {c : List Byte} (ho : (G t).own = some (name, f, c))
    (ht : ∀ q c', Good q c' → ¬ IsTemp Good q) (c' : List Byte) :
    Core Good junk (d.put f c') drawn run (upd G t { G t with own := some (name, f, c') }) := by
  obtain ⟨o1, o2, o3, o4, o5, o6⟩ := h.own t name f c ho
  have htemp : IsTemp Good name := by obtain ⟨p, c, n, h1, h2, _⟩ := o2; exact ⟨p, c, n, h1, h2⟩
  have hown : ∀ t' name' f' c'', (upd G t { G t with own := some (name, f, c') } t').own = some (name', f', c'') →
      ∃ c0, (G t').own = some (name', f', c0) ∧ (f' = f → t' = t ∧ c'' = c') ∧ (f' ≠ f → c'' = c0) := by
    intro t' name' f' c'' hx
    by_cases htt : t' = t
    · subst htt
      rw [upd_same] at hx
      injection hx with hx
      simp only [Prod.mk.injEq] at hx
      obtain ⟨rfl, rfl, rfl⟩ := hx
      exact ⟨c, ho, fun _ => ⟨rfl, rfl⟩, fun hne => absurd rfl hne⟩
    · rw [upd_other _ _ _ _ htt] at hx
      refine ⟨c'', hx, ?_, fun _ => rfl⟩
      rintro rfl
      exact absurd (h.owners t' t name' name f' c'' c hx ho) htt
  have hheld : ∀ t', (upd G t { G t with own := some (name, f, c') } t').held = (G t').held := by
    intro t'
    by_cases htt : t' = t
    · subst htt; rw [upd_same]
    · rw [upd_other _ _ _ _ htt]
  have hnums : ∀ t', (upd G t { G t with own := some (name, f, c') } t').nums = (G t').nums := by
    intro t'
    by_cases htt : t' = t
    · subst htt; rw [upd_same]
    · rw [upd_other _ _ _ _ htt]
  refine ⟨h.inj, h.lt, ?_, h.excl, ?_, ?_, ?_, ?_, ?_⟩
  · intro q f' c'' hq hg
    show (if f' = f then c' else d.data f') = c'' ∨ (junk ∧ Spec.Disk.Rejected (if f' = f then c' else d.data f'))
    by_cases hff : f' = f
    · subst hff
      have := o5 q hq
      subst this
      exact absurd htemp (ht q c'' hg)
    · rw [if_neg hff]; exact h.good q f' c'' hq hg
  · intro t' name' f' c'' hx
    obtain ⟨c0, h1, h2, h3⟩ := hown t' name' f' c'' hx
    obtain ⟨p1, p2, p3, p4, p5, p6⟩ := h.own t' name' f' c0 h1
    refine ⟨p1, p2, p3, ?_, p5, p6⟩
    show (if f' = f then c' else d.data f') = c''
    by_cases hff : f' = f
    · rw [if_pos hff, (h2 hff).2]
    · rw [if_neg hff, h3 hff, p4]
  · intro t' f' c'' hx
    rw [hheld] at hx
    obtain ⟨p1, p2, p3⟩ := h.held t' f' c'' hx
    refine ⟨p1, ?_, p3⟩
    show (if f' = f then c' else d.data f') = c''
    rw [if_neg, p2]
    rintro rfl
    exact h.sep t' t name f' c'' c hx ho
  · intro t' n hx
    rw [hnums] at hx
    exact h.nums t' n hx
  · intro t1 t2 n1 n2 f' c1 c2 h1 h2
    obtain ⟨_, h1, _⟩ := hown _ _ _ _ h1
    obtain ⟨_, h2, _⟩ := hown _ _ _ _ h2
    exact h.owners _ _ _ _ _ _ _ h1 h2
  · intro t1 t2 n1 f' c1 c2 h1 h2
    rw [hheld] at h1
    obtain ⟨_, h2, _⟩ := hown _ _ _ _ h2
    exact h.sep _ _ _ _ _ _ h1 h2

omit h in
theorem bind_names (path q : String) (x : Option Nat) (f : Nat) (hq : (d.bind path x).names q = some f) :
    (q = path ∧ x = some f) ∨ (q ≠ path ∧ d.names q = some f) := by
  by_cases hp : q = path
  · left
    refine ⟨hp, ?_⟩
    have : (if q = path then x else d.names q) = some f := hq
    rwa [if_pos hp] at this
  · right
    refine ⟨hp, ?_⟩
    have : (if q = path then x else d.names q) = some f := hq
    rwa [if_neg hp] at this

/-- somebody removes a file -/
theorem Core.unbind (path : String) : Core Good junk (d.bind path none) drawn run G := by
  have hb : ∀ q f, (d.bind path none).names q = some f → d.names q = some f := by
    intro q f hq
    rcases bind_names path q none f hq with ⟨_, h1⟩ | ⟨_, h1⟩
    · cases h1
    · exact h1
  refine ⟨fun q q' f h1 h2 => h.inj q q' f (hb _ _ h1) (hb _ _ h2), fun q f h1 => h.lt q f (hb _ _ h1),
    fun q f c h1 h2 => h.good q f c (hb _ _ h1) h2, h.excl, ?_, ?_, h.nums, h.owners, h.sep⟩
  · intro t name f c hx
    obtain ⟨p1, p2, p3, p4, p5, p6⟩ := h.own t name f c hx
    exact ⟨p1, p2, p3, p4, fun q hq => p5 q (hb _ _ hq), fun j hj => p6 j (hb _ _ hj)⟩
  · intro t f c hx
    obtain ⟨p1, p2, p3⟩ := h.held t f c hx
    exact ⟨p1, p2, fun q hq => p3 q (hb _ _ hq)⟩

/-- a goroutine draws a number -/
theorem Core.draw (t n : Nat) (hn : ∀ t', run t' → t' ≠ t → (t', n) ∉ drawn) :
    Core Good junk d ((t, n) :: drawn) run (upd G t { G t with nums := n :: (G t).nums }) := by
  have hown : ∀ t', (upd G t { G t with nums := n :: (G t).nums } t').own = (G t').own := by
    intro t'
    by_cases htt : t' = t
    · subst htt; rw [upd_same]
    · rw [upd_other _ _ _ _ htt]
  have hheld : ∀ t', (upd G t { G t with nums := n :: (G t).nums } t').held = (G t').held := by
    intro t'
    by_cases htt : t' = t
    · subst htt; rw [upd_same]
    · rw [upd_other _ _ _ _ htt]
  refine ⟨h.inj, h.lt, h.good, ?_, ?_, fun t' f c hx => h.held t' f c (hheld t' ▸ hx), ?_, ?_, ?_⟩
  · intro t1 t2 m r1 r2 h1 h2
    rcases List.mem_cons.mp h1 with h1 | h1 <;> rcases List.mem_cons.mp h2 with h2 | h2
    · rw [(Prod.mk.inj h1).1, (Prod.mk.inj h2).1]
    · by_contra hne
      rw [(Prod.mk.inj h1).2] at h2
      exact hn t2 r2 (fun hh => hne (by rw [(Prod.mk.inj h1).1, hh])) h2
    · by_contra hne
      rw [(Prod.mk.inj h2).2] at h1
      exact hn t1 r1 (fun hh => hne (by rw [(Prod.mk.inj h2).1, hh])) h1
    · exact h.excl t1 t2 m r1 r2 h1 h2
  · intro t' name f c hx
    rw [hown] at hx
    obtain ⟨p1, ⟨p, c', m, q1, q2, q3⟩, p3⟩ := h.own t' name f c hx
    exact ⟨p1, ⟨p, c', m, q1, q2, List.mem_cons_of_mem _ q3⟩, p3⟩
  · intro t' m hm
    by_cases htt : t' = t
    · subst htt
      rw [upd_same] at hm
      rcases List.mem_cons.mp hm with hm | hm
      · rw [hm]; exact List.mem_cons_self
      · exact List.mem_cons_of_mem _ (h.nums t' m hm)
    · rw [upd_other _ _ _ _ htt] at hm
      exact List.mem_cons_of_mem _ (h.nums t' m hm)
  · intro t1 t2 n1 n2 f c1 c2 h1 h2
    rw [hown] at h1 h2
    exact h.owners _ _ _ _ _ _ _ h1 h2
  · intro t1 t2 n1 f c1 c2 h1 h2
    rw [hheld] at h1
    rw [hown] at h2
    exact h.sep _ _ _ _ _ _ h1 h2

/-- a goroutine opens a file under its final name -/
theorem Core.opened (ht : ∀ q c', Good q c' → ¬ IsTemp Good q) (t : Nat) (path : String) (f : Nat) (c : List Byte)
    (hp : d.names path = some f) (hg : Good path c) :
    Core Good junk d drawn run (upd G t { G t with held := (f, d.data f) :: (G t).held }) := by
  have hown : ∀ t', (upd G t { G t with held := (f, d.data f) :: (G t).held } t').own = (G t').own := by
    intro t'
    by_cases htt : t' = t
    · subst htt; rw [upd_same]
    · rw [upd_other _ _ _ _ htt]
  have hheld : ∀ t' f' c', (f', c') ∈ (upd G t { G t with held := (f, d.data f) :: (G t).held } t').held →
      (f' = f ∧ c' = d.data f) ∨ (f', c') ∈ (G t').held := by
    intro t' f' c' hx
    by_cases htt : t' = t
    · subst htt
      rw [upd_same] at hx
      rcases List.mem_cons.mp hx with hx | hx
      · exact Or.inl (Prod.mk.inj hx)
      · exact Or.inr hx
    · rw [upd_other _ _ _ _ htt] at hx
      exact Or.inr hx
  have hnums : ∀ t', (upd G t { G t with held := (f, d.data f) :: (G t).held } t').nums = (G t').nums := by
    intro t'
    by_cases htt : t' = t
    · subst htt; rw [upd_same]
    · rw [upd_other _ _ _ _ htt]
  refine ⟨h.inj, h.lt, h.good, h.excl, fun t' name f c hx => h.own t' name f c (hown t' ▸ hx), ?_,
    fun t' n hx => h.nums t' n (hnums t' ▸ hx), ?_, ?_⟩
  · intro t' f' c' hx
    rcases hheld t' f' c' hx with ⟨rfl, rfl⟩ | hx
    · refine ⟨h.lt _ _ hp, rfl, ?_⟩
      intro q hq
      rw [h.inj q path f' hq hp]
      exact ht path c hg
    · exact h.held t' f' c' hx
  · intro t1 t2 n1 n2 f c1 c2 h1 h2
    rw [hown] at h1 h2
    exact h.owners _ _ _ _ _ _ _ h1 h2
  · intro t1 t2 n1 f' c1 c2 h1 h2
    rw [hown] at h2
    rcases hheld t1 f' c1 h1 with ⟨rfl, rfl⟩ | h1
    · obtain ⟨_, ⟨p, c', m, q1, q2, q3⟩, _, _, p5, _⟩ := h.own t2 n1 f' c2 h2
      have := p5 path hp
      subst this
      exact ht path c hg ⟨p, c', m, q1, q2⟩
    · exact h.sep _ _ _ _ _ _ h1 h2

/-- the owner moves its file to a final name -/
theorem Core.renamed (hu : ∀ q c c', Good q c → Good q c' → c = c') (ht : ∀ q c', Good q c' → ¬ IsTemp Good q) (t : Nat)
    (source target : String) (f j : Nat) (c : List Byte) (ho : (G t).own = some (source, f, c)) (hg : Good target c)
    (hs : d.names source = some j) :
    Core Good junk ((d.bind source none).bind target (some j)) drawn run (upd G t { G t with own := none }) := by
  obtain ⟨o1, o2, o3, o4, o5, o6⟩ := h.own t source f c ho
  have hj := o6 j hs
  subst hj
  have htemp : IsTemp Good source := by obtain ⟨p, c, n, h1, h2, _⟩ := o2; exact ⟨p, c, n, h1, h2⟩
  have hown : ∀ t' x, (upd G t { G t with own := none } t').own = some x → (G t').own = some x ∧ t' ≠ t := by
    intro t' x hx
    by_cases htt : t' = t
    · subst htt; rw [upd_same] at hx; cases hx
    · rw [upd_other _ _ _ _ htt] at hx; exact ⟨hx, htt⟩
  have hheld : ∀ t', (upd G t { G t with own := none } t').held = (G t').held := by
    intro t'
    by_cases htt : t' = t
    · subst htt; rw [upd_same]
    · rw [upd_other _ _ _ _ htt]
  have hnums : ∀ t', (upd G t { G t with own := none } t').nums = (G t').nums := by
    intro t'
    by_cases htt : t' = t
    · subst htt; rw [upd_same]
    · rw [upd_other _ _ _ _ htt]
  have hb : ∀ q f', ((d.bind source none).bind target (some j)).names q = some f' →
      (q = target ∧ f' = j) ∨ (q ≠ target ∧ d.names q = some f' ∧ f' ≠ j) := by
    intro q f' hq
    rcases bind_names target q (some j) f' hq with ⟨h1, h2⟩ | ⟨h1, h2⟩
    · injection h2 with h2; exact Or.inl ⟨h1, h2.symm⟩
    · rcases bind_names source q none f' h2 with ⟨h3, h4⟩ | ⟨h3, h4⟩
      · cases h4
      · refine Or.inr ⟨h1, h4, ?_⟩
        rintro rfl
        exact h3 (o5 q h4)
  refine ⟨?_, ?_, ?_, h.excl, ?_, ?_, fun t' n hx => h.nums t' n (hnums t' ▸ hx), ?_, ?_⟩
  · intro q q' f' h1 h2
    rcases hb q f' h1 with ⟨a1, a2⟩ | ⟨a1, a2, a3⟩ <;> rcases hb q' f' h2 with ⟨b1, b2⟩ | ⟨b1, b2, b3⟩
    · rw [a1, b1]
    · exact absurd a2 b3
    · exact absurd b2 a3
    · exact h.inj q q' f' a2 b2
  · intro q f' h1
    rcases hb q f' h1 with ⟨a1, a2⟩ | ⟨a1, a2, a3⟩
    · rw [a2]; exact o3
    · exact h.lt q f' a2
  · intro q f' c' h1 h2
    rcases hb q f' h1 with ⟨a1, a2⟩ | ⟨a1, a2, a3⟩
    · rw [a1] at h2
      left
      show d.data f' = c'
      rw [a2, o4]
      exact hu _ _ _ hg h2
    · exact h.good q f' c' a2 h2
  · intro t' name f' c' hx
    obtain ⟨hx, hne⟩ := hown t' _ hx
    obtain ⟨p1, p2, p3, p4, p5, p6⟩ := h.own t' name f' c' hx
    have hff : f' ≠ j := by
      rintro rfl
      exact hne (h.owners t' t name source f' c' c hx ho)
    refine ⟨p1, p2, p3, p4, ?_, ?_⟩
    · intro q hq
      rcases hb q f' hq with ⟨a1, a2⟩ | ⟨a1, a2, a3⟩
      · exact absurd a2 hff
      · exact p5 q a2
    · intro i hi
      rcases hb name i hi with ⟨a1, a2⟩ | ⟨a1, a2, a3⟩
      · exfalso
        obtain ⟨p, c0, m, q1, q2, _⟩ := p2
        rw [a1] at q2
        exact ht target c hg ⟨p, c0, m, q1, q2⟩
      · exact p6 i a2
  · intro t' f' c' hx
    rw [hheld] at hx
    obtain ⟨p1, p2, p3⟩ := h.held t' f' c' hx
    refine ⟨p1, p2, ?_⟩
    intro q hq
    rcases hb q f' hq with ⟨a1, a2⟩ | ⟨a1, a2, a3⟩
    · rw [a1]; exact ht target c hg
    · exact p3 q a2
  · intro t1 t2 n1 n2 f c1 c2 h1 h2
    exact h.owners _ _ _ _ _ _ _ (hown _ _ h1).1 (hown _ _ h2).1
  · intro t1 t2 n1 f' c1 c2 h1 h2
    rw [hheld] at h1
    exact h.sep _ _ _ _ _ _ h1 (hown _ _ h2).1

/-- a goroutine creates a temporary file -/
theorem Core.created (hi : ∀ p p' n n', tempPath p n = tempPath p' n' → n = n') (ht : ∀ q c', Good q c' → ¬ IsTemp Good q) (t : Nat)
    (hrun : run t) (path : String) (hm : Mine Good drawn t path) (f : Nat) (d' : Disk)
    (hd : (d.names path = none ∧ f = d.fresh ∧ d' = { (d.bind path (some d.fresh)).put d.fresh [] with fresh := d.fresh + 1 }) ∨
      (d.names path = some f ∧ d' = d.put f [])) :
    Core Good junk d' drawn run (upd G t { G t with own := some (path, f, []) }) := by
  have htemp : IsTemp Good path := by obtain ⟨p, c, n, h1, h2, _⟩ := hm; exact ⟨p, c, n, h1, h2⟩
  -- the file is new to everybody else
  have hnew : ∀ t' name f' c', t' ≠ t → (G t').own = some (name, f', c') → f' ≠ f ∧ name ≠ path := by
    intro t' name f' c' hne hx
    obtain ⟨p1, ⟨p, c0, m, q1, q2, q3⟩, p3, p4, p5, p6⟩ := h.own t' name f' c' hx
    have hnp : name ≠ path := by
      rintro rfl
      obtain ⟨p', c0', m', r1, r2, r3⟩ := hm
      have := hi p p' m m' (q2.symm.trans r2)
      subst this
      exact hne (h.excl t' t m p1 hrun q3 r3)
    refine ⟨?_, hnp⟩
    rintro rfl
    rcases hd with ⟨_, h2, _⟩ | ⟨h1, _⟩
    · omega
    · exact hnp (p5 path h1).symm
  have hnewh : ∀ t' f' c', (f', c') ∈ (G t').held → f' ≠ f := by
    intro t' f' c' hx
    obtain ⟨p1, p2, p3⟩ := h.held t' f' c' hx
    rintro rfl
    rcases hd with ⟨_, h2, _⟩ | ⟨h1, _⟩
    · omega
    · exact p3 path h1 htemp
  have hnames : ∀ q f', d'.names q = some f' → (q = path ∧ f' = f) ∨ (q ≠ path ∧ d.names q = some f' ∧ f' ≠ f) := by
    intro q f' hq
    rcases hd with ⟨h1, h2, rfl⟩ | ⟨h1, rfl⟩
    · rcases bind_names path q _ f' hq with ⟨h3, h4⟩ | ⟨h3, h4⟩
      · injection h4 with h4; exact Or.inl ⟨h3, by omega⟩
      · have := h.lt q f' h4
        exact Or.inr ⟨h3, h4, by omega⟩
    · by_cases hq' : q = path
      · subst hq'
        refine Or.inl ⟨rfl, ?_⟩
        have hq : d.names q = some f' := hq
        rw [hq] at h1
        injection h1
      · refine Or.inr ⟨hq', hq, ?_⟩
        rintro rfl
        exact hq' (h.inj q path f' hq h1)
  have hdata : ∀ f', f' ≠ f → d'.data f' = d.data f' := by
    intro f' hne
    rcases hd with ⟨h1, h2, rfl⟩ | ⟨h1, rfl⟩
    · show (if f' = d.fresh then [] else d.data f') = _
      rw [if_neg (by omega)]
    · show (if f' = f then [] else d.data f') = _
      rw [if_neg hne]
  have hdf : d'.data f = [] := by
    rcases hd with ⟨h1, h2, rfl⟩ | ⟨h1, rfl⟩
    · show (if f = d.fresh then [] else d.data f) = _
      rw [if_pos h2]
    · show (if f = f then [] else d.data f) = _
      rw [if_pos rfl]
  have hfresh : d.fresh ≤ d'.fresh := by
    rcases hd with ⟨h1, h2, rfl⟩ | ⟨h1, rfl⟩
    · exact Nat.le_succ _
    · exact Nat.le_refl _
  have hflt : f < d'.fresh := by
    rcases hd with ⟨h1, h2, rfl⟩ | ⟨h1, rfl⟩
    · rw [h2]; exact Nat.lt_succ_self _
    · exact h.lt path f h1
  have hown : ∀ t' name f' c', (upd G t { G t with own := some (path, f, []) } t').own = some (name, f', c') →
      (t' = t ∧ name = path ∧ f' = f ∧ c' = []) ∨ (t' ≠ t ∧ (G t').own = some (name, f', c')) := by
    intro t' name f' c' hx
    by_cases htt : t' = t
    · subst htt
      rw [upd_same] at hx
      injection hx with hx
      simp only [Prod.mk.injEq] at hx
      exact Or.inl ⟨rfl, hx.1.symm, hx.2.1.symm, hx.2.2.symm⟩
    · rw [upd_other _ _ _ _ htt] at hx
      exact Or.inr ⟨htt, hx⟩
  have hheld : ∀ t', (upd G t { G t with own := some (path, f, []) } t').held = (G t').held := by
    intro t'
    by_cases htt : t' = t
    · subst htt; rw [upd_same]
    · rw [upd_other _ _ _ _ htt]
  have hnums : ∀ t', (upd G t { G t with own := some (path, f, []) } t').nums = (G t').nums := by
    intro t'
    by_cases htt : t' = t
    · subst htt; rw [upd_same]
    · rw [upd_other _ _ _ _ htt]
  refine ⟨?_, ?_, ?_, h.excl, ?_, ?_, fun t' n hx => h.nums t' n (hnums t' ▸ hx), ?_, ?_⟩
  · intro q q' f' h1 h2
    rcases hnames q f' h1 with ⟨a1, a2⟩ | ⟨a1, a2, a3⟩ <;> rcases hnames q' f' h2 with ⟨b1, b2⟩ | ⟨b1, b2, b3⟩
    · rw [a1, b1]
    · exact absurd a2 b3
    · exact absurd b2 a3
    · exact h.inj q q' f' a2 b2
  · intro q f' h1
    rcases hnames q f' h1 with ⟨a1, a2⟩ | ⟨a1, a2, a3⟩
    · rw [a2]; exact hflt
    · exact Nat.lt_of_lt_of_le (h.lt q f' a2) hfresh
  · intro q f' c' h1 h2
    rcases hnames q f' h1 with ⟨a1, a2⟩ | ⟨a1, a2, a3⟩
    · rw [a1] at h2; exact absurd htemp (ht path c' h2)
    · rw [hdata f' a3]; exact h.good q f' c' a2 h2
  · intro t' name f' c' hx
    rcases hown t' name f' c' hx with ⟨rfl, rfl, rfl, rfl⟩ | ⟨hne, hx⟩
    · refine ⟨hrun, hm, hflt, hdf, ?_, ?_⟩
      · intro q hq
        rcases hnames q f' hq with ⟨a1, _⟩ | ⟨_, _, a3⟩
        · exact a1
        · exact absurd rfl a3
      · intro j hj
        rcases hnames name j hj with ⟨_, a2⟩ | ⟨a1, _⟩
        · exact a2
        · exact absurd rfl a1
    · obtain ⟨n1, n2⟩ := hnew t' name f' c' hne hx
      obtain ⟨p1, p2, p3, p4, p5, p6⟩ := h.own t' name f' c' hx
      refine ⟨p1, p2, Nat.lt_of_lt_of_le p3 hfresh, (hdata f' n1).trans p4, ?_, ?_⟩
      · intro q hq
        rcases hnames q f' hq with ⟨_, a2⟩ | ⟨_, a2, _⟩
        · exact absurd a2 n1
        · exact p5 q a2
      · intro j hj
        rcases hnames name j hj with ⟨a1, _⟩ | ⟨_, a2, _⟩
        · exact absurd a1 n2
        · exact p6 j a2
  · intro t' f' c' hx
    rw [hheld] at hx
    obtain ⟨p1, p2, p3⟩ := h.held t' f' c' hx
    have hne := hnewh t' f' c' hx
    refine ⟨Nat.lt_of_lt_of_le p1 hfresh, (hdata f' hne).trans p2, ?_⟩
    intro q hq
    rcases hnames q f' hq with ⟨_, a2⟩ | ⟨_, a2, _⟩
    · exact absurd a2 hne
    · exact p3 q a2
  · intro t1 t2 n1 n2 f' c1 c2 h1 h2
    rcases hown _ _ _ _ h1 with ⟨a1, _, a3, _⟩ | ⟨a0, a1⟩ <;> rcases hown _ _ _ _ h2 with ⟨b1, _, b3, _⟩ | ⟨b0, b1⟩
    · rw [a1, b1]
    · exact absurd a3 (hnew _ _ _ _ b0 b1).1
    · exact absurd b3 (hnew _ _ _ _ a0 a1).1
    · exact h.owners _ _ _ _ _ _ _ a1 b1
  · intro t1 t2 n1 f' c1 c2 h1 h2
    rw [hheld] at h1
    rcases hown _ _ _ _ h2 with ⟨_, _, a3, _⟩ | ⟨_, a1⟩
    · exact hnewh _ _ _ h1 a3
    · exact h.sep _ _ _ _ _ _ h1 a1

end

/-! ## One call -/

theorem splice_length (c : List Byte) (off : Nat) (b : List Byte) : (splice c off b).length = c.length := by
  rw [splice, List.length_take, List.length_append, List.length_append, List.length_take, List.length_drop]
  omega

theorem splice_get (c : List Byte) (off : Nat) (b : List Byte) (i : Nat) :
    (splice c off b)[i]? = if i < c.length ∧ off ≤ i ∧ i < off + b.length then b[i - off]? else c[i]? := by
  rw [splice, List.getElem?_take]
  by_cases hi : i < c.length
  · rw [if_pos hi]
    by_cases h1 : i < off
    · rw [if_neg (by omega), List.append_assoc, List.getElem?_append_left (by rw [List.length_take]; omega), List.getElem?_take, if_pos h1]
    · have hl : (c.take off).length = off := by rw [List.length_take]; omega
      by_cases h2 : i < off + b.length
      · rw [if_pos ⟨hi, by omega, h2⟩, List.append_assoc, List.getElem?_append_right (by omega), List.getElem?_append_left (by omega), hl]
      · rw [if_neg (by omega), List.getElem?_append_right (by rw [List.length_append, hl]; omega), List.getElem?_drop, List.length_append, hl]
        congr 1
        omega
  · rw [if_neg hi, if_neg (by omega), List.getElem?_eq_none (by omega)]

theorem splice_splice (c : List Byte) (off : Nat) (a b : List Byte) (h : a.length = b.length) :
    splice (splice c off a) off b = splice c off b := by
  apply List.ext_getElem?
  intro i
  rw [splice_get, splice_get, splice_get, splice_length, h]
  by_cases hi : i < c.length ∧ off ≤ i ∧ i < off + b.length
  · rw [if_pos hi, if_pos hi]
  · rw [if_neg hi, if_neg hi, if_neg hi]

theorem core_exec {Good : String → List Byte → Prop} {junk : Prop} {d d' : Disk} {drawn : List (Nat × Nat)} {run : Nat → Prop} {G : Nat → Ghost}
    (hu : ∀ q c c', Good q c → Good q c' → c = c') (ht : ∀ q c', Good q c' → ¬ IsTemp Good q)
    (hi : ∀ p p' n n', tempPath p n = tempPath p' n' → n = n') (h : Core Good junk d drawn run G) (t : Nat) (hrun : run t) (c : Call)
    (Q : c.Reply → Ghost → Prop) (hr : rule Good junk c Q (G t)) (r : c.Reply) (he : Exec c d r d')
    (hx : ∀ n, drawnAfter t drawn c r = (t, n) :: drawn → ∀ t', run t' → t' ≠ t → (t', n) ∉ drawn) :
    ∃ g, Core Good junk d' (drawnAfter t drawn c r) run (upd G t g) ∧ Q r g := by
  have hself : Core Good junk d drawn run (upd G t (G t)) := by
    have : upd G t (G t) = G := by
      funext t'
      by_cases htt : t' = t
      · subst htt; rw [upd_same]
      · rw [upd_other _ _ _ _ htt]
    rw [this]
    exact h
  cases he with
  | mkdirAll path s ok => exact ⟨_, hself, hr ok⟩
  | random s n => exact ⟨_, h.draw t n (hx n rfl), hr n⟩
  | createFails path s => exact ⟨_, hself, hr.2.1⟩
  | createNew path s hn =>
    obtain ⟨⟨p, c, n, h1, h2, h3⟩, _, h4⟩ := hr
    exact ⟨_, h.created hi ht t hrun path ⟨p, c, n, h1, h2, h.nums t n h3⟩ _ _ (Or.inl ⟨hn, rfl, rfl⟩), h4 _⟩
  | createOld path s f hn =>
    obtain ⟨⟨p, c, n, h1, h2, h3⟩, _, h4⟩ := hr
    exact ⟨_, h.created hi ht t hrun path ⟨p, c, n, h1, h2, h.nums t n h3⟩ _ _ (Or.inr ⟨hn, rfl⟩), h4 _⟩
  | openFails path s => obtain ⟨c, _, h2, _⟩ := hr; exact ⟨_, hself, h2⟩
  | «open» path s f hn => obtain ⟨c, h1, _, h2⟩ := hr; exact ⟨_, h.opened ht t path f c hn h1, h2 f _ (h.good path f c hn h1)⟩
  | truncateFails f n s => obtain ⟨_, _, _, h2, _⟩ := hr; exact ⟨_, hself, h2⟩
  | truncate f n s hn =>
    obtain ⟨name, c, h1, _, h2⟩ := hr
    have hd := (h.own t name f c h1).2.2.2.1
    rw [hd]
    exact ⟨_, h.put h1 ht _, h2 hn⟩
  | mapFails f s => exact ⟨_, hself, hr.1⟩
  | map f s hn => exact ⟨_, hself, hr.2 fun c hk => h.knows hk ▸ hn⟩
  | read f s =>
    obtain ⟨c, h1, h2⟩ := hr
    rw [h.knows h1]
    exact ⟨_, hself, h2⟩
  | store f off bytes s =>
    obtain ⟨name, c, h1, h2⟩ := hr
    have hd := (h.own t name f c h1).2.2.2.1
    rw [hd]
    exact ⟨_, h.put h1 ht _, h2⟩
  | lock f s ok => exact ⟨_, hself, hr ok⟩
  | unmap f s ok => exact ⟨_, hself, hr ok⟩
  | close f s ok => exact ⟨_, hself, hr ok⟩
  | renameFails a b s => obtain ⟨_, _, _, _, h2, _⟩ := hr; exact ⟨_, hself, h2⟩
  | rename a b s j hn => obtain ⟨f, c, h1, h2, _, h3⟩ := hr; exact ⟨_, h.renamed hu ht t a b f j c h1 h2 hn, h3⟩
  | removeFails path s => exact ⟨_, hself, hr false⟩
  | remove path s =>
    exact ⟨_, Core.unbind hself path, hr true⟩

/-! ## All steps -/

/-- some goroutine `t` has a call to make -/
def running (s : System) (t : Nat) : Prop := ∃ w, s.workers[t]? = some w ∧ w.running

/-- the invariant of the system -/
structure SysInv (Good : String → List Byte → Prop) (junk : Prop) (Job : Config → U64 → Prop)
    (Post : Config → U64 → Buffers → List (Nat × List Byte) → Prop) (s : System) (G : Nat → Ghost) : Prop where
  core : Core Good junk s.disk s.drawn (running s) G
  drawnLt : ∀ t n, (t, n) ∈ s.drawn → t < s.workers.length
  none : ∀ t, s.workers.length ≤ t → G t = ⟨none, [], []⟩
  progs : ∀ (t : Nat) d e p, s.workers[t]? = some ⟨d, e, some p⟩ → wp Good junk p (fun a g => Post d e a g.held) (G t)
  jobs : ∀ (t : Nat) w, s.workers[t]? = some w → Job w.config w.epoch

theorem get_set {α : Type} {l : List α} {i j : Nat} {a b : α} (h : (l.set i a)[j]? = some b) : (j = i ∧ b = a) ∨ (j ≠ i ∧ l[j]? = some b) := by
  by_cases hij : j = i
  · subst hij
    rw [List.getElem?_set_self'] at h
    cases hl : l[j]? with
    | none => rw [hl] at h; cases h
    | some x => rw [hl] at h; injection h with h; exact Or.inl ⟨rfl, h.symm⟩
  · rw [List.getElem?_set_ne (Ne.symm hij)] at h
    exact Or.inr ⟨hij, h⟩

section
variable {P : Prims} {fuel : Nat} {Job : Config → U64 → Prop} {Good : String → List Byte → Prop} {junk : Prop}
  {Post : Config → U64 → Buffers → List (Nat × List Byte) → Prop}
  (hu : ∀ q c c', Good q c → Good q c' → c = c') (ht : ∀ q c', Good q c' → ¬ IsTemp Good q)
  (hi : ∀ p p' n n', tempPath p n = tempPath p' n' → n = n')
  (hw : ∀ d e, Job d e → wp Good junk (generate P fuel d e) (fun a g => Post d e a g.held) ⟨none, [], []⟩)
include hu ht hi hw

theorem sys_step {s s' : System} {G : Nat → Ghost} (h : SysInv Good junk Job Post s G) (hs : Step P fuel Job True s s') :
    ∃ G', SysInv Good junk Job Post s' G' := by
  cases hs with
  | begin d e hj =>
    have hcore : Core Good junk s.disk s.drawn (running { s with workers := s.workers ++ [⟨d, e, some (generate P fuel d e)⟩] }) G := by
      have hold : ∀ t, running s t → running { s with workers := s.workers ++ [⟨d, e, some (generate P fuel d e)⟩] } t := by
        rintro t ⟨w, hw, hr⟩
        refine ⟨w, ?_, hr⟩
        rw [List.getElem?_append_left (List.getElem?_eq_some_iff.mp hw).1]
        exact hw
      have hnew : ∀ t n, (t, n) ∈ s.drawn → running { s with workers := s.workers ++ [⟨d, e, some (generate P fuel d e)⟩] } t →
          running s t := by
        rintro t n hd ⟨w, hw, hr⟩
        rw [List.getElem?_append_left (h.drawnLt t n hd)] at hw
        exact ⟨w, hw, hr⟩
      refine ⟨h.core.inj, h.core.lt, h.core.good, ?_, ?_, h.core.held, h.core.nums, h.core.owners, h.core.sep⟩
      · intro t t' n r1 r2 h1 h2
        exact h.core.excl t t' n (hnew t n h1 r1) (hnew t' n h2 r2) h1 h2
      · intro t name f c hx
        obtain ⟨p1, p2⟩ := h.core.own t name f c hx
        exact ⟨hold t p1, p2⟩
    refine ⟨G, hcore, ?_, ?_, ?_, ?_⟩
    · intro t n hn
      have := h.drawnLt t n hn
      rw [List.length_append]
      omega
    · intro t hlt
      rw [List.length_append] at hlt
      exact h.none t (by omega)
    · intro t d' e' p hp
      by_cases hlt : t < s.workers.length
      · rw [List.getElem?_append_left hlt] at hp
        exact h.progs t d' e' p hp
      · rw [List.getElem?_append_right (by omega)] at hp
        have := List.mem_singleton.mp (List.mem_of_getElem? hp)
        injection this with a1 a2 a3
        injection a3 with a3
        subst a1 a2 a3
        rw [h.none t (by omega)]
        exact hw d' e' hj
    · intro t w hp
      by_cases hlt : t < s.workers.length
      · rw [List.getElem?_append_left hlt] at hp
        exact h.jobs t w hp
      · rw [List.getElem?_append_right (by omega)] at hp
        have := List.mem_singleton.mp (List.mem_of_getElem? hp)
        subst this
        exact hj
  | call t d e c k r disk hwk he hx =>
    have hrun : running s t := ⟨_, hwk, c, k, rfl⟩
    have hprog := h.progs t d e _ hwk
    obtain ⟨g, hg, hq⟩ := core_exec hu ht hi h.core t hrun c _ hprog r he (by
      intro n hn t' ht' hne
      obtain ⟨w, h1, h2⟩ := ht'
      exact hx trivial n hn t' w h1 h2 hne)
    -- forget the file when the program has ended
    obtain ⟨b, hb⟩ : ∃ b : Option (String × Nat × List Byte), (b = g.own ∨ b = none) ∧
        (b ≠ none → (⟨d, e, some (k r)⟩ : Worker).running) ∧
        wp Good junk (k r) (fun a g => Post d e a g.held) { g with own := b } := by
      cases hk : k r with
      | ret a => rw [hk] at hq; exact ⟨none, Or.inr rfl, fun hh => absurd rfl hh, hq⟩
      | stop x => rw [hk] at hq; exact hq.elim
      | call c' k' => rw [hk] at hq; exact ⟨g.own, Or.inl rfl, fun _ => ⟨c', k', rfl⟩, hq⟩
    have hlen : t < s.workers.length := (List.getElem?_eq_some_iff.mp hwk).1
    have hset : ∀ t', running { s with disk := disk, workers := s.workers.set t ⟨d, e, some (k r)⟩, drawn := drawnAfter t s.drawn c r } t' →
        running s t' := by
      rintro t' ⟨w, h1, h2⟩
      rcases get_set h1 with ⟨h3, _⟩ | ⟨_, h3⟩
      · rw [h3]; exact hrun
      · exact ⟨w, h3, h2⟩
    refine ⟨upd G t { g with own := b }, ?_, ?_, ?_, ?_, ?_⟩
    · refine Core.less hg hset ?_ ?_ ?_
      · intro t' x hx
        by_cases htt : t' = t
        · subst htt
          rw [upd_same] at hx ⊢
          have hx : b = some x := hx
          rcases hb.1 with h1 | h1
          · refine ⟨h1 ▸ hx, ?_⟩
            refine ⟨_, List.getElem?_set_self hlen, hb.2.1 ?_⟩
            rw [hx]; simp
          · rw [h1] at hx; cases hx
        · rw [upd_other _ _ _ _ htt] at hx ⊢
          refine ⟨hx, ?_⟩
          obtain ⟨name, f, c'⟩ := x
          obtain ⟨⟨w, h1, h2⟩, _⟩ := h.core.own t' name f c' hx
          refine ⟨w, ?_, h2⟩
          rw [List.getElem?_set_ne (Ne.symm htt)]
          exact h1
      · intro t'
        by_cases htt : t' = t
        · subst htt; rw [upd_same, upd_same]
        · rw [upd_other _ _ _ _ htt, upd_other _ _ _ _ htt]
      · intro t'
        by_cases htt : t' = t
        · subst htt; rw [upd_same, upd_same]
        · rw [upd_other _ _ _ _ htt, upd_other _ _ _ _ htt]
    · intro t' n hn
      rw [List.length_set]
      cases c with
      | random =>
        rcases List.mem_cons.mp hn with hn | hn
        · rw [(Prod.mk.inj hn).1]; exact hlen
        · exact h.drawnLt t' n hn
      | _ => exact h.drawnLt t' n hn
    · intro t' hlt
      rw [List.length_set] at hlt
      rw [upd_other _ _ _ _ (by omega)]
      exact h.none t' hlt
    · intro t' d' e' p hp
      rcases get_set hp with ⟨h1, h2⟩ | ⟨h1, h2⟩
      · injection h2 with a1 a2 a3
        injection a3 with a3
        subst a1 a2 a3
        rw [h1, upd_same]
        exact hb.2.2
      · rw [upd_other _ _ _ _ h1]
        exact h.progs t' d' e' p h2
    · intro t' w hp
      rcases get_set hp with ⟨h1, h2⟩ | ⟨h1, h2⟩
      · subst h2
        have := h.jobs t _ hwk
        exact this
      · exact h.jobs t' w h2
  | storing t d e f off bytes k c hwk hlen =>
    obtain ⟨name, c0, h1, h2⟩ := h.progs t d e _ hwk
    have hd := (h.core.own t name f c0 h1).2.2.2.1
    refine ⟨upd G t { G t with own := some (name, f, splice c0 off c) }, ?_, h.drawnLt, ?_, ?_, h.jobs⟩
    · show Core Good junk (s.disk.put f (splice (s.disk.data f) off c)) _ _ _
      rw [hd]
      exact h.core.put h1 ht _
    · intro t' hlt
      have : t < s.workers.length := (List.getElem?_eq_some_iff.mp hwk).1
      have hlt : s.workers.length ≤ t' := hlt
      rw [upd_other _ _ _ _ (by omega)]
      exact h.none t' hlt
    · intro t' d' e' p hp
      by_cases htt : t' = t
      · subst htt
        have hp : s.workers[t']? = _ := hp
        rw [hwk] at hp
        injection hp with hp
        injection hp with a1 a2 a3
        injection a3 with a3
        subst a1 a2 a3
        rw [upd_same]
        refine ⟨name, _, rfl, ?_⟩
        rw [splice_splice _ _ _ _ hlen]
        exact h2
      · rw [upd_other _ _ _ _ htt]
        exact h.progs t' d' e' p hp
  | kill t d e p hwk =>
    have hlen : t < s.workers.length := (List.getElem?_eq_some_iff.mp hwk).1
    refine ⟨upd G t { G t with own := none }, ?_, ?_, ?_, ?_, ?_⟩
    · refine Core.less h.core ?_ ?_ ?_ ?_
      · rintro t' ⟨w, h1, h2⟩
        rcases get_set h1 with ⟨h3, h4⟩ | ⟨_, h3⟩
        · obtain ⟨c, k, hck⟩ := h2
          rw [h4] at hck
          cases hck
        · exact ⟨w, h3, h2⟩
      · intro t' x hx
        by_cases htt : t' = t
        · subst htt; rw [upd_same] at hx; cases hx
        · rw [upd_other _ _ _ _ htt] at hx
          refine ⟨hx, ?_⟩
          obtain ⟨name, f, c'⟩ := x
          obtain ⟨⟨w, h1, h2⟩, _⟩ := h.core.own t' name f c' hx
          refine ⟨w, ?_, h2⟩
          show (s.workers.set t _)[t']? = _
          rw [List.getElem?_set_ne (Ne.symm htt)]
          exact h1
      · intro t'
        by_cases htt : t' = t
        · subst htt; rw [upd_same]
        · rw [upd_other _ _ _ _ htt]
      · intro t'
        by_cases htt : t' = t
        · subst htt; rw [upd_same]
        · rw [upd_other _ _ _ _ htt]
    · intro t' n hn
      rw [List.length_set]
      exact h.drawnLt t' n hn
    · intro t' hlt
      rw [List.length_set] at hlt
      rw [upd_other _ _ _ _ (by omega)]
      exact h.none t' hlt
    · intro t' d' e' p' hp
      rcases get_set hp with ⟨h1, h2⟩ | ⟨h1, h2⟩
      · injection h2 with a1 a2 a3
        cases a3
      · rw [upd_other _ _ _ _ h1]
        exact h.progs t' d' e' p' h2
    · intro t' w hp
      rcases get_set hp with ⟨h1, h2⟩ | ⟨h1, h2⟩
      · subst h2
        have := h.jobs t _ hwk
        exact this
      · exact h.jobs t' w h2
  | removed path => exact ⟨G, h.core.unbind path, h.drawnLt, h.none, h.progs, h.jobs⟩

/-- the invariant holds in every execution from a directory in which names belong to different files and final names to good ones -/
theorem sys_reach {disk : Disk} {s : System} (hinj : ∀ q q' f, disk.names q = some f → disk.names q' = some f → q = q')
    (hlt : ∀ q f, disk.names q = some f → f < disk.fresh) (hgood : ∀ q f c, disk.names q = some f → Good q c → disk.data f = c ∨ (junk ∧ Spec.Disk.Rejected (disk.data f)))
    (h : Reach P fuel Job True disk s) : ∃ G, SysInv Good junk Job Post s G := by
  induction h with
  | init =>
    refine ⟨fun _ => ⟨none, [], []⟩, ⟨hinj, hlt, hgood, ?_, ?_, ?_, ?_, ?_, ?_⟩, ?_, fun _ _ => rfl, ?_, ?_⟩
    · intro t t' n _ _ h1 _; cases h1
    · intro t name f c hx; cases hx
    · intro t f c hx; cases hx
    · intro t n hx; cases hx
    · intro t t' name name' f c c' hx _; cases hx
    · intro t t' name f c c' hx _; cases hx
    · intro t n hx; cases hx
    · intro t d e p hp; simp at hp
    · intro t w hp; simp at hp
  | step _ hs ih =>
    obtain ⟨G, hG⟩ := ih
    exact sys_step hu ht hi hw hG hs

end

end Verif.Files
