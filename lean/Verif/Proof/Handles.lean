import Verif.Model.Handles

/-! # Descriptors and mappings: rules for programs, and what each function leaves open -/

set_option autoImplicit false

namespace Verif.Handles

open Go Dag Files Spec.Handles

/-- no mistake whatever the results of the calls are, and `Q` for the value and what is held at the end -/
def Safe {α : Type} (Q : α → Held → Prop) : Prog α → Held → Prop
  | .ret a, h => Q a h
  | .stop _, _ => True
  | .call c k, h => ∀ r : c.Reply, ∃ h', Spec.Handles.run h (event c r) = some h' ∧ Safe Q (k r) h'

theorem run_append (h : Held) (a b : List Event) : Spec.Handles.run h (a ++ b) = (Spec.Handles.run h a).bind fun h => Spec.Handles.run h b := by
  induction a generalizing h with
  | nil => rfl
  | cons e a ih =>
    show (after h e).bind (fun h => Spec.Handles.run h (a ++ b)) = ((after h e).bind fun h => Spec.Handles.run h a).bind _
    rw [Option.bind_assoc]
    exact congrArg _ (funext ih)

theorem Safe.trace {α : Type} {Q : α → Held → Prop} {p : Prog α} {es : List Event} {a : Option α} (hr : Trace p es a) {h : Held} (hs : Safe Q p h) :
    ∃ h', Spec.Handles.run h es = some h' ∧ ∀ x, a = some x → Q x h' := by
  induction hr generalizing h with
  | here p => exact ⟨h, rfl, fun _ e => by cases e⟩
  | ret a => exact ⟨h, rfl, fun x e => by cases e; exact hs⟩
  | call c k r es a _ ih =>
    obtain ⟨h1, h2, h3⟩ := hs r
    obtain ⟨h4, h5, h6⟩ := ih h3
    exact ⟨h4, by rw [run_append, h2]; exact h5, h6⟩

theorem Safe.mono {α : Type} {Q R : α → Held → Prop} (hq : ∀ a h, Q a h → R a h) : ∀ {p : Prog α} {h : Held}, Safe Q p h → Safe R p h
  | .ret _, _, hs => hq _ _ hs
  | .stop _, _, _ => trivial
  | .call _ _, _, hs => fun r => by
    obtain ⟨h1, h2, h3⟩ := hs r
    exact ⟨h1, h2, Safe.mono hq h3⟩

theorem Safe.bind {α β : Type} {R : β → Held → Prop} (f : α → Prog β) : ∀ {p : Prog α} {h : Held}, Safe (fun a h => Safe R (f a) h) p h → Safe R (p >>= f) h
  | .ret _, _, hs => hs
  | .stop _, _, _ => trivial
  | .call _ _, _, hs => fun r => by
    obtain ⟨h1, h2, h3⟩ := hs r
    exact ⟨h1, h2, Safe.bind f h3⟩

theorem Safe.lift {α : Type} {Q : α → Held → Prop} {g : Go α} {h : Held} (hq : ∀ a, Q a h) : Safe Q (lift g) h := by
  cases g with
  | ok a => exact hq a
  | error s => exact trivial

/-- `h'` has `n` more descriptors and mappings than `h`, not counting those for which `Unmap` failed -/
def Adds (h h' : Held) (n : Nat → Nat) : Prop :=
  ∀ g, h.stuck g ≤ h'.stuck g ∧ h'.maps g + h.stuck g = h.maps g + n g + h'.stuck g ∧
    h.opens g + n g ≤ h'.opens g ∧ h'.opens g + h.stuck g ≤ h.opens g + n g + h'.stuck g

theorem Adds.refl (h : Held) : Adds h h fun _ => 0 := by
  intro g
  dsimp only
  omega

theorem Adds.trans {h h' h'' : Held} {n m : Nat → Nat} (a : Adds h h' n) (b : Adds h' h'' m) : Adds h h'' fun g => n g + m g := by
  intro g
  have := a g
  have := b g
  dsimp only
  omega

theorem Adds.congr {h h' : Held} {n m : Nat → Nat} (a : Adds h h' n) (e : ∀ g, n g = m g) : Adds h h' m := by
  intro g
  have := a g
  rw [e g] at this
  exact this

theorem inc_self (n : Nat → Nat) (f : Nat) : inc n f f = n f + 1 := by unfold inc; rw [if_pos rfl]
theorem dec_self (n : Nat → Nat) (f : Nat) : Spec.Handles.dec n f f = n f - 1 := by unfold Spec.Handles.dec; rw [if_pos rfl]
theorem inc_other (n : Nat → Nat) (f g : Nat) (h : g ≠ f) : inc n f g = n g := by unfold inc; rw [if_neg h]
theorem dec_other (n : Nat → Nat) (f g : Nat) (h : g ≠ f) : Spec.Handles.dec n f g = n g := by unfold Spec.Handles.dec; rw [if_neg h]

/-! ### the calls -/

section Calls
variable {α : Type} {Q : α → Held → Prop} {h : Held}

theorem Safe.openFile (path : String) {R : Option Nat → Held → Prop} (hn : R none h) (hs : ∀ f, R (some f) { h with opens := inc h.opens f }) :
    Safe R (openFile path) h := by
  intro r
  cases r with
  | none => exact ⟨h, rfl, hn⟩
  | some f => exact ⟨_, rfl, hs f⟩

theorem Safe.create (path : String) {R : Option Nat → Held → Prop} (hn : R none h) (hs : ∀ f, R (some f) { h with opens := inc h.opens f }) :
    Safe R (create path) h := by
  intro r
  cases r with
  | none => exact ⟨h, rfl, hn⟩
  | some f => exact ⟨_, rfl, hs f⟩

theorem run_one {e : Event} {h' : Held} (he : after h e = some h') : Spec.Handles.run h [e] = some h' := by
  show (after h e).bind _ = _
  rw [he]
  rfl

theorem Safe.map (f : Nat) (ho : h.opens f ≠ 0) {R : Bool → Held → Prop} (hn : R false h) (hs : R true { h with maps := inc h.maps f }) :
    Safe R (map f) h := by
  intro r
  have hr : ∀ b : Bool, ∃ h', Spec.Handles.run h (event (.map f) b) = some h' ∧ R b h' := by
    intro b
    cases b with
    | false => exact ⟨h, run_one (if_neg ho), hn⟩
    | true => exact ⟨_, run_one (if_neg ho), hs⟩
  exact hr r

theorem Safe.unmap (f : Nat) (ho : h.maps f ≠ 0) {R : Bool → Held → Prop} (hn : R false { h with stuck := inc h.stuck f })
    (hs : R true { h with maps := Spec.Handles.dec h.maps f }) : Safe R (unmap f) h := by
  intro r
  have hr : ∀ b : Bool, ∃ h', Spec.Handles.run h (event (.unmap f) b) = some h' ∧ R b h' := by
    intro b
    cases b with
    | false => exact ⟨_, run_one (if_neg ho), hn⟩
    | true => exact ⟨_, run_one (if_neg ho), hs⟩
  exact hr r

theorem Safe.close (f : Nat) (ho : h.opens f ≠ 0) {R : Bool → Held → Prop} (hs : ∀ b, R b { h with opens := Spec.Handles.dec h.opens f }) :
    Safe R (close f) h := fun r => ⟨_, run_one (if_neg ho), hs r⟩

theorem Safe.truncate (f : Nat) (n : Int) (ho : h.opens f ≠ 0) {R : Bool → Held → Prop} (hs : ∀ b, R b h) : Safe R (truncate f n) h :=
  fun r => ⟨_, run_one (if_neg ho), hs r⟩

theorem Safe.read (f : Nat) (ho : h.maps f ≠ 0) {R : List Byte → Held → Prop} (hs : ∀ b, R b h) : Safe R (read f) h :=
  fun r => ⟨_, run_one (if_neg ho), hs r⟩

theorem Safe.store (f off : Nat) (bytes : List Byte) (ho : h.maps f ≠ 0) {R : Unit → Held → Prop} (hs : R () h) : Safe R (store f off bytes) h :=
  fun _ => ⟨_, run_one (if_neg ho), hs⟩

theorem Safe.lock (f : Nat) (ho : h.maps f ≠ 0) {R : Bool → Held → Prop} (hs : ∀ b, R b h) : Safe R (lock f) h :=
  fun r => ⟨_, run_one (if_neg ho), hs r⟩

theorem Safe.remove (path : String) {R : Bool → Held → Prop} (hs : ∀ b, R b h) : Safe R (remove path) h := fun r => ⟨_, rfl, hs r⟩
theorem Safe.rename (a b : String) {R : Bool → Held → Prop} (hs : ∀ b, R b h) : Safe R (rename a b) h := fun r => ⟨_, rfl, hs r⟩
theorem Safe.mkdirAll (path : String) {R : Bool → Held → Prop} (hs : ∀ b, R b h) : Safe R (mkdirAll path) h := fun r => ⟨_, rfl, hs r⟩
theorem Safe.random {R : Nat → Held → Prop} (hs : ∀ b, R b h) : Safe R random h := fun r => ⟨_, rfl, hs r⟩

end Calls

/-- one for a file -/
def one (r : Option Nat) (g : Nat) : Nat := if r = some g then 1 else 0

theorem one_self (f : Nat) : one (some f) f = 1 := by unfold one; rw [if_pos rfl]
theorem one_other (f g : Nat) (h : g ≠ f) : one (some f) g = 0 := by unfold one; rw [if_neg (fun e => h (Option.some.inj e).symm)]
theorem one_none (g : Nat) : one none g = 0 := by unfold one; rw [if_neg (by simp)]

/-- opened and mapped -/
def opened (h : Held) (f : Nat) : Held := { h with opens := inc h.opens f, maps := inc h.maps f }

theorem opened_adds (h : Held) (f : Nat) : Adds h (opened h f) (one (some f)) := by
  intro g
  by_cases e : g = f
  · subst e
    simp only [opened, inc_self, one_self]
    exact ⟨Nat.le_refl _, trivial, Nat.le_refl _, Nat.le_refl _⟩
  · simp only [opened, inc_other _ _ _ e, one_other _ _ e]
    refine ⟨?_, ?_, ?_, ?_⟩ <;> omega

/-- what is held after `Unmap` and `Close` -/
theorem unmapClose (h h' : Held) (f : Nat) {β : Type} {R : β → Held → Prop} (hm : Adds h h' (one (some f))) (k : Prog β)
    (hr : ∀ h'', Adds h h'' (fun _ => 0) → Safe R k h'') : Safe R (do let _ ← unmap f; let _ ← close f; k) h' := by
  have h1 := hm f
  rw [one_self] at h1
  apply Safe.bind
  refine Safe.unmap f (by omega) ?_ ?_
  · apply Safe.bind
    refine Safe.close f (by dsimp only; omega) fun _ => ?_
    refine hr _ fun g => ?_
    have h2 := hm g
    by_cases e : g = f
    · subst e
      rw [one_self] at h2
      simp only [inc_self, dec_self]
      omega
    · rw [one_other _ _ e] at h2
      simp only [inc_other _ _ _ e, dec_other _ _ _ e]
      omega
  · apply Safe.bind
    refine Safe.close f (by dsimp only; omega) fun _ => ?_
    refine hr _ fun g => ?_
    have h2 := hm g
    by_cases e : g = f
    · subst e
      rw [one_self] at h2
      simp only [dec_self]
      omega
    · rw [one_other _ _ e] at h2
      simp only [dec_other _ _ _ e]
      omega

/-- the result is held, and nothing else -/
def Gives (h : Held) (r : Option Nat) (h' : Held) : Prop := Adds h h' (one r)

theorem gives_none {h h' : Held} (a : Adds h h' fun _ => 0) : Gives h none h' := a.congr fun g => (one_none g).symm

theorem gives_after {h h1 h2 : Held} {r : Option Nat} (a : Adds h h1 fun _ => 0) (b : Gives h1 r h2) : Gives h r h2 :=
  (a.trans b).congr fun _ => Nat.zero_add _

/-- closing a file that was opened and not mapped -/
theorem closeOnly (h : Held) (f : Nat) {β : Type} {R : β → Held → Prop} (k : Prog β) (hr : ∀ h'', Adds h h'' (fun _ => 0) → Safe R k h'') :
    Safe R (do let _ ← close f; k) { h with opens := inc h.opens f } := by
  apply Safe.bind
  refine Safe.close f (by dsimp only; rw [inc_self]; omega) fun _ => ?_
  refine hr _ fun g => ?_
  by_cases e : g = f
  · subst e
    simp only [inc_self, dec_self]
    omega
  · simp only [inc_other _ _ _ e, dec_other _ _ _ e]
    omega

theorem mapped_safe (h h' : Held) (f : Nat) (buffer : List U32) (lck : Bool) (hm : Adds h h' (one (some f))) :
    Safe (Gives h) (mapped f buffer lck) h' := by
  have h1 := hm f
  rw [one_self] at h1
  unfold Files.mapped
  have rest : ∀ b : Bool, Safe (Gives h) (if (!b) = true then (do let _ ← unmap f; let _ ← close f; Prog.ret none)
      else (do let _ ← lift (slc buffer dumpMagic.length buffer.length); Prog.ret (some f))) h' := by
    intro b
    cases b with
    | false => exact unmapClose h h' f hm _ fun _ a => gives_none a
    | true =>
      show Safe _ (do let _ ← lift (slc buffer dumpMagic.length buffer.length); Prog.ret (some f)) h'
      apply Safe.bind
      exact Safe.lift fun _ => hm
  cases lck with
  | true => exact Safe.bind _ (Safe.lock f (by omega) rest)
  | false => exact rest true

theorem checkMagic_safe (h h' : Held) (f : Nat) (lck : Bool) (hm : Adds h h' (one (some f))) : Safe (Gives h) (checkMagic f lck) h' := by
  have h1 := hm f
  rw [one_self] at h1
  unfold checkMagic
  apply Safe.bind
  refine Safe.read f (by omega) fun content => ?_
  apply Safe.bind
  refine Safe.lift fun r => ?_
  cases r with
  | ret _ => exact unmapClose h h' f hm _ fun _ a => gives_none a
  | cont _ => exact mapped_safe h h' f _ lck hm

theorem memoryMap_safe (h : Held) (path : String) (lck : Bool) : Safe (Gives h) (memoryMap path lck) h := by
  unfold Files.memoryMap
  apply Safe.bind
  refine Safe.openFile path (gives_none (Adds.refl h)) fun f => ?_
  apply Safe.bind
  refine Safe.map f (by dsimp only; rw [inc_self]; omega) ?_ ?_
  · exact closeOnly h f _ fun _ a => gives_none a
  · exact checkMagic_safe h (opened h f) f lck (opened_adds h f)

/-- a generator that changes nothing that is held -/
def Still (generator : List U32 → Prog (List U32)) (h : Held) : Prop := ∀ buffer, Safe (fun _ h' => h' = h) (generator buffer) h

theorem fill_safe (h : Held) (f : Nat) (ho : h.maps f ≠ 0) (generator : List U32 → Prog (List U32)) (hg : Still generator h) {R : Unit → Held → Prop}
    (hr : R () h) : Safe R (fill f generator) h := by
  unfold fill fillData
  apply Safe.bind
  refine Safe.read f ho fun content => ?_
  apply Safe.bind
  refine Safe.store f _ _ ho ?_
  apply Safe.bind
  refine Safe.read f ho fun content => ?_
  apply Safe.bind
  refine Safe.lift fun data => ?_
  apply Safe.bind
  refine (hg data).mono ?_
  rintro data _ rfl
  exact Safe.store f _ _ ho hr

theorem publish_safe (h h' : Held) (ha : Adds h h' fun _ => 0) (temp path : String) (lck : Bool) : Safe (Gives h) (publish temp path lck) h' := by
  unfold publish
  apply Safe.bind
  refine Safe.rename temp path fun b => ?_
  cases b with
  | false => exact gives_none ha
  | true => exact (memoryMap_safe h' path lck).mono fun r h'' hg => gives_after ha hg

theorem finish_safe (h : Held) (f : Nat) (temp path : String) (lck : Bool) : Safe (Gives h) (finish f temp path lck) (opened h f) := by
  unfold finish
  apply Safe.bind
  refine Safe.unmap f (by unfold opened; dsimp only; rw [inc_self]; omega) ?_ ?_
  · refine gives_none fun g => ?_
    by_cases e : g = f
    · subst e
      simp only [opened, inc_self]
      refine ⟨?_, ?_, ?_, ?_⟩ <;> omega
    · simp only [opened, inc_other _ _ _ e]
      refine ⟨?_, ?_, ?_, ?_⟩ <;> omega
  · show Safe _ (do let ok ← close f; if (!ok) = true then Prog.ret none else publish temp path lck) _
    apply Safe.bind
    refine Safe.close f (by unfold opened; dsimp only; rw [inc_self]; omega) fun b => ?_
    have ha : Adds h { opened h f with maps := Spec.Handles.dec (opened h f).maps f, opens := Spec.Handles.dec (opened h f).opens f } fun _ => 0 := by
      intro g
      by_cases e : g = f
      · subst e
        simp only [opened, inc_self, dec_self]
        refine ⟨?_, ?_, ?_, ?_⟩ <;> omega
      · simp only [opened, inc_other _ _ _ e, dec_other _ _ _ e]
        refine ⟨?_, ?_, ?_, ?_⟩ <;> omega
    cases b with
    | false => exact gives_none ha
    | true => exact publish_safe h _ ha temp path lck

theorem giveUp_safe (h : Held) (f : Nat) (temp : String) : Safe (Gives h) (giveUp f temp) { h with opens := inc h.opens f } := by
  unfold Files.giveUp
  refine closeOnly h f _ fun h' a => ?_
  apply Safe.bind
  exact Safe.remove temp fun _ => gives_none a

theorem writeTo_safe (h : Held) (f : Nat) (temp path : String) (size : U64) (lck : Bool) (generator : List U32 → Prog (List U32))
    (hg : Still generator (opened h f)) : Safe (Gives h) (writeTo f temp path size lck generator) { h with opens := inc h.opens f } := by
  unfold writeTo
  apply Safe.bind
  refine Safe.truncate f _ (by dsimp only; rw [inc_self]; omega) fun b => ?_
  cases b with
  | false => exact giveUp_safe h f temp
  | true =>
    show Safe _ (do let ok ← map f; if (!ok) = true then giveUp f temp else do fill f generator; finish f temp path lck) _
    apply Safe.bind
    refine Safe.map f (by dsimp only; rw [inc_self]; omega) ?_ ?_
    · exact giveUp_safe h f temp
    · show Safe _ (do fill f generator; finish f temp path lck) (opened h f)
      apply Safe.bind
      exact fill_safe (opened h f) f (by unfold opened; dsimp only; rw [inc_self]; omega) generator hg (finish_safe h f temp path lck)

theorem memoryMapAndGenerate_safe (h : Held) (path : String) (size : U64) (lck : Bool) (generator : List U32 → Prog (List U32))
    (hg : ∀ f, Still generator (opened h f)) : Safe (Gives h) (memoryMapAndGenerate path size lck generator) h := by
  unfold Files.memoryMapAndGenerate
  apply Safe.bind
  refine Safe.mkdirAll path fun b => ?_
  cases b with
  | false => exact gives_none (Adds.refl h)
  | true =>
    show Safe _ (do let suffix ← random; createTemp path size lck generator suffix) _
    apply Safe.bind
    refine Safe.random fun suffix => ?_
    unfold createTemp
    apply Safe.bind
    refine Safe.create _ (gives_none (Adds.refl h)) fun f => ?_
    exact writeTo_safe h f _ path size lck generator (hg f)

/-- how many mappings of `g` a buffer is -/
def held : Buffer → Nat → Nat
  | .mem _, _ => 0
  | .file f, g => if g = f then 1 else 0

theorem one_held (f g : Nat) : one (some f) g = held (.file f) g := by
  show _ = if g = f then 1 else 0
  by_cases e : g = f
  · rw [if_pos e, e, one_self]
  · rw [if_neg e, one_other _ _ e]

theorem held_self (f : Nat) : held (.file f) f = 1 := by rw [← one_held, one_self]

theorem holds_eq (b : Buffers) (g : Nat) : holds b g = held b.cache g + held b.l1 g := by
  unfold holds held
  cases b.cache <;> cases b.l1 <;> rfl

theorem lift_still (g : List U32 → Go (List U32)) (h : Held) : Still (fun b => lift (g b)) h := fun _ => Safe.lift fun _ => rfl

theorem load_safe (b : Buffer) (h : Held) (hb : ∀ g, held b g ≤ h.maps g) : Safe (fun _ h' => h' = h) (load b) h := by
  cases b with
  | mem w => rfl
  | file f =>
    unfold load
    apply Safe.bind
    have := hb f
    rw [held_self] at this
    exact Safe.read f (by omega) fun _ => rfl

theorem provideCache_safe (P : Prims) (d : Config) (size : U64) (seed : List Byte) (path : String) (h : Held) :
    Safe (fun b h' => Adds h h' (held b)) (provideCache P d size seed path) h := by
  unfold Files.provideCache
  apply Safe.bind
  refine (memoryMapAndGenerate_safe h path size _ _ fun f => lift_still _ _).mono ?_
  intro r h' hg
  cases r with
  | none =>
    show Safe _ (do let words ← lift _; Prog.ret (Buffer.mem words)) h'
    apply Safe.bind
    exact Safe.lift fun _ => hg.congr fun g => one_none g
  | some f => exact hg.congr (one_held f)

theorem provideL1_safe (P : Prims) (d : Config) (cache : Buffer) (path : String) (h : Held) (hc : ∀ g, held cache g ≤ h.maps g) :
    Safe (fun b h' => Adds h h' (held b)) (provideL1 P d cache path) h := by
  unfold Files.provideL1
  apply Safe.bind
  refine (memoryMapAndGenerate_safe h path _ _ _ fun f => ?_).mono ?_
  · intro buffer
    apply Safe.bind
    refine (load_safe cache _ fun g => ?_).mono ?_
    · have := hc g
      unfold opened
      dsimp only
      unfold inc
      split <;> omega
    · rintro w _ rfl
      exact Safe.lift fun _ => rfl
  · intro r h' hg
    cases r with
    | none =>
      show Safe _ (do let cache ← load cache; let words ← lift (memoryL1 P d cache); Prog.ret (Buffer.mem words)) h'
      apply Safe.bind
      refine (load_safe cache h' fun g => ?_).mono ?_
      · have := hc g
        have := hg g
        rw [one_none] at this
        omega
      · rintro w _ rfl
        apply Safe.bind
        exact Safe.lift fun _ => hg.congr fun g => one_none g
    | some f => exact hg.congr (one_held f)

theorem cleanupLoop_safe (P : Prims) (d : Config) (start : Int) (n i : Nat) (h : Held) :
    Safe (fun _ h' => h' = h) (cleanupLoop P d start i n) h := by
  induction n generalizing i with
  | zero => rfl
  | succ n ih =>
    unfold cleanupLoop
    apply Safe.bind
    refine Safe.lift fun seed => ?_
    apply Safe.bind
    refine Safe.lift fun seed => ?_
    apply Safe.bind
    refine Safe.remove _ fun _ => ?_
    apply Safe.bind
    refine Safe.remove _ fun _ => ?_
    exact ih (i + 1)

theorem tryL1_safe (d : Config) (path : String) (h : Held) :
    Safe (fun b h' => Adds h h' fun g => (b.map fun b => held b g).getD 0) (tryL1 d path) h := by
  unfold Files.tryL1
  by_cases hl : d.l1Enabled = true
  · rw [if_pos hl]
    apply Safe.bind
    refine (memoryMap_safe h path _).mono ?_
    intro r h' hg
    cases r with
    | none => exact hg.congr fun g => one_none g
    | some f => exact hg.congr (one_held f)
  · rw [if_neg hl]
    exact Adds.refl h

/-- what is held of the two buffers before `produce` -/
def old (c : Option Nat) (l : Option Buffer) (g : Nat) : Nat := one c g + (l.map fun b => held b g).getD 0

theorem ensureCache_safe (P : Prims) (d : Config) (size : U64) (seed : List Byte) (path : String) (c : Option Nat) (h h' : Held)
    {n : Nat → Nat} (ha : Adds h h' fun g => one c g + n g) :
    Safe (fun b h' => Adds h h' fun g => held b g + n g) (ensureCache P d size seed path c) h' := by
  cases c with
  | none =>
    refine (provideCache_safe P d size seed path h').mono fun b h'' hb => ?_
    refine (ha.trans hb).congr fun g => ?_
    rw [one_none]
    omega
  | some f => exact ha.congr fun g => by rw [one_held]

theorem ensureL1_safe (P : Prims) (d : Config) (cache : Buffer) (path : String) (l : Option Buffer) (h h' : Held)
    (ha : Adds h h' fun g => held cache g + (l.map fun b => held b g).getD 0) :
    Safe (fun b h' => Adds h h' fun g => held cache g + held b g) (ensureL1 P d cache path l) h' := by
  cases l with
  | none =>
    refine (provideL1_safe P d cache path h' fun g => ?_).mono fun b h'' hb => ?_
    · have := ha g
      dsimp only at this
      omega
    · exact (ha.trans hb).congr fun g => by show held cache g + 0 + held b g = _; omega
  | some b => exact ha

theorem produce_safe (P : Prims) (d : Config) (epoch size : U64) (seed : List Byte) (cachePath l1Path : String) (c : Option Nat) (l : Option Buffer)
    (h h' : Held) (ha : Adds h h' (old c l)) : Safe (fun b h' => Adds h h' (holds b)) (produce P d epoch size seed cachePath l1Path c l) h' := by
  unfold produce
  apply Safe.bind
  refine (ensureCache_safe P d size seed cachePath c h h' ha).mono fun cache h1 h2 => ?_
  apply Safe.bind
  refine (ensureL1_safe P d cache l1Path l h h1 h2).mono fun l1 h3 h4 => ?_
  apply Safe.bind
  unfold Files.cleanup
  refine (cleanupLoop_safe P d _ _ _ h3).mono ?_
  rintro _ _ rfl
  exact h4.congr fun g => (holds_eq ⟨cache, l1⟩ g).symm

theorem complete_safe (P : Prims) (d : Config) (epoch size : U64) (seed : List Byte) (cachePath l1Path : String) (c : Option Nat) (l : Option Buffer)
    (h h' : Held) (ha : Adds h h' (old c l)) : Safe (fun b h' => Adds h h' (holds b)) (complete P d epoch size seed cachePath l1Path c l) h' := by
  unfold complete
  split
  · refine ha.congr fun g => ?_
    rw [holds_eq]
    unfold old
    rw [one_held]
    rfl
  · exact produce_safe P d epoch size seed cachePath l1Path _ _ h h' ha

theorem generate_safe (P : Prims) (fuel : Nat) (d : Config) (epoch : U64) (h : Held) :
    Safe (fun b h' => Adds h h' (holds b)) (generate P fuel d epoch) h := by
  unfold Files.generate
  apply Safe.bind
  refine Safe.lift fun size => ?_
  apply Safe.bind
  refine Safe.lift fun seed => ?_
  by_cases hd : d.storageDir = ""
  · rw [if_pos hd]
    apply Safe.bind
    exact Safe.lift fun l => (Adds.refl h)
  · rw [if_neg hd]
    unfold Files.generateOnDisk
    apply Safe.bind
    refine Safe.lift fun key => ?_
    apply Safe.bind
    refine (memoryMap_safe h _ _).mono fun c h1 h2 => ?_
    apply Safe.bind
    refine (tryL1_safe d _ h1).mono fun l h3 h4 => ?_
    exact complete_safe P d epoch size seed _ _ c l h h3 (h2.trans h4)

theorem touch_safe (b : Buffer) (h : Held) (hb : ∀ g, held b g ≤ h.maps g) : Safe (fun _ h' => h' = h) (touch b) h := by
  cases b with
  | mem w => rfl
  | file f =>
    unfold touch
    apply Safe.bind
    have := hb f
    rw [held_self] at this
    exact Safe.read f (by omega) fun _ => rfl

theorem touches_safe (b : Buffers) (xs : List Bool) (h : Held) (hb : ∀ g, holds b g ≤ h.maps g) : Safe (fun _ h' => h' = h) (touches b xs) h := by
  induction xs with
  | nil => rfl
  | cons x xs ih =>
    unfold touches
    apply Safe.bind
    refine (touch_safe _ h fun g => ?_).mono ?_
    · have := hb g
      rw [holds_eq] at this
      cases x
      · show held b.l1 g ≤ _
        omega
      · show held b.cache g ≤ _
        omega
    · rintro _ _ rfl
      exact ih

theorem release_safe (b : Buffer) (h h' : Held) {n : Nat → Nat} (ha : Adds h h' fun g => held b g + n g) :
    Safe (fun _ h' => Adds h h' n) (release b) h' := by
  cases b with
  | mem w => exact ha.congr fun g => Nat.zero_add _
  | file f =>
    obtain ⟨h0, e0⟩ : ∃ h0 : Held, h0 = ⟨fun g => h'.opens g - held (.file f) g, fun g => h'.maps g - held (.file f) g, h'.stuck⟩ := ⟨_, rfl⟩
    have a1 : Adds h0 h' (one (some f)) := by
      intro g
      have := ha g
      rw [one_held, e0]
      dsimp only at this ⊢
      omega
    have a2 : Adds h h0 n := by
      intro g
      have := ha g
      rw [e0]
      dsimp only at this ⊢
      omega
    refine unmapClose h0 h' f a1 _ fun h'' a => ?_
    exact (a2.trans a).congr fun g => Nat.add_zero _

theorem finalizer_safe (b : Buffers) (h h' : Held) (ha : Adds h h' (holds b)) : Safe (fun _ h' => Adds h h' fun _ => 0) (finalizer b) h' := by
  unfold finalizer
  apply Safe.bind
  refine (release_safe b.cache h h' (n := held b.l1) (ha.congr (holds_eq b))).mono fun _ h1 h2 => ?_
  exact release_safe b.l1 h h1 (n := fun _ => 0) (h2.congr fun g => (Nat.add_zero _).symm)

theorem life_safe (P : Prims) (fuel : Nat) (d : Config) (epoch : U64) (reads : List Bool) (h : Held) :
    Safe (fun _ h' => Adds h h' fun _ => 0) (life P fuel d epoch reads) h := by
  unfold life
  apply Safe.bind
  refine (generate_safe P fuel d epoch h).mono fun b h1 h2 => ?_
  apply Safe.bind
  refine (touches_safe b reads h1 fun g => ?_).mono ?_
  · have := h2 g
    omega
  · rintro _ _ rfl
    exact finalizer_safe b h _ h2

end Verif.Handles
