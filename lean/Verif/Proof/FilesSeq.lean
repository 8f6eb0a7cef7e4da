import Verif.Proof.FilesRun

/-! # One process alone: the runs of a program of system calls and the results of a sequential function

`Sim d p R out post` says that the complete runs of the program `p` from the directory `d`, seen through `out`, are exactly the results
in `R`, and that a run that ends with a value ends in a state with `post`. -/

set_option autoImplicit false

namespace Verif.Files

open Go Dag

/-- the complete runs of `p` from `d` have, seen through `out`, exactly the results `R` -/
structure Sim {α σ : Type} (d : Disk) (p : Prog α) (R : Go σ → Prop) (out : Disk → α → σ) (post : Disk → α → Prop) : Prop where
  fwd : ∀ d' r, Runs d p d' (lift r) → R (r.map (out d')) ∧ ∀ a, r = .ok a → post d' a
  bwd : ∀ s, R s → ∃ d' r, Runs d p d' (lift r) ∧ s = r.map (out d') ∧ ∀ a, r = .ok a → post d' a

section rules
variable {α β σ τ : Type} {d : Disk}

theorem runs_call {c : Call} {k : c.Reply → Prog α} {d' : Disk} {r : Go α} (h : Runs d (.call c k) d' (lift r)) :
    ∃ x d1, Exec c d x d1 ∧ Runs d1 (k x) d' (lift r) := by
  generalize hp : Prog.call c k = p at h
  generalize hq : lift r = q at h
  cases h with
  | refl d p => subst hq; cases r with
    | ok a => simp [lift] at hp
    | error s => simp [lift] at hp
  | call x he h => cases hp; exact ⟨x, _, he, h⟩

theorem runs_ret {a : α} {d' : Disk} {r : Go α} (h : Runs d (.ret a) d' (lift r)) : d' = d ∧ r = .ok a := by
  generalize hq : lift r = q at h
  cases h with
  | refl d p => cases r with
    | ok b => simp [lift] at hq; exact ⟨rfl, by rw [hq]⟩
    | error s => simp [lift] at hq

theorem runs_stop {s : Stop} {d' : Disk} {r : Go α} (h : Runs d (.stop s) d' (lift r)) : d' = d ∧ r = .error s := by
  generalize hq : lift r = q at h
  cases h with
  | refl d p => cases r with
    | ok b => simp [lift] at hq
    | error s => simp [lift] at hq; exact ⟨rfl, by rw [hq]⟩

theorem runs_bind {p : Prog α} {f : α → Prog β} {d' : Disk} {r : Go β} (h : Runs d (p >>= f) d' (lift r)) :
    (∃ s, Runs d p d' (lift (.error s)) ∧ r = .error s) ∨ ∃ a d1, Runs d p d1 (lift (.ok a)) ∧ Runs d1 (f a) d' (lift r) := by
  induction p generalizing d with
  | ret a => exact Or.inr ⟨a, d, .refl _ _, h⟩
  | stop s =>
    obtain ⟨rfl, rfl⟩ := runs_stop h
    exact Or.inl ⟨s, .refl _ _, rfl⟩
  | call c k ih =>
    obtain ⟨x, d1, he, h⟩ := runs_call h
    rcases ih x h with ⟨s, h1, h2⟩ | ⟨a, d2, h1, h2⟩
    · exact Or.inl ⟨s, .call x he h1, h2⟩
    · exact Or.inr ⟨a, d2, .call x he h1, h2⟩

theorem Runs.seq {p : Prog α} {f : α → Prog β} {d1 d' : Disk} {q : Prog β} {a : α} (h : Runs d p d1 (lift (.ok a)))
    (h' : Runs d1 (f a) d' q) : Runs d (p >>= f) d' q := (h.bind f).trans h'

variable {R R' R1 R2 : Go σ → Prop} {out : Disk → α → σ} {post : Disk → α → Prop}

theorem Sim.iff {p : Prog α} (h : Sim d p R out post) (hR : ∀ s, R s ↔ R' s) : Sim d p R' out post := by
  rw [show R' = R from funext fun s => propext (hR s).symm]
  exact h

theorem Sim.weaken {p : Prog α} {post' : Disk → α → Prop} (h : Sim d p R out post) (hp : ∀ d' a, post d' a → post' d' a) :
    Sim d p R out post' where
  fwd d' r hr := ⟨(h.fwd d' r hr).1, fun a ha => hp _ _ ((h.fwd d' r hr).2 a ha)⟩
  bwd s hs := by
    obtain ⟨d', r, h1, h2, h3⟩ := h.bwd s hs
    exact ⟨d', r, h1, h2, fun a ha => hp _ _ (h3 a ha)⟩

theorem Sim.through {p : Prog α} {out' : Disk → α → τ} (φ : σ → τ) (h : Sim d p R out post) (ho : ∀ d' a, post d' a → out' d' a = φ (out d' a)) :
    Sim d p (fun s => ∃ s0, R s0 ∧ s = s0.map φ) out' post where
  fwd d' r hr := by
    obtain ⟨h1, h2⟩ := h.fwd d' r hr
    refine ⟨⟨_, h1, ?_⟩, h2⟩
    cases r with
    | ok a => exact congrArg Except.ok (ho d' a (h2 a rfl))
    | error e => rfl
  bwd s hs := by
    obtain ⟨s0, hs0, rfl⟩ := hs
    obtain ⟨d', r, h1, rfl, h3⟩ := h.bwd s0 hs0
    refine ⟨d', r, h1, ?_, h3⟩
    cases r with
    | ok a => exact congrArg Except.ok (ho d' a (h3 a rfl)).symm
    | error e => rfl

theorem Sim.ret {a : α} (h : post d a) : Sim d (.ret a) (fun s => s = .ok (out d a)) out post where
  fwd d' r hr := by
    obtain ⟨rfl, rfl⟩ := runs_ret hr
    exact ⟨rfl, fun b hb => by cases hb; exact h⟩
  bwd s hs := ⟨d, .ok a, .refl _ _, hs, fun b hb => by cases hb; exact h⟩

theorem Sim.stop {e : Stop} : Sim (α := α) d (.stop e) (fun s => s = .error e) out post where
  fwd d' r hr := by
    obtain ⟨rfl, rfl⟩ := runs_stop hr
    exact ⟨rfl, fun b hb => by cases hb⟩
  bwd s hs := ⟨d, .error e, .refl _ _, hs, fun b hb => by cases hb⟩

theorem Sim.bind {p : Prog α} {f : α → Prog β} {R' : σ → Go τ → Prop} {out' : Disk → β → τ} {post' : Disk → β → Prop}
    (h : Sim d p R out post) (hf : ∀ d1 a, post d1 a → Sim d1 (f a) (R' (out d1 a)) out' post') :
    Sim d (p >>= f) (fun s' => (∃ e, R (.error e) ∧ s' = .error e) ∨ ∃ x, R (.ok x) ∧ R' x s') out' post' where
  fwd d' r hr := by
    rcases runs_bind hr with ⟨e, h1, rfl⟩ | ⟨a, d1, h1, h2⟩
    · exact ⟨Or.inl ⟨e, (h.fwd _ _ h1).1, rfl⟩, fun b hb => by cases hb⟩
    · obtain ⟨h3, h4⟩ := h.fwd _ _ h1
      obtain ⟨h5, h6⟩ := (hf d1 a (h4 a rfl)).fwd _ _ h2
      exact ⟨Or.inr ⟨out d1 a, h3, h5⟩, h6⟩
  bwd s hs := by
    rcases hs with ⟨e, h1, rfl⟩ | ⟨x, h1, h2⟩
    · obtain ⟨d', r, h3, h4, _⟩ := h.bwd _ h1
      cases r with
      | ok a => cases h4
      | error e' =>
        cases h4
        exact ⟨d', .error e, h3.bind f, rfl, fun b hb => by cases hb⟩
    · obtain ⟨d1, r, h3, h4, h5⟩ := h.bwd _ h1
      cases r with
      | error e' => cases h4
      | ok a =>
        cases h4
        obtain ⟨d', r, h6, h7, h8⟩ := (hf d1 a (h5 a rfl)).bwd _ h2
        exact ⟨d', r, h3.seq h6, h7, h8⟩

/-- a call with one possible result -/
theorem Sim.call {c : Call} {k : c.Reply → Prog α} {x : c.Reply} {d1 : Disk} (he : Exec c d x d1)
    (hu : ∀ y d2, Exec c d y d2 → y = x ∧ d2 = d1) (h : Sim d1 (k x) R out post) : Sim d (.call c k) R out post where
  fwd d' r hr := by
    obtain ⟨y, d2, he', hr⟩ := runs_call hr
    obtain ⟨rfl, rfl⟩ := hu y d2 he'
    exact h.fwd d' r hr
  bwd s hs := by
    obtain ⟨d', r, h1, h2⟩ := h.bwd s hs
    exact ⟨d', r, .call x he h1, h2⟩

/-- a call with two possible results -/
theorem Sim.call2 {c : Call} {k : c.Reply → Prog α} {x y : c.Reply} {dx dy : Disk} (hx : Exec c d x dx) (hy : Exec c d y dy)
    (hu : ∀ z d2, Exec c d z d2 → (z = x ∧ d2 = dx) ∨ (z = y ∧ d2 = dy)) (h1 : Sim dx (k x) R1 out post) (h2 : Sim dy (k y) R2 out post) :
    Sim d (.call c k) (fun s => R1 s ∨ R2 s) out post where
  fwd d' r hr := by
    obtain ⟨z, d2, he', hr⟩ := runs_call hr
    rcases hu z d2 he' with ⟨rfl, rfl⟩ | ⟨rfl, rfl⟩
    · exact ⟨Or.inl (h1.fwd d' r hr).1, (h1.fwd d' r hr).2⟩
    · exact ⟨Or.inr (h2.fwd d' r hr).1, (h2.fwd d' r hr).2⟩
  bwd s hs := by
    rcases hs with hs | hs
    · obtain ⟨d', r, h3, h4⟩ := h1.bwd s hs
      exact ⟨d', r, .call x hx h3, h4⟩
    · obtain ⟨d', r, h3, h4⟩ := h2.bwd s hs
      exact ⟨d', r, .call y hy h3, h4⟩

theorem Sim.lift (x : Go α) : Sim d (lift x) (fun s => s = x.map (out d)) out (fun d' a => d' = d ∧ x = .ok a) := by
  cases x with
  | ok a => exact Sim.ret ⟨rfl, rfl⟩
  | error e => exact Sim.stop

/-- the result and the directory after a call are one of the expected ones -/
local macro "exec_done" : tactic => `(tactic| first | exact Or.inl ⟨rfl, rfl⟩ | exact Or.inr ⟨rfl, rfl⟩ | exact ⟨rfl, rfl⟩)

theorem either (b : Bool) (d : Disk) : (b = true ∧ d = d) ∨ (b = false ∧ d = d) := by cases b <;> simp

variable {F : Bool → Prog α}

theorem sim_mkdirAll {path : String} (h1 : Sim d (F true) R1 out post) (h2 : Sim d (F false) R2 out post) :
    Sim d (mkdirAll path >>= F) (fun s => R1 s ∨ R2 s) out post :=
  Sim.call2 (c := .mkdirAll path) (.mkdirAll path d true) (.mkdirAll path d false)
    (fun z d2 h => by cases h; exact either z d) h1 h2

theorem sim_lock {f : Nat} (h1 : Sim d (F true) R1 out post) (h2 : Sim d (F false) R2 out post) :
    Sim d (lock f >>= F) (fun s => R1 s ∨ R2 s) out post :=
  Sim.call2 (c := .lock f) (.lock f d true) (.lock f d false)
    (fun z d2 h => by cases h; exact either z d) h1 h2

theorem sim_unmap {f : Nat} (h1 : Sim d (F true) R1 out post) (h2 : Sim d (F false) R2 out post) :
    Sim d (unmap f >>= F) (fun s => R1 s ∨ R2 s) out post :=
  Sim.call2 (c := .unmap f) (.unmap f d true) (.unmap f d false)
    (fun z d2 h => by cases h; exact either z d) h1 h2

theorem sim_close {f : Nat} (h1 : Sim d (F true) R1 out post) (h2 : Sim d (F false) R2 out post) :
    Sim d (close f >>= F) (fun s => R1 s ∨ R2 s) out post :=
  Sim.call2 (c := .close f) (.close f d true) (.close f d false)
    (fun z d2 h => by cases h; exact either z d) h1 h2

theorem sim_remove {path : String} (h1 : Sim (d.bind path none) (F true) R1 out post) (h2 : Sim d (F false) R2 out post) :
    Sim d (remove path >>= F) (fun s => R1 s ∨ R2 s) out post :=
  Sim.call2 (c := .remove path) (.remove path d) (.removeFails path d) (fun z d2 h => by cases h <;> exec_done) h1 h2

theorem sim_rename {source target : String} {f : Nat} (hf : d.names source = some f)
    (h1 : Sim ((d.bind source none).bind target (some f)) (F true) R1 out post) (h2 : Sim d (F false) R2 out post) :
    Sim d (rename source target >>= F) (fun s => R1 s ∨ R2 s) out post :=
  Sim.call2 (c := .rename source target) (.rename source target d f hf) (.renameFails source target d)
    (fun z d2 h => by
      cases h with
      | renameFails => exec_done
      | rename _ _ _ f' hf' => rw [hf] at hf'; cases hf'; exec_done) h1 h2

theorem sim_map {f : Nat} (hf : d.data f ≠ []) (h1 : Sim d (F true) R1 out post) (h2 : Sim d (F false) R2 out post) :
    Sim d (map f >>= F) (fun s => R1 s ∨ R2 s) out post :=
  Sim.call2 (c := .map f) (.map f d hf) (.mapFails f d) (fun z d2 h => by cases h <;> exec_done) h1 h2

theorem sim_map_empty {f : Nat} (hf : d.data f = []) (h : Sim d (F false) R out post) : Sim d (map f >>= F) R out post :=
  Sim.call (c := .map f) (.mapFails f d) (fun z d2 h => by
    cases h with
    | mapFails => exec_done
    | map _ _ h => exact absurd hf h) h

theorem sim_truncate {f : Nat} {n : Int} (hn : 0 ≤ n) (h1 : Sim (d.put f (resize (d.data f) n.toNat)) (F true) R1 out post)
    (h2 : Sim d (F false) R2 out post) : Sim d (truncate f n >>= F) (fun s => R1 s ∨ R2 s) out post :=
  Sim.call2 (c := .truncate f n) (.truncate f n d hn) (.truncateFails f n d) (fun z d2 h => by cases h <;> exec_done) h1 h2

theorem sim_truncate_neg {f : Nat} {n : Int} (hn : n < 0) (h : Sim d (F false) R out post) : Sim d (truncate f n >>= F) R out post :=
  Sim.call (c := .truncate f n) (.truncateFails f n d) (fun z d2 h => by
    cases h with
    | truncateFails => exec_done
    | truncate _ _ _ h => omega) h

theorem sim_read {f : Nat} {F : List Byte → Prog α} (h : Sim d (F (d.data f)) R out post) : Sim d (read f >>= F) R out post :=
  Sim.call (c := .read f) (.read f d) (fun z d2 h => by cases h; exec_done) h

theorem sim_store {f off : Nat} {bytes : List Byte} {F : Unit → Prog α} (h : Sim (d.put f (splice (d.data f) off bytes)) (F ()) R out post) :
    Sim d (store f off bytes >>= F) R out post :=
  Sim.call (c := .store f off bytes) (.store f off bytes d) (fun z d2 h => by cases h; exec_done) h

theorem sim_open {path : String} {f : Nat} {F : Option Nat → Prog α} (hf : d.names path = some f) (h1 : Sim d (F (some f)) R1 out post)
    (h2 : Sim d (F none) R2 out post) : Sim d (openFile path >>= F) (fun s => R1 s ∨ R2 s) out post :=
  Sim.call2 (c := .open path) (.open path d f hf) (.openFails path d) (fun z d2 h => by
    cases h with
    | openFails => exec_done
    | «open» _ _ f' hf' => rw [hf] at hf'; cases hf'; exec_done) h1 h2

theorem sim_open_none {path : String} {F : Option Nat → Prog α} (hf : d.names path = none) (h : Sim d (F none) R out post) :
    Sim d (openFile path >>= F) R out post :=
  Sim.call (c := .open path) (.openFails path d) (fun z d2 h => by
    cases h with
    | openFails => exec_done
    | «open» _ _ f' hf' => rw [hf] at hf'; cases hf') h

theorem sim_create_old {path : String} {f : Nat} {F : Option Nat → Prog α} (hf : d.names path = some f)
    (h1 : Sim (d.put f []) (F (some f)) R1 out post) (h2 : Sim d (F none) R2 out post) :
    Sim d (create path >>= F) (fun s => R1 s ∨ R2 s) out post :=
  Sim.call2 (c := .create path) (.createOld path d f hf) (.createFails path d) (fun z d2 h => by
    cases h with
    | createFails => exec_done
    | createNew _ _ hf' => rw [hf] at hf'; cases hf'
    | createOld _ _ f' hf' => rw [hf] at hf'; cases hf'; exec_done) h1 h2

theorem sim_create_new {path : String} {F : Option Nat → Prog α} (hf : d.names path = none)
    (h1 : Sim { (d.bind path (some d.fresh)).put d.fresh [] with fresh := d.fresh + 1 } (F (some d.fresh)) R1 out post)
    (h2 : Sim d (F none) R2 out post) : Sim d (create path >>= F) (fun s => R1 s ∨ R2 s) out post :=
  Sim.call2 (c := .create path) (.createNew path d hf) (.createFails path d) (fun z d2 h => by
    cases h with
    | createFails => exec_done
    | createNew _ _ hf' => exec_done
    | createOld _ _ f' hf' => rw [hf] at hf'; cases hf') h1 h2

theorem sim_random {F : Nat → Prog α} {R : Nat → Go σ → Prop} (h : ∀ n, Sim d (F n) (R n) out post) :
    Sim d (random >>= F) (fun s => ∃ n, R n s) out post where
  fwd d' r hr := by
    obtain ⟨z, d2, he', hr⟩ := runs_call (c := .random) (k := F) hr
    cases he' with
    | random _ n => exact ⟨⟨_, ((h _).fwd d' r hr).1⟩, ((h _).fwd d' r hr).2⟩
  bwd s hs := by
    obtain ⟨n, hs⟩ := hs
    obtain ⟨d', r, h1, h2⟩ := (h n).bwd s hs
    exact ⟨d', r, .call (c := .random) (k := F) n (.random d n) h1, h2⟩

end rules

end Verif.Files
