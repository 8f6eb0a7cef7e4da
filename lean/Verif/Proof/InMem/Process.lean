import Verif.Model.InMem.Process
import Verif.Proof.InMem.Generate
import Verif.Proof.InMem.IsolationPair
import Verif.Proof.Manager

/-! # The caches of a process are in memory that only the package has -/

set_option autoImplicit false

namespace Verif.Process

open Go Dag

/-- what is known about the body of `once.Do` -/
def outcome (P : Prims) (fuel : Nat) (d : Config) (Body : U64 → Go Loaded → Prop) (e : U64) (o : Go Loaded) : Prop :=
  (d.storageDir = "" → ∀ fs env b, Prod.fst <$> Dag.generate P fuel d e fs env = .ok b → o = .ok b) ∧ (d.storageDir ≠ "" → Body e o)

theorem peek_held {t : Ty} {h : Heap} {s : Slice t} {xs : List t.Val} (k : Held h s xs) : peek h s = xs := by
  obtain ⟨a, h1, _, _, rfl⟩ := k
  unfold peek
  rw [h1]
  rfl

theorem inside_held {t : Ty} {h : Heap} {s : Slice t} {xs : List t.Val} (k : Inside h s) (e : peek h s = xs) : Held h s xs := by
  obtain ⟨a, h1, h2, h3⟩ := k
  refine ⟨a, h1, h2, h3, ?_⟩
  unfold peek at e
  rw [h1] at e
  exact e

theorem fresh_outputs {n : Ty → Nat} {m : Mem (Option (Slice .byte × Slice .byte))} (hm : Spares n m (Clients.InMem.Fresh2? n)) :
    Spares n (do let o ← m; pure (match o with | Option.none => [] | some (a, b) => [a, b])) fun out => ∀ s ∈ out, n .byte ≤ s.arr := by
  refine hm.bind fun o ho => Spares.pure fun s hs => ?_
  match o, ho, hs with
  | some (a, b), ho, hs =>
    obtain ⟨h1, h2⟩ := ho (a, b) rfl
    rcases List.mem_cons.1 hs with rfl | hs
    · exact h1
    · obtain rfl := List.mem_singleton.1 hs
      exact h2

theorem spares_algo {n : Ty → Nat} (P : Prims) (fuel : Nat) (d : Config) (p : Slice .word × Slice .word) (hash : Slice .byte) (height nonce : U64) (a : Algo) :
    Spares n (a.compute P fuel d (fun _ => pure p) hash height nonce) fun out => ∀ s ∈ out, n .byte ≤ s.arr := by
  have hg : ∀ e : U64, Spares n ((fun _ => pure p : Clients.InMem.GetCache) e) fun _ => True := fun _ => Spares.pure trivial
  cases a with
  | ethash => exact fresh_outputs (Clients.InMem.spares_ethash P fuel d hg hash height nonce)
  | kawpow => exact fresh_outputs (Clients.InMem.spares_kawpow P fuel d hg hash height nonce)
  | firopow => exact fresh_outputs (Clients.InMem.spares_firopow P fuel d hg hash height nonce)
  | octopus =>
    refine (Clients.InMem.spares_octopus P fuel d hg hash height nonce).bind fun o ho => Spares.pure fun s hs => ?_
    match o, ho, hs with
    | some a, ho, hs =>
      obtain rfl := List.mem_singleton.1 hs
      exact ho s rfl

/-- the program outside cannot write to the slice -/
def Ours (w : World) (s : Slice .word) : Prop := ¬ w.theirs .word s.arr ∨ s.len = 0

structure Inv (P : Prims) (fuel : Nat) (d : Config) (Body : U64 → Go Loaded → Prop) (w : World) : Prop where
  proc : Manager.Reach d.cachesCount (outcome P fuel d Body) w.proc
  old : ∀ i, w.theirs .word i → i < (w.mem.store .word).length
  held : ∀ i < w.proc.mgr.fresh, ∀ r, (w.proc.mgr.heap i).once = .done (some r) →
    (d.storageDir = "" → ∃ fs env b, Prod.fst <$> Dag.generate P fuel d (w.proc.mgr.heap i).epoch fs env = .ok b) →
    Held w.mem (w.data i).1 r.cache ∧ Held w.mem (w.data i).2 r.l1 ∧ Ours w (w.data i).1 ∧ Ours w (w.data i).2

theorem held_frame {M : Ty → Nat → Prop} {h h' : Heap} (f : Frame h h' M) {s : Slice .word} {xs : List U32} (k : Held h s xs)
    (ho : ¬ M .word s.arr ∨ s.len = 0) : Held h' s xs := by
  obtain ⟨a, h1, h2, h3, h4⟩ := k
  obtain ⟨a', e, l, q⟩ := f .word s.arr a h1
  refine ⟨a', e, h2, by rw [l]; exact h3, ?_⟩
  rcases ho with ho | ho
  · rw [q ho]; exact h4
  · rw [ho, List.take_zero] at h4 ⊢
    exact h4

theorem mono_step {k : Int} {B : U64 → Go Loaded → Prop} {s s' : Manager.State} (h : Manager.Step k (fun _ _ => False) s s') : Manager.Step k B s s' := by
  cases h with
  | call e hcr => exact .call s e hcr
  | lock t e order now m c spawn hcr hst ht ho hclk hok => exact .lock s t e order now m c spawn hcr hst ht ho hclk hok
  | lockPanic t e order now p hcr hst ht ho hclk hok => exact .lockPanic s t e order now p hcr hst ht ho hclk hok
  | start t role i hcr ht hid => exact .start s t role i hcr ht hid
  | finish t role i r hcr ht hb => exact hb.elim
  | finishPanic t role i p hcr ht hb => exact hb.elim
  | skip t role i r hcr ht hd => exact .skip s t role i r hcr ht hd

/-- without the bodies no cache is filled -/
theorem done_before {k : Int} {B : U64 → Go Loaded → Prop} {s s' : Manager.State} (hr : Manager.Reach k B s)
    (h : Manager.Step k (fun _ _ => False) s s') (i : Nat) (hi : i < s'.mgr.fresh) (r : Loaded) (hd : (s'.mgr.heap i).once = .done (some r)) :
    i < s.mgr.fresh ∧ (s.mgr.heap i).once = .done (some r) ∧ (s'.mgr.heap i).epoch = (s.mgr.heap i).epoch := by
  cases h with
  | call e hcr => exact ⟨hi, hd, rfl⟩
  | lock t e order now m c spawn hcr hst ht ho hclk hok =>
    have g := (Manager.locked_after (Manager.inv_reach hr).wf ho hok).grown
    have hlt : i < s.mgr.fresh := by
      by_contra hc
      have : (m.heap i).once = .done (some r) := hd
      rw [g.idle i (by omega) hi] at this
      cases this
    refine ⟨hlt, ?_, g.epoch i hlt⟩
    rw [← g.once i hlt]
    exact hd
  | lockPanic t e order now p hcr hst ht ho hclk hok => exact ⟨hi, hd, rfl⟩
  | start t role j hcr ht hid =>
    have hd : ((s.mgr.setOnce j .running).heap i).once = .done (some r) := hd
    rw [(Manager.setOnce_heap s.mgr j .running i).2.2] at hd
    by_cases hij : i = j
    · rw [if_pos hij] at hd; cases hd
    · rw [if_neg hij] at hd
      exact ⟨hi, hd, (Manager.setOnce_heap s.mgr j .running i).1⟩
  | finish t role i r hcr ht hb => exact hb.elim
  | finishPanic t role i p hcr ht hb => exact hb.elim
  | skip t role i r hcr ht hd' => exact ⟨hi, hd, rfl⟩

theorem inv_step (P : Prims) (fuel : Nat) (d : Config) (Body : U64 → Go Loaded → Prop) {w w' : World} (hi : Inv P fuel d Body w) (hs : Step P fuel d Body w w') :
    Inv P fuel d Body w' := by
  cases hs with
  | manager s hm =>
    refine ⟨hi.proc.step (mono_step hm), hi.old, fun i hlt r hd hg => ?_⟩
    obtain ⟨h1, h2, h3⟩ := done_before hi.proc hm i hlt r hd
    exact hi.held i h1 r h2 (by rw [← h3]; exact hg)
  | generated t role i p h hcr ht hsd hgen =>
    have hout : ∀ fs env b, Prod.fst <$> Dag.generate P fuel d (w.proc.mgr.heap i).epoch fs env = .ok b →
        Held h p.1 b.cache ∧ Held h p.2 b.l1 ∧ (w.mem.store .word).length ≤ p.1.arr ∧ ((w.mem.store .word).length ≤ p.2.arr ∨ p.2.len = 0) := by
      intro fs env b hb
      cases hx : Dag.generate P fuel d (w.proc.mgr.heap i).epoch fs env with
      | error e => rw [hx] at hb; cases hb
      | ok x =>
        rw [hx] at hb
        obtain rfl : x.1 = b := Except.ok.inj hb
        obtain ⟨a, h', e, _, k1, k2, n1, n2, n3⟩ := Dag.InMem.runs_generate P fuel d hsd _ fs env w.mem x hx
        rw [hgen] at e
        obtain ⟨rfl, rfl⟩ := Prod.mk.inj (Except.ok.inj e)
        refine ⟨k1, k2, n1, ?_⟩
        cases hl : d.l1Enabled with
        | true => exact Or.inl (n2 hl).1
        | false => exact Or.inr (by rw [(n3 hl).1]; rfl)
    have hsp := (Spares.isolated fun n => Dag.InMem.spares_generate (n := n) P fuel d (w.proc.mgr.heap i).epoch).1 w.mem p h hgen
    have hfr : Frame w.mem h Go.none := untouched_iff.2 hsp.1
    refine ⟨hi.proc.step (.finish w.proc t role i _ hcr ht ⟨fun _ fs env b hb => ?_, fun hn => absurd hsd hn⟩), fun j hj => ?_, fun j hlt r hd hg => ?_⟩
    · obtain ⟨k1, k2, _⟩ := hout fs env b hb
      rw [peek_held k1, peek_held k2]
    · exact Nat.lt_of_lt_of_le (hi.old j hj) (hfr.length .word)
    · have hd' : ((w.proc.mgr.setOnce i (.done (some ⟨peek h p.1, peek h p.2⟩))).heap j).once = .done (some r) := hd
      have hg' : d.storageDir = "" → ∃ fs env b, Prod.fst <$> Dag.generate P fuel d ((w.proc.mgr.setOnce i (.done (some ⟨peek h p.1, peek h p.2⟩))).heap j).epoch fs env = .ok b := hg
      rw [(Manager.setOnce_heap _ i _ j).2.2] at hd'
      rw [(Manager.setOnce_heap _ i _ j).1] at hg'
      show Held h (Function.update w.data i p j).1 r.cache ∧ Held h (Function.update w.data i p j).2 r.l1 ∧
        (¬ w.theirs .word (Function.update w.data i p j).1.arr ∨ (Function.update w.data i p j).1.len = 0) ∧
        (¬ w.theirs .word (Function.update w.data i p j).2.arr ∨ (Function.update w.data i p j).2.len = 0)
      by_cases hij : j = i
      · subst hij
        rw [if_pos rfl] at hd'
        rw [Function.update_self]
        injection hd' with hd'
        obtain rfl := Option.some.inj hd'
        obtain ⟨fs, env, b, hb⟩ := hg' hsd
        obtain ⟨k1, k2, n1, n2⟩ := hout fs env b hb
        refine ⟨by rw [peek_held k1]; exact k1, by rw [peek_held k2]; exact k2, Or.inl fun hc => ?_, ?_⟩
        · have := hi.old _ hc
          omega
        · rcases n2 with n2 | n2
          · exact Or.inl fun hc => by have := hi.old _ hc; omega
          · exact Or.inr n2
      · rw [if_neg hij] at hd'
        rw [Function.update_of_ne hij]
        obtain ⟨a1, a2, a3, a4⟩ := hi.held j hlt r hd' hg'
        exact ⟨a1.keep hfr, a2.keep hfr, a3, a4⟩
  | failed t role i p h hcr ht hsd hgen =>
    have hfr : Frame w.mem h Go.none :=
      untouched_iff.2 ((Spares.isolated fun n => Dag.InMem.spares_generate (n := n) P fuel d (w.proc.mgr.heap i).epoch).2 w.mem p h hgen)
    refine ⟨hi.proc.step (.finishPanic w.proc t role i p hcr ht ⟨fun _ fs env b hb => ?_, fun hn => absurd hsd hn⟩),
      fun j hj => Nat.lt_of_lt_of_le (hi.old j hj) (hfr.length .word), fun j hlt r hd hg => ?_⟩
    · exfalso
      cases hx : Dag.generate P fuel d (w.proc.mgr.heap i).epoch fs env with
      | error e => rw [hx] at hb; cases hb
      | ok x =>
        obtain ⟨a, h', e, _⟩ := Dag.InMem.runs_generate P fuel d hsd _ fs env w.mem x hx
        rw [hgen] at e
        cases e
    · have hd : ((w.proc.mgr.setOnce i (.done none)).heap j).once = .done (some r) := hd
      have hg : d.storageDir = "" → ∃ fs env b, Prod.fst <$> Dag.generate P fuel d ((w.proc.mgr.setOnce i (.done none)).heap j).epoch fs env = .ok b := hg
      rw [(Manager.setOnce_heap _ i _ j).2.2] at hd
      rw [(Manager.setOnce_heap _ i _ j).1] at hg
      by_cases hij : j = i
      · rw [if_pos hij] at hd
        injection hd with hd
        cases hd
      · rw [if_neg hij] at hd
        obtain ⟨a1, a2, a3, a4⟩ := hi.held j hlt r hd hg
        exact ⟨a1.keep hfr, a2.keep hfr, a3, a4⟩
  | loaded t role i r p h hcr ht hsd hb hu n1 n2 i1 i2 p1 p2 =>
    have hfr : Frame w.mem h Go.none := untouched_iff.2 hu
    refine ⟨hi.proc.step (.finish w.proc t role i r hcr ht ⟨fun he => absurd he hsd, fun _ => hb⟩), fun j hj => ?_, fun j hlt r' hd hg => ?_⟩
    · exact Nat.lt_of_lt_of_le (hi.old j hj) (hfr.length .word)
    · have hd' : ((w.proc.mgr.setOnce i (.done (some r))).heap j).once = .done (some r') := hd
      rw [(Manager.setOnce_heap _ i _ j).2.2] at hd'
      show Held h (Function.update w.data i p j).1 r'.cache ∧ Held h (Function.update w.data i p j).2 r'.l1 ∧
        (¬ w.theirs .word (Function.update w.data i p j).1.arr ∨ (Function.update w.data i p j).1.len = 0) ∧
        (¬ w.theirs .word (Function.update w.data i p j).2.arr ∨ (Function.update w.data i p j).2.len = 0)
      by_cases hij : j = i
      · subst hij
        rw [if_pos rfl] at hd'
        rw [Function.update_self]
        injection hd' with hd'
        obtain rfl := Option.some.inj hd'
        refine ⟨inside_held i1 p1, inside_held i2 p2, Or.inl fun hc => ?_, ?_⟩
        · have := hi.old _ hc
          omega
        · rcases n2 with n2 | n2
          · exact Or.inl fun hc => by have := hi.old _ hc; omega
          · exact Or.inr (by rw [n2]; rfl)
      · rw [if_neg hij] at hd'
        rw [Function.update_of_ne hij]
        obtain ⟨a1, a2, a3, a4⟩ := hi.held j hlt r' hd' fun he => absurd he hsd
        exact ⟨a1.keep hfr, a2.keep hfr, a3, a4⟩
  | broken t role i p h hcr ht hsd hb hu =>
    have hfr : Frame w.mem h Go.none := untouched_iff.2 hu
    refine ⟨hi.proc.step (.finishPanic w.proc t role i p hcr ht ⟨fun he => absurd he hsd, fun _ => hb⟩),
      fun j hj => Nat.lt_of_lt_of_le (hi.old j hj) (hfr.length .word), fun j hlt r hd hg => ?_⟩
    have hd : ((w.proc.mgr.setOnce i (.done none)).heap j).once = .done (some r) := hd
    rw [(Manager.setOnce_heap _ i _ j).2.2] at hd
    by_cases hij : j = i
    · rw [if_pos hij] at hd
      injection hd with hd
      cases hd
    · rw [if_neg hij] at hd
      obtain ⟨a1, a2, a3, a4⟩ := hi.held j hlt r hd fun he => absurd he hsd
      exact ⟨a1.keep hfr, a2.keep hfr, a3, a4⟩
  | aborted t e i a hash height nonce p h hcr ht he hrun =>
    have hfr : Frame w.mem h Go.none :=
      untouched_iff.2 ((Spares.isolated fun n => spares_algo (n := n) P fuel d (w.data i) hash height nonce a).2 w.mem p h hrun)
    refine ⟨hi.proc, fun j hj => Nat.lt_of_lt_of_le (hi.old j hj) (hfr.length .word), fun j hlt r hd hg => ?_⟩
    obtain ⟨a1, a2, a3, a4⟩ := hi.held j hlt r hd hg
    exact ⟨a1.keep hfr, a2.keep hfr, a3, a4⟩
  | compute t e i a hash height nonce out h hcr ht he hrun =>
    obtain ⟨hu, _⟩ := (Spares.isolated fun n => spares_algo (n := n) P fuel d (w.data i) hash height nonce a).1 w.mem out h hrun
    have hfr : Frame w.mem h Go.none := untouched_iff.2 hu
    refine ⟨hi.proc, fun j hj => ?_, fun j hlt r hd hg => ?_⟩
    · rcases hj with hj | hj | ⟨hc, _⟩
      · exact Nat.lt_of_lt_of_le (hi.old j hj) (hfr.length .word)
      · exact hj.2
      · cases hc
    · obtain ⟨a1, a2, a3, a4⟩ := hi.held j hlt r hd hg
      have ours : ∀ s xs, Held w.mem s xs → Ours w s → Ours { w with
          mem := h
          theirs := fun u j => w.theirs u j ∨ ((w.mem.store u).length ≤ j ∧ j < (h.store u).length) ∨ (u = .byte ∧ ∃ s ∈ out, s.arr = j) } s := by
        intro s xs k ho
        rcases ho with ho | ho
        · refine Or.inl ?_
          rintro (hc | hc | ⟨hc, _⟩)
          · exact ho hc
          · have := k.arr
            omega
          · cases hc
        · exact Or.inr ho
      exact ⟨a1.keep hfr, a2.keep hfr, ours _ _ a1 a3, ours _ _ a2 a4⟩
  | works h hcr hw =>
    have hfr : Frame w.mem h w.theirs := hw.kept
    refine ⟨hi.proc, fun j hj => ?_, fun j hlt r hd hg => ?_⟩
    · rcases hj with hj | hj
      · exact Nat.lt_of_lt_of_le (hi.old j hj) (hfr.length .word)
      · exact hj.2
    · obtain ⟨a1, a2, a3, a4⟩ := hi.held j hlt r hd hg
      have ours : ∀ s xs, Held w.mem s xs → Ours w s → Ours { w with
          mem := h
          theirs := fun u j => w.theirs u j ∨ ((w.mem.store u).length ≤ j ∧ j < (h.store u).length) } s := by
        intro s xs k ho
        rcases ho with ho | ho
        · refine Or.inl ?_
          rintro (hc | hc)
          · exact ho hc
          · have := k.arr
            omega
        · exact Or.inr ho
      exact ⟨held_frame hfr a1 a3, held_frame hfr a2 a4, ours _ _ a1 a3, ours _ _ a2 a4⟩

theorem inv_reach (P : Prims) (fuel : Nat) (d : Config) (Body : U64 → Go Loaded → Prop) {w : World} (h : Reach P fuel d Body w) : Inv P fuel d Body w := by
  induction h with
  | init w hw =>
    obtain ⟨h1, h2⟩ := hw
    refine ⟨by rw [h1]; exact .init, fun i ht => (h2 .word i).1 ht, fun i hlt => ?_⟩
    rw [h1] at hlt
    exact absurd hlt (Nat.not_lt_zero i)
  | step _ hs ih => exact inv_step P fuel d Body ih hs

end Verif.Process
