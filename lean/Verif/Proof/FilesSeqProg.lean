import Verif.Proof.FilesSeq

/-! # One process alone: `memoryMap` and `memoryMapAndGenerate` as programs of system calls and as sequential functions -/

set_option autoImplicit false

namespace Verif.Files

open Go Dag

/-- the words behind the mapping that a function returned -/
def seen (d : Disk) (x : Option Nat) : Option (List U32) := x.map fun f => dataOf (d.data f)

theorem bind_eq_ret {α β : Type} (a : α) (f : α → Prog β) : (Prog.ret a >>= f) = f a := rfl

section mapping
variable {d : Disk} {f : Nat} {lck : Bool} {path : String}

/-- ignoring the results of unmapping and closing a file -/
theorem sim_drop {α σ : Type} {R : Go σ → Prop} {out : Disk → α → σ} {post : Disk → α → Prop} {p : Prog α} (h : Sim d p R out post) :
    Sim d (do let _ ← unmap f; let _ ← close f; p) R out post :=
  (sim_unmap (F := fun _ => do let _ ← close f; p) ((sim_close (F := fun _ => p) h h).iff fun _ => or_self_iff)
    ((sim_close (F := fun _ => p) h h).iff fun _ => or_self_iff)).iff fun _ => or_self_iff

theorem sim_mapped : Sim d (mapped f (wordView (d.data f)) lck)
    (fun s => ∃ b, Dag.mapped (wordView (d.data f)) lck ⟨false, false, b⟩ = s) seen (fun d' x => d' = d ∧ (x = none ∨ x = some f)) := by
  have hslc : Sim d (do let _ ← lift (slc (wordView (d.data f)) dumpMagic.length (wordView (d.data f)).length); Prog.ret (some f))
      (fun s => (do let data ← slc (wordView (d.data f)) dumpMagic.length (wordView (d.data f)).length; return some data) = s)
      seen (fun d' x => d' = d ∧ (x = none ∨ x = some f)) := by
    by_cases hl : dumpMagic.length ≤ (wordView (d.data f)).length
    · rw [slc_ok _ _ _ hl (Nat.le_refl _), List.take_length]
      exact (Sim.ret (d := d) (a := some f) (out := seen) ⟨rfl, Or.inr rfl⟩).iff fun s => ⟨fun h => h.symm, fun h => h.symm⟩
    · have he : slc (wordView (d.data f)) dumpMagic.length (wordView (d.data f)).length = .error (.panic .slice) := by
        rw [slc, if_neg (by omega)]
      rw [he]
      exact (Sim.stop (d := d) (out := seen)).iff fun s => ⟨fun h => h.symm, fun h => h.symm⟩
  cases lck with
  | false =>
    refine Sim.iff (d := d) hslc fun s => ⟨fun h => ⟨false, h⟩, ?_⟩
    rintro ⟨b, h⟩
    exact h
  | true =>
    refine Sim.iff (sim_lock (F := fun locked => if !locked then do
        let _ ← unmap f
        let _ ← close f
        .ret none
      else do
        let _ ← lift (slc (wordView (d.data f)) dumpMagic.length (wordView (d.data f)).length)
        .ret (some f)) hslc (sim_drop (Sim.ret ⟨rfl, Or.inl rfl⟩))) fun s => ?_
    constructor
    · rintro (h | h)
      · exact ⟨false, h⟩
      · exact ⟨true, h.symm⟩
    · rintro ⟨b, h⟩
      cases b with
      | false => exact Or.inl h
      | true => exact Or.inr h.symm

theorem sim_checkMagic (h0 : d.data f ≠ []) : Sim d (checkMagic f lck)
    (fun s => ∃ b, memoryMapContent (d.data f) lck ⟨false, false, b⟩ = s) seen (fun d' x => d' = d ∧ (x = none ∨ x = some f)) := by
  have hu := fun b => memoryMapContent_unfold (d.data f) lck ⟨false, false, b⟩ rfl h0
  simp only [hu]
  refine sim_read ?_
  cases hm : forRangeE 0 dumpMagic.length () (magicStep (wordView (d.data f))) with
  | error e => exact (Sim.stop (d := d) (out := seen)).iff fun s => ⟨fun h => ⟨false, h.symm⟩, fun ⟨_, h⟩ => h.symm⟩
  | ok r =>
    cases r with
    | ret u =>
      exact (sim_drop (Sim.ret (out := seen) ⟨rfl, Or.inl rfl⟩)).iff fun s => ⟨fun h => ⟨false, h.symm⟩, fun ⟨_, h⟩ => h.symm⟩
    | cont u => exact sim_mapped

theorem sim_memoryMap : Sim d (memoryMap path lck) (fun s => ∃ o, Dag.memoryMap d.view path lck o = s) seen
    (fun d' x => d' = d ∧ ∀ f, x = some f → d.names path = some f) := by
  cases hn : d.names path with
  | none =>
    refine Sim.iff (sim_open_none hn (Sim.ret ⟨rfl, fun f h => by cases h⟩)) fun s => ?_
    have hv : d.view path = none := by rw [Disk.view, hn]; rfl
    simp only [Dag.memoryMap, hv]
    constructor
    · rintro rfl
      exact ⟨⟨true, true, true⟩, rfl⟩
    · rintro ⟨o, rfl⟩
      by_cases h : o.openFails = true
      · rw [if_pos h]; rfl
      · rw [if_neg h]; rfl
  | some f =>
    have hv : d.view path = some (d.data f) := by rw [Disk.view, hn]; rfl
    have hnone : Sim d (Prog.ret (none : Option Nat)) (fun s => s = .ok none) seen (fun d' x => d' = d ∧ ∀ g, x = some g → some f = some g) :=
      Sim.ret (out := seen) ⟨rfl, fun f h => by cases h⟩
    have hclose : Sim d (do let _ ← close f; Prog.ret (none : Option Nat)) (fun s => s = .ok none) seen
        (fun d' x => d' = d ∧ ∀ g, x = some g → some f = some g) :=
      (sim_close (F := fun _ => Prog.ret (none : Option Nat)) hnone hnone).iff fun _ => or_self_iff
    simp only [Dag.memoryMap, hv]
    by_cases h0 : d.data f = []
    · refine Sim.iff (sim_open hn (sim_map_empty h0 hclose) hnone) fun s => ?_
      rw [or_self_iff]
      constructor
      · rintro rfl
        exact ⟨⟨true, true, true⟩, rfl⟩
      · rintro ⟨o, rfl⟩
        by_cases h : o.openFails = true
        · rw [if_pos h]
        · rw [if_neg h, memoryMapContent_fail _ _ _ (Or.inr h0)]
    · refine Sim.iff (sim_open hn (sim_map h0 ((sim_checkMagic h0).weaken ?_) hclose) hnone) fun s => ?_
      · rintro d' x ⟨rfl, rfl | rfl⟩
        · exact ⟨rfl, fun g h => by cases h⟩
        · exact ⟨rfl, fun g h => h⟩
      · constructor
        · rintro ((⟨b, h⟩ | rfl) | rfl)
          · exact ⟨⟨false, false, b⟩, h⟩
          · exact ⟨⟨true, true, true⟩, rfl⟩
          · exact ⟨⟨true, true, true⟩, rfl⟩
        · rintro ⟨⟨o1, o2, o3⟩, h⟩
          subst h
          cases o1 with
          | true => exact Or.inr rfl
          | false =>
            cases o2 with
            | true =>
              refine Or.inr ?_
              rw [if_neg (by simp), memoryMapContent_fail _ _ _ (Or.inl rfl)]
            | false => exact Or.inl (Or.inl ⟨o3, rfl⟩)

end mapping

/-! ## Filling the temporary file -/

theorem wordView_tail (w : List U32) (t : List Byte) (ht : t.length < 4) : wordView (bytesLE w ++ t) = w := by
  induction w with
  | nil => exact wordView_short t ht
  | cons x w ih =>
    rw [show bytesLE (x :: w) ++ t = bytesLE [x] ++ (bytesLE w ++ t) by simp [bytesLE], wordView_four _ _ (bytesLE_length [x]), ih]
    refine congrArg (· :: w) ?_
    have h1 := wordView_four (bytesLE [x]) [] (bytesLE_length [x])
    rw [List.append_nil, wordView_bytesLE] at h1
    exact (List.cons.inj h1).1.symm

theorem splice_mid (a x t b : List Byte) (h : x.length = b.length) : splice (a ++ (x ++ t)) a.length b = a ++ (b ++ t) := by
  rw [splice, List.take_left, ← List.drop_drop, List.drop_left, ← h, List.drop_left, List.append_assoc, List.take_of_length_le]
  simp [h]

/-- the words of a file of `n` bytes once the magic is in it -/
def magicWords (n : Nat) : List U32 := dumpMagic.take (n / 4) ++ List.replicate (n / 4 - 2) 0

theorem magicWords_length (n : Nat) : (magicWords n).length = n / 4 := by
  simp only [magicWords, List.length_append, List.length_take, List.length_replicate, dumpMagic, List.length_cons, List.length_nil]
  omega

theorem zeros_words (n : Nat) : wordView (List.replicate n (0 : Byte)) = List.replicate (n / 4) 0 := by
  have h : List.replicate n (0 : Byte) = bytesLE (List.replicate (n / 4) 0) ++ List.replicate (n % 4) 0 := by
    rw [bytesLE_replicate, List.replicate_append_replicate]
    exact congrArg (List.replicate · 0) (by omega)
  rw [h, wordView_tail _ _ (by rw [List.length_replicate]; omega)]

theorem magic_splice (n : Nat) : splice (List.replicate n (0 : Byte)) 0 (byteView (dumpMagic.take (n / 4))) =
    bytesLE (magicWords n) ++ List.replicate (n % 4) 0 := by
  have hl : (byteView (dumpMagic.take (n / 4))).length = 4 * min (n / 4) 2 := by
    rw [byteView_eq, bytesLE_length, List.length_take]
    rfl
  rw [splice_front _ _ (by rw [hl, List.length_replicate]; omega), List.drop_replicate, hl, magicWords, byteView_eq,
    show bytesLE (dumpMagic.take (n / 4) ++ List.replicate (n / 4 - 2) 0) =
      bytesLE (dumpMagic.take (n / 4)) ++ bytesLE (List.replicate (n / 4 - 2) 0) by simp [bytesLE],
    bytesLE_replicate, List.append_assoc, List.replicate_append_replicate]
  exact congrArg (fun m => _ ++ List.replicate m 0) (by omega)

theorem fillContent_magicWords (n : Nat) (g : List U32 → Go (List U32)) : fillContent n g = (do
    let data ← slc (magicWords n) dumpMagic.length (magicWords n).length
    let data ← g data
    return bytesLE ((magicWords n).take dumpMagic.length ++ data) ++ List.replicate (n % 4) 0) := by
  have hb : dumpMagic.take (wordView (List.replicate n (0 : Byte))).length ++ (wordView (List.replicate n (0 : Byte))).drop dumpMagic.length =
      magicWords n := by
    rw [zeros_words, List.length_replicate, List.drop_replicate, magicWords]
    rfl
  simp only [fillContent]
  rw [hb]
  rw [magicWords_length, List.drop_replicate, show n - 4 * (n / 4) = n % 4 by omega]
  rfl

section filling
variable {d : Disk} {f n : Nat} {generator : List U32 → Prog (List U32)} {g : List U32 → Go (List U32)}

theorem sim_fill (h0 : d.data f = List.replicate n 0)
    (hgen : ∀ c b, Sim (d.put f c) (generator b) (fun s => s = g b) (fun _ w => w) (fun d' _ => d' = d.put f c))
    (hlen : ∀ b w, g b = .ok w → w.length = b.length) :
    Sim d (fill f generator) (fun s => s = fillContent n g) (fun d' _ => d'.data f) (fun d' _ => ∃ c, d' = d.put f c) := by
  refine sim_read ?_
  rw [h0, zeros_words, List.length_replicate]
  refine sim_store ?_
  rw [h0, magic_splice, fillContent_magicWords]
  refine sim_read ?_
  rw [put_data, wordView_tail _ _ (by rw [List.length_replicate]; omega)]
  by_cases h2 : dumpMagic.length ≤ (magicWords n).length
  · rw [slc_ok _ _ _ h2 (Nat.le_refl _), List.take_length]
    show Sim _ (generator ((magicWords n).drop dumpMagic.length) >>= fun data => store f (4 * dumpMagic.length) (byteView data))
      (fun s => s = (g ((magicWords n).drop dumpMagic.length) >>= fun data =>
        pure (bytesLE ((magicWords n).take dumpMagic.length ++ data) ++ List.replicate (n % 4) 0))) _ _
    obtain ⟨b, hb⟩ : ∃ b, b = (magicWords n).drop dumpMagic.length := ⟨_, rfl⟩
    rw [← hb]
    refine Sim.iff (Sim.bind (R' := fun w s => s = .ok (splice (bytesLE (magicWords n) ++ List.replicate (n % 4) 0)
      (4 * dumpMagic.length) (byteView w))) (hgen _ b) ?_) ?_
    · rintro d1 w rfl
      have hc := Sim.ret (d := (d.put f (bytesLE (magicWords n) ++ List.replicate (n % 4) 0)).put f
        (splice (bytesLE (magicWords n) ++ List.replicate (n % 4) 0) (4 * dumpMagic.length) (byteView w))) (a := ())
        (out := fun d' _ => d'.data f) (post := fun d' _ => ∃ c, d' = d.put f c) ⟨_, put_put _ _ _ _⟩
      have hs := sim_store (d := d.put f (bytesLE (magicWords n) ++ List.replicate (n % 4) 0)) (F := Prog.ret)
        (by rw [put_data]; exact hc)
      rw [put_data] at hs
      exact hs
    · intro s
      cases hg : g b with
      | error e =>
        constructor
        · rintro (⟨e', h1, rfl⟩ | ⟨x, h1, _⟩)
          · cases h1; rfl
          · cases h1
        · rintro rfl
          exact Or.inl ⟨e, rfl, rfl⟩
      | ok w =>
        have hwl := hlen b w hg
        have hsp : splice (bytesLE (magicWords n) ++ List.replicate (n % 4) 0) (4 * dumpMagic.length) (byteView w) =
            bytesLE ((magicWords n).take dumpMagic.length ++ w) ++ List.replicate (n % 4) 0 := by
          conv_lhs => rw [← List.take_append_drop dumpMagic.length (magicWords n)]
          rw [show ∀ u v : List U32, bytesLE (u ++ v) = bytesLE u ++ bytesLE v by intro u v; simp [bytesLE], ← hb, List.append_assoc,
            show 4 * dumpMagic.length = (bytesLE ((magicWords n).take dumpMagic.length)).length by
              rw [bytesLE_length, List.length_take, Nat.min_eq_left h2],
            byteView_eq, splice_mid _ _ _ _ (by rw [bytesLE_length, bytesLE_length, hwl]),
            show ∀ u v : List U32, bytesLE (u ++ v) = bytesLE u ++ bytesLE v by intro u v; simp [bytesLE], List.append_assoc]
        constructor
        · rintro (⟨e', h1, rfl⟩ | ⟨x, h1, rfl⟩)
          · cases h1
          · cases h1
            rw [hsp]
            rfl
        · rintro rfl
          exact Or.inr ⟨w, rfl, by rw [hsp]; rfl⟩
  · have he : slc (magicWords n) dumpMagic.length (magicWords n).length = .error (.panic .slice) := by
      rw [slc, if_neg (by omega)]
    rw [he]
    exact Sim.stop

end filling

/-! ## The temporary file -/

/-- no file has two names -/
structure Neat (d : Disk) : Prop where
  inj : ∀ q q' f, d.names q = some f → d.names q' = some f → q = q'
  lt : ∀ q f, d.names q = some f → f < d.fresh

theorem Neat.unbind {d : Disk} (h : Neat d) (path : String) : Neat (d.bind path none) where
  inj q q' f hq hq' := h.inj q q' f ((bind_names _ _ _ _ hq).resolve_left fun h => by cases h.2).2
    ((bind_names _ _ _ _ hq').resolve_left fun h => by cases h.2).2
  lt q f hq := h.lt q f ((bind_names _ _ _ _ hq).resolve_left fun h => by cases h.2).2

theorem view_unbind (d : Disk) (path : String) : (d.bind path none).view = d.view.remove path := by
  funext q
  simp only [Disk.view, Disk.bind, FS.remove]
  by_cases h : q = path
  · rw [if_pos h, if_pos h]; rfl
  · rw [if_neg h, if_neg h]

/-- `d1` is `d` with a file of its own under the name `temp` -/
structure Working (d d1 : Disk) (temp : String) (f : Nat) : Prop where
  name : d1.names temp = some f
  others : ∀ q, q ≠ temp → d1.names q = d.names q
  data : ∀ g, g ≠ f → d1.data g = d.data g
  apart : ∀ q g, q ≠ temp → d.names q = some g → g ≠ f
  neat : Neat d1

section working
variable {d d1 : Disk} {temp : String} {f : Nat} (h : Working d d1 temp f)
include h

theorem Working.put (c : List Byte) : Working d (d1.put f c) temp f where
  name := h.name
  others := h.others
  data g hg := (if_neg hg).trans (h.data g hg)
  apart := h.apart
  neat := ⟨h.neat.inj, h.neat.lt⟩

theorem Working.view : d1.view = d.view.write temp (d1.data f) := by
  funext q
  simp only [Disk.view, FS.write]
  by_cases hq : q = temp
  · rw [if_pos hq, hq, h.name]; rfl
  · rw [if_neg hq, h.others q hq]
    cases hn : d.names q with
    | none => rfl
    | some g => exact congrArg some (h.data g (h.apart q g hq hn))

theorem Working.removed : (d1.bind temp none).view = d.view.remove temp := by
  rw [view_unbind, h.view]
  funext q
  simp only [FS.remove, FS.write]
  by_cases hq : q = temp
  · rw [if_pos hq, if_pos hq]
  · rw [if_neg hq, if_neg hq, if_neg hq]

theorem Working.renamed (path : String) : ((d1.bind temp none).bind path (some f)).view = ((d.view.write temp (d1.data f)).remove temp).write path (d1.data f) := by
  rw [← h.view, ← view_unbind]
  funext q
  simp only [Disk.view, Disk.bind, FS.write]
  by_cases hq : q = path
  · rw [if_pos hq, if_pos hq]; rfl
  · rw [if_neg hq, if_neg hq]

theorem Working.renamed_neat (path : String) : Neat ((d1.bind temp none).bind path (some f)) := by
  have hn : ∀ q g, ((d1.bind temp none).bind path (some f)).names q = some g → (q = path ∧ g = f) ∨ (q ≠ path ∧ g ≠ f ∧ d1.names q = some g) := by
    intro q g hq
    rcases bind_names _ _ _ _ hq with ⟨h1, h2⟩ | ⟨h1, h2⟩
    · exact Or.inl ⟨h1, (Option.some.inj h2).symm⟩
    · rcases bind_names _ _ _ _ h2 with ⟨_, h4⟩ | ⟨h3, h4⟩
      · cases h4
      · refine Or.inr ⟨h1, ?_, h4⟩
        rintro rfl
        exact h3 (h.neat.inj q temp g h4 h.name)
  constructor
  · intro q q' g hq hq'
    rcases hn q g hq with ⟨rfl, rfl⟩ | ⟨h1, h2, h3⟩
    · rcases hn q' g hq' with ⟨rfl, _⟩ | ⟨_, h5, _⟩
      · rfl
      · exact absurd rfl h5
    · rcases hn q' g hq' with ⟨_, rfl⟩ | ⟨_, _, h6⟩
      · exact absurd rfl h2
      · exact h.neat.inj q q' g h3 h6
  · intro q g hq
    rcases hn q g hq with ⟨rfl, rfl⟩ | ⟨h1, h2, h3⟩
    · exact h.neat.lt temp g h.name
    · exact h.neat.lt q g h3

end working

/-! ## `memoryMapAndGenerate` -/

/-- the result of a function that may map a file, with the directory it leaves -/
def both (d : Disk) (x : Option Nat) : Option (List U32) × FS := (seen d x, d.view)

/-- what remains true of the directory: the other files, and what the result refers to -/
structure Kept (d : Disk) (path : String) (d' : Disk) (x : Option Nat) : Prop where
  neat : Neat d'
  at_path : ∀ f, x = some f → d'.names path = some f
  others : ∀ q g, d.names q = some g → q ≠ path → (∀ n, q ≠ tempPath path n) → d'.names q = some g ∧ d'.data g = d.data g

section writing
variable {d d1 : Disk} {path : String} {n f : Nat} (h : Working d d1 (tempPath path n) f) {lck : Bool}

theorem tempPath_ne (path : String) (n : Nat) : path ≠ tempPath path n := by
  intro h
  have := congrArg (fun s => s.toList.length) h
  simp [tempPath, String.toList_append] at this

include h

theorem Working.kept : Kept d path d1 none where
  neat := h.neat
  at_path f hf := by cases hf
  others q g hq _ ht := ⟨(h.others q (ht n)).trans hq, h.data g (h.apart q g (ht n) hq)⟩

theorem Working.kept_removed : Kept d path (d1.bind (tempPath path n) none) none where
  neat := h.neat.unbind _
  at_path f hf := by cases hf
  others q g hq _ ht := ⟨(if_neg (ht n)).trans ((h.others q (ht n)).trans hq), h.data g (h.apart q g (ht n) hq)⟩

theorem sim_giveUp (o : WriteEnv) : Sim d1 (giveUp f (tempPath path n))
    (fun s => ∃ b, s = .ok (none, Dag.giveUp d.view (tempPath path n) (d1.data f) { o with removeFails := b })) both (Kept d path) := by
  have hr : Sim d1 (do let _ ← remove (tempPath path n); Prog.ret (none : Option Nat))
      (fun s => ∃ b, s = .ok (none, Dag.giveUp d.view (tempPath path n) (d1.data f) { o with removeFails := b })) both (Kept d path) := by
    refine Sim.iff (sim_remove (F := fun _ => Prog.ret (none : Option Nat)) (Sim.ret h.kept_removed) (Sim.ret h.kept)) fun s => ?_
    simp only [both, seen, h.removed, h.view]
    constructor
    · rintro (rfl | rfl)
      · exact ⟨false, rfl⟩
      · exact ⟨true, rfl⟩
    · rintro ⟨b, rfl⟩
      cases b with
      | false => exact Or.inl rfl
      | true => exact Or.inr rfl
  exact (sim_close (F := fun _ => do let _ ← remove (tempPath path n); Prog.ret (none : Option Nat)) hr hr).iff fun _ => or_self_iff

theorem sim_finish : Sim d1 (finish f (tempPath path n) path lck)
    (fun s => s = .ok (none, d.view.write (tempPath path n) (d1.data f)) ∨
      ∃ o, s = (do
        let df ← Dag.memoryMap (((d.view.write (tempPath path n) (d1.data f)).remove (tempPath path n)).write path (d1.data f)) path lck o
        return (df, ((d.view.write (tempPath path n) (d1.data f)).remove (tempPath path n)).write path (d1.data f))))
    both (Kept d path) := by
  have hnone : Sim d1 (Prog.ret (none : Option Nat)) (fun s => s = .ok (none, d.view.write (tempPath path n) (d1.data f))) both (Kept d path) := by
    refine (Sim.ret (out := both) h.kept).iff fun s => ?_
    simp only [both, seen, h.view]
    rfl
  have hmap := (sim_memoryMap (d := ((d1.bind (tempPath path n) none).bind path (some f))) (path := path) (lck := lck)).through (out' := both)
    (fun x => (x, ((d1.bind (tempPath path n) none).bind path (some f)).view)) (by rintro d' a ⟨rfl, _⟩; rfl)
  have hk : ∀ d' a, (d' = ((d1.bind (tempPath path n) none).bind path (some f)) ∧
      ∀ g, a = some g → ((d1.bind (tempPath path n) none).bind path (some f)).names path = some g) → Kept d path d' a := by
    rintro d' a ⟨rfl, hp⟩
    refine ⟨h.renamed_neat path, hp, fun q g hq hqp ht => ⟨?_, h.data g (h.apart q g (ht n) hq)⟩⟩
    show (if q = path then _ else if q = tempPath path n then _ else _) = _
    rw [if_neg hqp, if_neg (ht n), h.others q (ht n), hq]
  have hmap := hmap.weaken hk
  rw [h.renamed path] at hmap
  refine Sim.iff (sim_unmap (F := fun ok => if !ok then Prog.ret none else do
      let ok ← close f
      if !ok then .ret none else publish (tempPath path n) path lck)
    (sim_close (F := fun ok => if !ok then Prog.ret none else publish (tempPath path n) path lck)
      (sim_rename (F := fun ok => if !ok then Prog.ret none else memoryMap path lck) h.name hmap hnone) hnone) hnone) fun s => ?_
  constructor
  · rintro (((⟨_, ⟨o, rfl⟩, rfl⟩ | hs) | hs) | hs)
    · refine Or.inr ⟨o, ?_⟩
      cases Dag.memoryMap (((d.view.write (tempPath path n) (d1.data f)).remove (tempPath path n)).write path (d1.data f)) path lck o <;> rfl
    all_goals exact Or.inl hs
  · rintro (hs | ⟨o, rfl⟩)
    · exact Or.inr hs
    · refine Or.inl (Or.inl (Or.inl ⟨_, ⟨o, rfl⟩, ?_⟩))
      cases Dag.memoryMap (((d.view.write (tempPath path n) (d1.data f)).remove (tempPath path n)).write path (d1.data f)) path lck o <;> rfl

end writing

/-- mmap.go:133-163 of the sequential function: what is left of it once the temporary file has been created -/
def afterCreate (fs : FS) (path : String) (size : U64) (lck : Bool) (g : List U32 → Go (List U32)) (o : WriteEnv) : Go (Option (List U32) × FS) :=
  Dag.memoryMapAndGenerate fs path size lck g { o with mkdirFails := false, createFails := false }

theorem afterCreate_eq (fs : FS) (path : String) (size : U64) (lck : Bool) (g : List U32 → Go (List U32)) (o : WriteEnv) :
    afterCreate fs path size lck g o =
      if o.truncateFails || decide ((8 + size : U64).toInt < 0) then .ok (none, Dag.giveUp fs (tempPath path o.suffix) [] o)
      else if o.mapFails || decide ((8 + size : U64).toInt = 0) then
        .ok (none, Dag.giveUp fs (tempPath path o.suffix) (List.replicate (8 + size : U64).toInt.toNat 0) o)
      else fillAndRename fs path (tempPath path o.suffix) (8 + size : U64).toInt.toNat lck g o := rfl

/-- an environment in which everything succeeds -/
def calm (n : Nat) : WriteEnv := ⟨false, n, false, false, false, false, false, false, false, ⟨false, false, false⟩⟩

section generating
variable {d d1 : Disk} {path : String} {n f : Nat} {lck : Bool} {size : U64} {generator : List U32 → Prog (List U32)}
  {g : List U32 → Go (List U32)}

theorem sim_writeTo (h : Working d d1 (tempPath path n) f) (h0 : d1.data f = [])
    (hgen : ∀ c b, Sim (d1.put f c) (generator b) (fun s => s = g b) (fun _ w => w) (fun d' _ => d' = d1.put f c))
    (hlen : ∀ b w, g b = .ok w → w.length = b.length) :
    Sim d1 (writeTo f (tempPath path n) path size lck generator)
      (fun s => ∃ o : WriteEnv, o.suffix = n ∧ afterCreate d.view path size lck g o = s) both (Kept d path) := by
  obtain ⟨m, hm⟩ : ∃ m, m = (8 + size : U64).toInt := ⟨_, rfl⟩
  simp only [afterCreate_eq, ← hm]
  have hg0 := sim_giveUp h (calm n)
  rw [h0] at hg0
  rw [writeTo, ← hm]
  by_cases hneg : m < 0
  · refine Sim.iff (sim_truncate_neg hneg hg0) fun s => ?_
    constructor
    · rintro ⟨b, rfl⟩
      refine ⟨{ calm n with removeFails := b }, rfl, ?_⟩
      rw [if_pos (by simp [hneg])]
      rfl
    · rintro ⟨o, rfl, rfl⟩
      rw [if_pos (by simp [hneg])]
      exact ⟨o.removeFails, rfl⟩
  have hput := h.put (resize (d1.data f) m.toNat)
  rw [h0, resize_nil] at hput
  have hg1 := sim_giveUp hput (calm n)
  rw [put_data] at hg1
  by_cases hz : m = 0
  · refine Sim.iff (sim_truncate (Int.not_lt.mp hneg) (by
      rw [h0, resize_nil]
      exact sim_map_empty (by rw [put_data, hz]; rfl) hg1) hg0) fun s => ?_
    constructor
    · rintro (⟨b, rfl⟩ | ⟨b, rfl⟩)
      · refine ⟨{ calm n with removeFails := b }, rfl, ?_⟩
        rw [if_neg (by simp [calm, hneg]), if_pos (by simp [hz])]
        rfl
      · refine ⟨{ calm n with removeFails := b, truncateFails := true }, rfl, ?_⟩
        rw [if_pos (by simp)]
        rfl
    · rintro ⟨o, rfl, rfl⟩
      by_cases ht : o.truncateFails = true
      · rw [if_pos (by simp [ht])]
        exact Or.inr ⟨o.removeFails, rfl⟩
      · rw [if_neg (by simp [ht, hneg]), if_pos (by simp [hz])]
        exact Or.inl ⟨o.removeFails, rfl⟩
  have hfill := sim_fill (d := d1.put f (List.replicate m.toNat 0)) (f := f) (n := m.toNat) (generator := generator) (g := g) (put_data _ _ _)
    (by intro c b; rw [put_put]; exact hgen c b) hlen
  have hrest := Sim.bind (f := fun _ => finish f (tempPath path n) path lck) (out' := both) (post' := Kept d path)
    (R' := fun c s => s = .ok (none, d.view.write (tempPath path n) c) ∨
      ∃ o, s = (do
        let df ← Dag.memoryMap (((d.view.write (tempPath path n) c).remove (tempPath path n)).write path c) path lck o
        return (df, ((d.view.write (tempPath path n) c).remove (tempPath path n)).write path c))) hfill (by
      rintro d2 _ ⟨c, rfl⟩
      rw [put_put]
      exact sim_finish (h.put c))
  refine Sim.iff (sim_truncate (Int.not_lt.mp hneg) (by
      rw [h0, resize_nil]
      exact sim_map (by
        rw [put_data]
        intro hc
        have := congrArg List.length hc
        simp only [List.length_replicate, List.length_nil] at this
        omega) hrest hg1) hg0) fun s => ?_
  constructor
  · rintro (((⟨e, h1, rfl⟩ | ⟨c, h1, rfl | ⟨o, rfl⟩⟩) | ⟨b, rfl⟩) | ⟨b, rfl⟩)
    · refine ⟨calm n, rfl, ?_⟩
      rw [if_neg (by simp [calm, hneg]), if_neg (by simp [calm, hz]), fillAndRename, ← h1]
      rfl
    · refine ⟨{ calm n with unmapFails := true }, rfl, ?_⟩
      rw [if_neg (by simp [calm, hneg]), if_neg (by simp [calm, hz]), fillAndRename, ← h1]
      rfl
    · refine ⟨{ calm n with reading := o }, rfl, ?_⟩
      rw [if_neg (by simp [calm, hneg]), if_neg (by simp [calm, hz]), fillAndRename, ← h1]
      rfl
    · refine ⟨{ calm n with removeFails := b, mapFails := true }, rfl, ?_⟩
      rw [if_neg (by simp [calm, hneg]), if_pos (by simp)]
      rfl
    · refine ⟨{ calm n with removeFails := b, truncateFails := true }, rfl, ?_⟩
      rw [if_pos (by simp)]
      rfl
  · rintro ⟨o, rfl, rfl⟩
    by_cases ht : o.truncateFails = true
    · rw [if_pos (by simp [ht])]
      exact Or.inr ⟨o.removeFails, rfl⟩
    rw [if_neg (by simp [ht, hneg])]
    by_cases hmf : o.mapFails = true
    · rw [if_pos (by simp [hmf])]
      exact Or.inl (Or.inr ⟨o.removeFails, rfl⟩)
    rw [if_neg (by simp [hmf, hz])]
    refine Or.inl (Or.inl ?_)
    rw [fillAndRename]
    cases hc : fillContent m.toNat g with
    | error e => exact Or.inl ⟨e, rfl, rfl⟩
    | ok c =>
      refine Or.inr ⟨c, rfl, ?_⟩
      rw [ok_bind]
      by_cases hu : (o.unmapFails || o.closeFails || o.renameFails) = true
      · simp only [hu, if_true]
        exact Or.inl rfl
      · simp only [hu]
        exact Or.inr ⟨o.reading, rfl⟩

theorem working_old {d : Disk} (hd : Neat d) {temp : String} (hf : d.names temp = some f) : Working d (d.put f []) temp f where
  name := hf
  others _ _ := rfl
  data g hg := if_neg hg
  apart q g hq hn := by
    rintro rfl
    exact hq (hd.inj q temp g hn hf)
  neat := ⟨hd.inj, hd.lt⟩

theorem working_new {d : Disk} (hd : Neat d) {temp : String} (hf : d.names temp = none) :
    Working d { (d.bind temp (some d.fresh)).put d.fresh [] with fresh := d.fresh + 1 } temp d.fresh where
  name := if_pos rfl
  others q hq := if_neg hq
  data g hg := if_neg hg
  apart q g hq hn := by
    rintro rfl
    exact Nat.lt_irrefl _ (hd.lt q _ hn)
  neat := by
    constructor
    · intro q q' g hq hq'
      rcases bind_names _ _ _ _ hq with ⟨rfl, h1⟩ | ⟨h1, h2⟩
      · rcases bind_names _ _ _ _ hq' with ⟨rfl, h3⟩ | ⟨h3, h4⟩
        · rfl
        · have := hd.lt q' g h4
          cases h1
          exact absurd this (Nat.lt_irrefl _)
      · rcases bind_names _ _ _ _ hq' with ⟨rfl, h3⟩ | ⟨h3, h4⟩
        · have := hd.lt q g h2
          cases h3
          exact absurd this (Nat.lt_irrefl _)
        · exact hd.inj q q' g h2 h4
    · intro q g hq
      rcases bind_names _ _ _ _ hq with ⟨rfl, h1⟩ | ⟨h1, h2⟩
      · cases h1
        exact Nat.lt_succ_self _
      · exact Nat.lt_succ_of_lt (hd.lt q g h2)

theorem sim_memoryMapAndGenerate {d : Disk} (hd : Neat d)
    (hgen : ∀ d1 b, (∀ q g, d.names q = some g → q ≠ path → (∀ n, q ≠ tempPath path n) → d1.data g = d.data g) →
      Sim d1 (generator b) (fun s => s = g b) (fun _ w => w) (fun d' _ => d' = d1))
    (hlen : ∀ b w, g b = .ok w → w.length = b.length) :
    Sim d (memoryMapAndGenerate path size lck generator)
      (fun s => ∃ o, Dag.memoryMapAndGenerate d.view path size lck g o = s) both (Kept d path) := by
  have hk : Kept d path d none := ⟨hd, fun f hf => (by cases hf), fun q g hq _ _ => ⟨hq, rfl⟩⟩
  have hnone : Sim d (Prog.ret (none : Option Nat)) (fun s => s = .ok (none, d.view)) both (Kept d path) := Sim.ret (out := both) hk
  have hcreate : ∀ n, Sim d (createTemp path size lck generator n)
      (fun s => (∃ o : WriteEnv, o.suffix = n ∧ afterCreate d.view path size lck g o = s) ∨ s = .ok (none, d.view)) both (Kept d path) := by
    intro n
    have hw : ∀ d1 f, Working d d1 (tempPath path n) f → d1.data f = [] → Sim d1 (writeTo f (tempPath path n) path size lck generator)
        (fun s => ∃ o : WriteEnv, o.suffix = n ∧ afterCreate d.view path size lck g o = s) both (Kept d path) := by
      intro d1 f hw h0
      refine sim_writeTo hw h0 (fun c b => hgen _ b ?_) hlen
      intro q x hq _ ht
      exact (if_neg (hw.apart q x (ht n) hq)).trans (hw.data x (hw.apart q x (ht n) hq))
    cases hn : d.names (tempPath path n) with
    | none => exact sim_create_new hn (hw _ _ (working_new hd hn) (if_pos rfl)) hnone
    | some f => exact sim_create_old hn (hw _ _ (working_old hd hn) (if_pos rfl)) hnone
  refine Sim.iff (sim_mkdirAll (F := fun ok => if !ok then Prog.ret none else do
    let suffix ← random
    createTemp path size lck generator suffix) (sim_random hcreate) hnone) fun s => ?_
  constructor
  · rintro (⟨n, ⟨o, rfl, rfl⟩ | rfl⟩ | rfl)
    · exact ⟨_, rfl⟩
    · exact ⟨{ calm n with createFails := true }, rfl⟩
    · exact ⟨{ calm 0 with mkdirFails := true }, rfl⟩
  · rintro ⟨o, rfl⟩
    by_cases hm : o.mkdirFails = true
    · rw [Dag.memoryMapAndGenerate, if_pos hm]
      exact Or.inr rfl
    by_cases hc : o.createFails = true
    · rw [Dag.memoryMapAndGenerate, if_neg hm, if_pos hc]
      exact Or.inl ⟨0, Or.inr rfl⟩
    · refine Or.inl ⟨o.suffix, Or.inl ⟨o, rfl, ?_⟩⟩
      rw [afterCreate]
      have : ({ o with mkdirFails := false, createFails := false } : WriteEnv) = o := by
        cases o
        simp only [Bool.not_eq_true] at hm hc
        rw [hm, hc]
      rw [this]

end generating

end Verif.Files
