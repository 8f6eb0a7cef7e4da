import Verif.Proof.FilesProg

/-! # Several processes on one directory: runs of one goroutine, for building schedules -/

set_option autoImplicit false

namespace Verif.Files

open Go Dag

theorem bind_assoc {α β γ : Type} (p : Prog α) (f : α → Prog β) (g : β → Prog γ) : (p >>= f) >>= g = p >>= fun a => f a >>= g := by
  induction p with
  | ret a => rfl
  | stop s => rfl
  | call c k ih => exact congrArg (Prog.call c) (funext fun r => ih r)

/-- some calls of a goroutine in a row -/
inductive Runs {α : Type} : Disk → Prog α → Disk → Prog α → Prop
  | refl (d : Disk) (p : Prog α) : Runs d p d p
  | call {d d' d'' : Disk} {c : Call} {k : c.Reply → Prog α} {p' : Prog α} (r : c.Reply) : Exec c d r d' → Runs d' (k r) d'' p' →
      Runs d (.call c k) d'' p'

theorem Runs.trans {α : Type} {d d' d'' : Disk} {p p' p'' : Prog α} (h : Runs d p d' p') (h' : Runs d' p' d'' p'') : Runs d p d'' p'' := by
  induction h with
  | refl d p => exact h'
  | call r he _ ih => exact .call r he (ih h')

theorem Runs.bind {α β : Type} {d d' : Disk} {p p' : Prog α} (f : α → Prog β) (h : Runs d p d' p') : Runs d (p >>= f) d' (p' >>= f) := by
  induction h with
  | refl d p => exact .refl _ _
  | call r he _ ih => exact .call r he ih

/-- a run of one goroutine is possible in a system without assumptions about the numbers drawn -/
theorem Runs.reach {P : Prims} {fuel : Nat} {Job : Config → U64 → Prop} {disk d d' : Disk} {p p' : Prog Buffers} (h : Runs d p d' p')
    {ws : List Worker} {drawn : List (Nat × Nat)} {t : Nat} {c : Config} {e : U64} (hw : ws[t]? = some ⟨c, e, some p⟩)
    (hr : Reach P fuel Job False disk ⟨d, ws, drawn⟩) :
    ∃ drawn', (∀ x ∈ drawn', x ∈ drawn ∨ x.1 = t) ∧ Reach P fuel Job False disk ⟨d', ws.set t ⟨c, e, some p'⟩, drawn'⟩ := by
  induction h generalizing ws drawn with
  | refl d p =>
    have hs : ws.set t ⟨c, e, some p⟩ = ws := by
      obtain ⟨hlt, hx⟩ := List.getElem?_eq_some_iff.mp hw
      rw [← hx]
      exact List.set_getElem_self hlt
    exact ⟨drawn, fun _ => Or.inl, by rw [hs]; exact hr⟩
  | @call d d' d'' cl k p' r he _ ih =>
    have h1 := hr.step (.call _ t c e cl k r d' hw he fun hf => hf.elim)
    obtain ⟨hlt, _⟩ := List.getElem?_eq_some_iff.mp hw
    obtain ⟨dr, hdr, h2⟩ := ih (List.getElem?_set_self hlt) h1
    rw [List.set_set] at h2
    refine ⟨dr, fun x hx => ?_, h2⟩
    rcases hdr x hx with hx | hx
    · cases cl with
      | random =>
        rcases List.mem_cons.mp hx with rfl | hx
        · exact Or.inr rfl
        · exact Or.inl hx
      | _ => exact Or.inl hx
    · exact Or.inr hx

theorem put_data (d : Disk) (f : Nat) (c : List Byte) : (d.put f c).data f = c := if_pos rfl

theorem put_put (d : Disk) (f : Nat) (c c' : List Byte) : (d.put f c).put f c' = d.put f c' := by
  simp only [Disk.put, Disk.mk.injEq, true_and, and_true]
  funext i
  by_cases hi : i = f
  · rw [if_pos hi, if_pos hi]
  · rw [if_neg hi, if_neg hi, if_neg hi]

section pieces
variable (d : Disk) (path : String) (size : U64) (lck : Bool) (generator : List U32 → Prog (List U32)) (f n : Nat)

theorem runs_memoryMap_absent : Runs d (memoryMap path lck) d (.ret none) :=
  .call none (.openFails path d) (.refl _ _)

/-- up to the creation of the temporary file, when there is none of that name -/
theorem runs_create (h : d.names (tempPath path n) = none) : Runs d (memoryMapAndGenerate path size lck generator)
    { (d.bind (tempPath path n) (some d.fresh)).put d.fresh [] with fresh := d.fresh + 1 }
    (writeTo d.fresh (tempPath path n) path size lck generator) :=
  .call true (.mkdirAll path d true) (.call n (.random d n) (.call (some d.fresh) (.createNew _ d h) (.refl _ _)))

/-- … and when there is one -/
theorem runs_create_old (h : d.names (tempPath path n) = some f) : Runs d (memoryMapAndGenerate path size lck generator)
    (d.put f []) (writeTo f (tempPath path n) path size lck generator) :=
  .call true (.mkdirAll path d true) (.call n (.random d n) (.call (some f) (.createOld _ d f h) (.refl _ _)))

/-- giving the file its size and mapping it -/
theorem runs_size (temp : String) (m : Nat) (hs : (8 + size : U64).toInt = ((8 + 4 * m : Nat) : Int)) (h0 : d.data f = []) :
    Runs d (writeTo f temp path size lck generator) (d.put f (List.replicate (8 + 4 * m) 0))
      (fill f generator >>= fun _ => finish f temp path lck) := by
  have h1 := Exec.truncate f (8 + size : U64).toInt d (by rw [hs]; omega)
  rw [h0, hs, Int.toNat_natCast, resize_nil, ← hs] at h1
  refine .call true h1 (.call true (.map f _ ?_) (.refl _ _))
  rw [put_data, show 8 + 4 * m = (7 + 4 * m) + 1 by omega, List.replicate_succ]
  simp

/-- the magic -/
theorem runs_magic (m : Nat) (h0 : d.data f = List.replicate (8 + 4 * m) 0) :
    Runs d (fill f generator) (d.put f (Spec.Disk.magic ++ List.replicate (4 * m) 0)) (fillData f generator) := by
  have hz : wordView (List.replicate (8 + 4 * m) (0 : Byte)) = List.replicate (m + 2) 0 := by
    rw [show 8 + 4 * m = 4 * (m + 2) by omega, wordView_zeros]
  have htake : dumpMagic.take (m + 2) = dumpMagic := List.take_of_length_le (by simp [dumpMagic])
  have hsp : splice (List.replicate (8 + 4 * m) (0 : Byte)) 0 Spec.Disk.magic =
      Spec.Disk.magic ++ List.replicate (4 * m) 0 := by
    rw [splice_front _ _ (by rw [List.length_replicate]; exact Nat.le_add_right 8 _), List.drop_replicate]
    rw [show 8 + 4 * m - Spec.Disk.magic.length = 4 * m from Nat.add_sub_cancel_left ..]
  refine .call (d.data f) (.read f d) ?_
  have h1 := Exec.store f 0 (byteView (dumpMagic.take (wordView (d.data f)).length)) d
  rw [h0, hz, List.length_replicate, htake, byteView_eq, magic_bytes, hsp] at h1
  show Runs d (store f 0 (byteView (dumpMagic.take (wordView (d.data f)).length)) >>= fun _ => fillData f generator) _ _
  rw [h0, hz, List.length_replicate, htake, byteView_eq, magic_bytes]
  exact .call () h1 (.refl _ _)

/-- the data -/
theorem runs_data (data : List U32) (h0 : d.data f = Spec.Disk.magic ++ List.replicate (4 * data.length) 0)
    (hg : generator (List.replicate data.length 0) = .ret data) :
    Runs d (fillData f generator) (d.put f (Spec.Disk.file data)) (.ret ()) := by
  have hv : wordView (Spec.Disk.magic ++ List.replicate (4 * data.length) (0 : Byte)) = dumpMagic ++ List.replicate data.length 0 := by
    rw [magic_words, wordView_zeros]
    rfl
  have hst : splice (Spec.Disk.magic ++ List.replicate (4 * data.length) (0 : Byte)) (4 * dumpMagic.length) (byteView data) =
      Spec.Disk.file data := by
    rw [byteView_eq, Spec.Disk.file, bytes_eq]
    exact splice_tail Spec.Disk.magic _ _ (by rw [List.length_replicate, bytesLE_length])
  refine .call (d.data f) (.read f d) ?_
  show Runs d (lift (slc (wordView (d.data f)) dumpMagic.length (wordView (d.data f)).length) >>= fun data => generator data >>= fun data =>
    store f (4 * dumpMagic.length) (byteView data)) _ _
  rw [h0, hv]
  rw [slc_ok _ _ _ (by simp) (Nat.le_refl _), List.take_length, List.drop_left]
  show Runs d (generator _ >>= _) _ _
  rw [hg]
  have h1 := Exec.store f (4 * dumpMagic.length) (byteView data) d
  rw [h0, hst] at h1
  exact .call () h1 (.refl _ _)

/-- unmapping and closing the file -/
theorem runs_close (temp : String) : Runs d (finish f temp path lck) d (publish temp path lck) :=
  .call true (.unmap f d true) (.call true (.close f d true) (.refl _ _))

/-- moving it to its final name -/
theorem runs_rename (temp : String) (h : d.names temp = some f) :
    Runs d (publish temp path lck) ((d.bind temp none).bind path (some f)) (memoryMap path lck) :=
  .call true (.rename temp path d f h) (.refl _ _)

/-- mapping a file with the right magic -/
theorem runs_memoryMap (w : List U32) (h : d.names path = some f) (hc : wordView (d.data f) = dumpMagic ++ w) (h0 : d.data f ≠ []) :
    Runs d (memoryMap path false) d (.ret (some f)) := by
  refine .call (some f) (.open path d f h) (.call true (.map f d h0) ?_)
  refine .call (d.data f) (.read f d) ?_
  show Runs d (lift (forRangeE 0 dumpMagic.length () (magicStep (wordView (d.data f)))) >>= fun r => match r with
    | .ret _ => do
      let _ ← unmap f
      let _ ← close f
      .ret none
    | .cont _ => mapped f (wordView (d.data f)) false) d _
  rw [hc, magic_ok]
  show Runs d (lift (slc _ _ _) >>= _) d _
  rw [slc_ok _ _ _ (by simp) (Nat.le_refl _)]
  exact .refl _ _

/-- finding contents that are rejected -/
theorem runs_memoryMap_bad (h : d.names path = some f) (hb : Spec.Disk.Rejected (d.data f)) :
    Runs d (memoryMap path lck) d (.ret none) := by
  refine .call (some f) (.open path d f h) ?_
  rcases hb with hb | ⟨h8, hm⟩
  · exact .call false (.mapFails f d) (.call true (.close f d true) (.refl _ _))
  refine .call true (.map f d (fun h0 => by rw [h0] at h8; exact absurd h8 (by decide))) ?_
  refine .call (d.data f) (.read f d) ?_
  show Runs d (lift (forRangeE 0 dumpMagic.length () (magicStep (wordView (d.data f)))) >>= fun r => match r with
    | .ret _ => do
      let _ ← unmap f
      let _ ← close f
      .ret none
    | .cont _ => mapped f (wordView (d.data f)) lck) d _
  rw [magic_bad _ h8 hm]
  exact .call true (.unmap f d true) (.call true (.close f d true) (.refl _ _))

end pieces

end Verif.Files
