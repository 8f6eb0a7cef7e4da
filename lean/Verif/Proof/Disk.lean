import Verif.Model.Disk
import Verif.Spec.Disk
import Verif.Proof.Generate
import Verif.Proof.Dag

/-! # Proofs about the cache files -/

set_option autoImplicit false

namespace Verif.Dag

open Go Spec.Ethash

/-! ## words of a file -/

theorem wordView_four (a rest : List Byte) (h : a.length = 4) :
    wordView (a ++ rest) = BitVec.ofNat 32 (leNat a) :: wordView rest := by
  have hl : (a ++ rest).length / 4 = rest.length / 4 + 1 := by rw [List.length_append, h]; omega
  rw [wordView, hl, List.range_succ_eq_map, List.map_cons, List.map_map]
  refine congrArg₂ List.cons ?_ ?_
  · rw [Nat.mul_zero, List.drop_zero, List.take_append_of_le_length (by omega), List.take_of_length_le (by omega)]
  · rw [wordView]
    refine List.map_congr_left ?_
    intro i _
    show BitVec.ofNat 32 (leNat (List.take 4 (List.drop (4 * (i + 1)) (a ++ rest)))) = _
    rw [List.drop_append, List.drop_of_length_le (by omega), List.nil_append, show 4 * (i + 1) - a.length = 4 * i by omega]

theorem wordView_short (b : List Byte) (h : b.length < 4) : wordView b = [] := by
  rw [← List.length_eq_zero_iff, wordView_length]; omega

theorem ofNat_leNat_inj (a b : List Byte) (ha : a.length = 4) (hb : b.length = 4)
    (h : BitVec.ofNat 32 (leNat a) = BitVec.ofNat 32 (leNat b)) : a = b := by
  rw [← leBytes_ofNat_leNat a ha, h, leBytes_ofNat_leNat b hb]

theorem magic_first : BitVec.ofNat 32 (leNat (Spec.Disk.magic.take 4)) = 0xbaddcafe := by decide

theorem magic_second : BitVec.ofNat 32 (leNat (Spec.Disk.magic.drop 4)) = 0xfee1dead := by decide

theorem magic_words (rest : List Byte) : wordView (Spec.Disk.magic ++ rest) = 0xbaddcafe :: 0xfee1dead :: wordView rest := by
  rw [← List.take_append_drop 4 Spec.Disk.magic, List.append_assoc, wordView_four _ _ rfl, wordView_four _ _ rfl, magic_first, magic_second]

/-! ## memoryMap -/

theorem magicStep_eq (buffer : List U32) (i : Nat) (m w : U32) (hm : dumpMagic[i]? = some m) (hw : buffer[i]? = some w) :
    magicStep buffer i () = if w ≠ m then .ok (.ret ()) else .ok (.cont ()) := by
  rw [magicStep, idx, hm, ok_bind, idx, hw, ok_bind]
  by_cases h : w ≠ m
  · rw [if_pos h, if_pos h]; rfl
  · rw [if_neg h, if_neg h]; rfl

theorem magicStep_err (buffer : List U32) (i : Nat) (m : U32) (hm : dumpMagic[i]? = some m) (hw : buffer[i]? = none) :
    magicStep buffer i () = .error (.panic .index) := by
  rw [magicStep, idx, hm, ok_bind, idx, hw]; rfl

theorem loopE_cont {σ β : Type} {f : Nat → σ → Go (Step σ β)} {n i : Nat} {s s' : σ} (h : f i s = .ok (.cont s')) :
    loopE (n + 1) i s f = loopE n (i + 1) s' f := by rw [loopE, h]; rfl

theorem loopE_ret {σ β : Type} {f : Nat → σ → Go (Step σ β)} {n i : Nat} {s : σ} {b : β} (h : f i s = .ok (.ret b)) :
    loopE (n + 1) i s f = .ok (.ret b) := by rw [loopE, h]; rfl

theorem loopE_err {σ β : Type} {f : Nat → σ → Go (Step σ β)} {n i : Nat} {s : σ} {e : Stop} (h : f i s = .error e) :
    loopE (n + 1) i s f = .error e := by rw [loopE, h]; rfl

theorem magicLoop_nil : forRangeE 0 dumpMagic.length () (magicStep []) = .error (.panic .index) :=
  loopE_err (n := 1) (magicStep_err [] 0 _ rfl rfl)

theorem magicLoop_one (w : U32) : forRangeE 0 dumpMagic.length () (magicStep [w]) =
    if w = 0xbaddcafe then .error (.panic .index) else .ok (.ret ()) := by
  have h0 := magicStep_eq [w] 0 0xbaddcafe w rfl rfl
  by_cases h : w = 0xbaddcafe
  · rw [if_neg (by simpa using h)] at h0
    rw [if_pos h]
    exact (loopE_cont (n := 1) h0).trans (loopE_err (n := 0) (magicStep_err [w] 1 _ rfl rfl))
  · rw [if_pos (by simpa using h)] at h0
    rw [if_neg h]
    exact loopE_ret (n := 1) h0

theorem magicLoop_two (w v : U32) (rest : List U32) : forRangeE 0 dumpMagic.length () (magicStep (w :: v :: rest)) =
    if w = 0xbaddcafe ∧ v = 0xfee1dead then .ok (.cont ()) else .ok (.ret ()) := by
  have h0 := magicStep_eq (w :: v :: rest) 0 0xbaddcafe w rfl rfl
  have h1 := magicStep_eq (w :: v :: rest) 1 0xfee1dead v rfl rfl
  by_cases h : w = 0xbaddcafe
  · rw [if_neg (by simpa using h)] at h0
    by_cases h' : v = 0xfee1dead
    · rw [if_neg (by simpa using h')] at h1
      rw [if_pos ⟨h, h'⟩]
      exact (loopE_cont (n := 1) h0).trans (loopE_cont (n := 0) h1)
    · rw [if_pos (by simpa using h')] at h1
      rw [if_neg (fun h => h' h.2)]
      exact (loopE_cont (n := 1) h0).trans (loopE_ret (n := 0) h1)
  · rw [if_pos (by simpa using h)] at h0
    rw [if_neg (fun h' => h h'.1)]
    exact loopE_ret (n := 1) h0

theorem mapped_eq (w v : U32) (rest : List U32) (lock : Bool) (o : MapEnv) (ho : (lock && o.lockFails) = false) :
    mapped (w :: v :: rest) lock o = .ok (some rest) := by
  rw [mapped, if_neg (by rw [ho]; exact Bool.false_ne_true), slc_ok _ _ _ (by simp [dumpMagic]) (Nat.le_refl _), List.take_length]
  rfl

section content
variable (content : List Byte) (lock : Bool) (o : MapEnv)

theorem memoryMapContent_fail (h : o.mapFails = true ∨ content = []) : memoryMapContent content lock o = .ok none := by
  rw [memoryMapContent, if_pos (by rcases h with h | h <;> simp [h])]

variable (hm : o.mapFails = false)
include hm

theorem memoryMapContent_unfold (hc : content ≠ []) : memoryMapContent content lock o =
    (forRangeE 0 dumpMagic.length () (magicStep (wordView content)) >>= fun r => match r with
      | .ret _ => pure none
      | .cont _ => mapped (wordView content) lock o) := by
  rw [memoryMapContent, if_neg (by simp [hm, hc])]
  rfl

/-- a file that starts with the magic -/
theorem memoryMapContent_magic (rest : List Byte) (hl : (lock && o.lockFails) = false) :
    memoryMapContent (Spec.Disk.magic ++ rest) lock o = .ok (some (wordView rest)) := by
  rw [memoryMapContent_unfold _ _ _ hm (by simp [Spec.Disk.magic]), magic_words, magicLoop_two, if_pos ⟨rfl, rfl⟩, ok_bind]
  exact mapped_eq _ _ _ _ _ hl

/-- whatever the outcomes of the system calls -/
theorem memoryMapContent_magic_lock (rest : List Byte) (hl : (lock && o.lockFails) = true) :
    memoryMapContent (Spec.Disk.magic ++ rest) lock o = .ok none := by
  rw [memoryMapContent_unfold _ _ _ hm (by simp [Spec.Disk.magic]), magic_words, magicLoop_two, if_pos ⟨rfl, rfl⟩, ok_bind]
  simp only [mapped]
  rw [if_pos hl]

/-- a file of at least eight bytes that does not start with the magic -/
theorem memoryMapContent_wrong (h8 : 8 ≤ content.length) (hw : content.take 8 ≠ Spec.Disk.magic) :
    memoryMapContent content lock o = .ok none := by
  obtain ⟨a, ha⟩ : ∃ a, a = content.take 4 := ⟨_, rfl⟩
  obtain ⟨b, hb⟩ : ∃ b, b = (content.drop 4).take 4 := ⟨_, rfl⟩
  have hc : content = a ++ (b ++ content.drop 8) := by
    rw [ha, hb, show content.drop 8 = (content.drop 4).drop 4 by rw [List.drop_drop], List.take_append_drop, List.take_append_drop]
  have hal : a.length = 4 := by rw [ha, List.length_take]; omega
  have hbl : b.length = 4 := by rw [hb, List.length_take, List.length_drop]; omega
  rw [memoryMapContent_unfold _ _ _ hm (by intro h; rw [h] at h8; simp at h8)]
  conv_lhs => rw [hc]
  rw [wordView_four _ _ hal, wordView_four _ _ hbl, magicLoop_two, if_neg, ok_bind]
  · rfl
  · rintro ⟨h1, h2⟩
    apply hw
    rw [← magic_first] at h1
    rw [← magic_second] at h2
    rw [hc, ofNat_leNat_inj _ _ hal rfl h1, ofNat_leNat_inj _ _ hbl rfl h2]
    rfl

/-- a file of one to three bytes -/
theorem memoryMapContent_tiny (h0 : content ≠ []) (h : content.length < 4) :
    memoryMapContent content lock o = .error (.panic .index) := by
  rw [memoryMapContent_unfold _ _ _ hm h0, wordView_short _ h, magicLoop_nil]; rfl

/-- a file of four to seven bytes -/
theorem memoryMapContent_half (h4 : 4 ≤ content.length) (h8 : content.length < 8) :
    memoryMapContent content lock o = if content.take 4 = Spec.Disk.magic.take 4 then .error (.panic .index) else .ok none := by
  have hc : content = content.take 4 ++ content.drop 4 := (List.take_append_drop 4 content).symm
  have hal : (content.take 4).length = 4 := by rw [List.length_take]; omega
  rw [memoryMapContent_unfold _ _ _ hm (by intro h; rw [h] at h4; simp at h4)]
  conv_lhs => rw [hc]
  rw [wordView_four _ _ hal, wordView_short (content.drop 4) (by rw [List.length_drop]; omega), magicLoop_one]
  by_cases h : content.take 4 = Spec.Disk.magic.take 4
  · rw [if_pos h, if_pos (by rw [h]; exact magic_first)]; rfl
  · rw [if_neg h, if_neg, ok_bind]
    · rfl
    · intro h'
      rw [← magic_first] at h'
      exact h (ofNat_leNat_inj _ _ hal rfl h')

end content

/-- mapping a file that holds some words gives those words or an error -/
theorem memoryMap_file (fs : FS) (path : String) (lock : Bool) (o : MapEnv) (w : List U32)
    (h : fs path = none ∨ fs path = some (Spec.Disk.file w)) :
    memoryMap fs path lock o = .ok none ∨ memoryMap fs path lock o = .ok (some w) := by
  rw [memoryMap]
  by_cases h1 : o.openFails = true
  · rw [if_pos h1]; exact Or.inl rfl
  · rw [if_neg h1]
    rcases h with h | h
    · rw [h]; exact Or.inl rfl
    · rw [h]
      simp only [Spec.Disk.file]
      by_cases hm : o.mapFails = true
      · exact Or.inl (memoryMapContent_fail _ _ _ (Or.inl hm))
      · have hm : o.mapFails = false := by simpa using hm
        cases hl : (lock && o.lockFails) with
        | true => exact Or.inl (memoryMapContent_magic_lock _ _ hm _ hl)
        | false =>
          refine Or.inr ?_
          rw [memoryMapContent_magic _ _ hm _ hl, bytes_eq, wordView_bytesLE]

/-- only an existing file can be mapped -/
theorem memoryMap_some {fs : FS} {path : String} {lock : Bool} {o : MapEnv} {w : List U32} (h : memoryMap fs path lock o = .ok (some w)) :
    fs path ≠ none := by
  intro hn
  rw [memoryMap] at h
  by_cases h1 : o.openFails = true
  · rw [if_pos h1] at h; simp at h
  · rw [if_neg h1, hn] at h; simp at h

/-! ## memoryMapAndGenerate -/

theorem wordView_zeros (m : Nat) : wordView (List.replicate (4 * m) 0) = List.replicate m 0 := by
  rw [← bytesLE_replicate, wordView_bytesLE]

theorem magic_bytes : bytesLE dumpMagic = Spec.Disk.magic := by decide

theorem fillContent_eq (m : Nat) (generator : List U32 → Go (List U32)) (data : List U32)
    (hg : generator (List.replicate m 0) = .ok data) : fillContent (8 + 4 * m) generator = .ok (Spec.Disk.file data) := by
  simp only [fillContent]
  have h1 : wordView (List.replicate (8 + 4 * m) (0 : Byte)) = List.replicate (m + 2) 0 := by
    rw [show 8 + 4 * m = 4 * (m + 2) by omega, wordView_zeros]
  have h2 : dumpMagic.take (m + 2) = dumpMagic := List.take_of_length_le (by simp [dumpMagic])
  rw [h1, List.length_replicate, h2, List.drop_replicate, show m + 2 - dumpMagic.length = m by simp [dumpMagic],
    slc_ok _ _ _ (by simp) (Nat.le_refl _), ok_bind, List.take_length, List.drop_left, hg, ok_bind, List.take_left,
    List.drop_of_length_le (by simp [dumpMagic]; omega), List.append_nil, byteView_eq]
  refine congrArg Except.ok ?_
  rw [Spec.Disk.file, ← magic_bytes, bytes_eq, bytesLE, bytesLE, bytesLE, List.flatMap_append]

theorem FS.write_same (fs : FS) (p : String) (c : List Byte) : fs.write p c p = some c := if_pos rfl

theorem FS.write_other (fs : FS) (p q : String) (c : List Byte) (h : q ≠ p) : fs.write p c q = fs q := if_neg h

theorem FS.remove_same (fs : FS) (p : String) : fs.remove p p = none := if_pos rfl

theorem FS.remove_other (fs : FS) (p q : String) (h : q ≠ p) : fs.remove p q = fs q := if_neg h

/-- no system call up to the renaming fails -/
def WriteEnv.Fine (o : WriteEnv) : Prop := o.mkdirFails = false ∧ o.createFails = false ∧ o.truncateFails = false ∧ o.mapFails = false ∧
  o.unmapFails = false ∧ o.closeFails = false ∧ o.renameFails = false

/-- what `memoryMapAndGenerate` does, whatever the outcomes of the system calls: it returns nothing or the right data, the only paths
it touches are the temporary and the final one, and the final one keeps what it had or gets the right file; it gets it if all calls
succeed -/
theorem memoryMapAndGenerate_eq (fs : FS) (path : String) (size : U64) (lock : Bool) (generator : List U32 → Go (List U32))
    (o : WriteEnv) (data : List U32) (hs : size.toNat = 4 * data.length) (hs2 : size.toNat < 2 ^ 62)
    (hg : generator (List.replicate data.length 0) = .ok data) :
    ∃ r fs', memoryMapAndGenerate fs path size lock generator o = .ok (r, fs') ∧ (r = none ∨ r = some data) ∧
      (fs' path = fs path ∨ fs' path = some (Spec.Disk.file data)) ∧
      (r = some data → fs' path = some (Spec.Disk.file data)) ∧
      (∀ q, q ≠ path → q ≠ tempPath path o.suffix → fs' q = fs q) ∧
      (o.Fine → fs' path = some (Spec.Disk.file data)) := by
  have hne : path ≠ tempPath path o.suffix := by
    intro h
    have := congrArg (fun s => s.toList.length) h
    simp [tempPath, String.toList_append] at this
  obtain ⟨temp, htemp⟩ : ∃ t, t = tempPath path o.suffix := ⟨_, rfl⟩
  have hn : (8 + size : U64).toNat = 8 + 4 * data.length := by
    rw [BitVec.toNat_add, hs]
    exact Nat.mod_eq_of_lt (show 8 + 4 * data.length < 2 ^ 64 by omega)
  have hi : (8 + size : U64).toInt = ((8 + 4 * data.length : Nat) : Int) := by
    rw [BitVec.toInt_eq_toNat_of_lt (by omega), hn]
  simp only [memoryMapAndGenerate]
  rw [← htemp] at hne ⊢
  rw [hi]
  have hremove : ∀ c : List Byte, ¬ o.Fine → ∃ r fs', (Except.ok (none, giveUp fs temp c o) : Go (Option (List U32) × FS)) = .ok (r, fs') ∧ (r = none ∨ r = some data) ∧
      (fs' path = fs path ∨ fs' path = some (Spec.Disk.file data)) ∧ (r = some data → fs' path = some (Spec.Disk.file data)) ∧
      (∀ q, q ≠ path → q ≠ temp → fs' q = fs q) ∧ (o.Fine → fs' path = some (Spec.Disk.file data)) := by
    intro c hbad
    have ho : ∀ q, q ≠ temp → giveUp fs temp c o q = fs q := by
      intro q hq
      rw [giveUp]
      by_cases hr : o.removeFails = true
      · rw [if_pos hr, FS.write_other _ _ _ _ hq]
      · rw [if_neg hr, FS.remove_other _ _ _ hq]
    exact ⟨_, _, rfl, Or.inl rfl, Or.inl (ho _ hne), fun h => by simp at h, fun q _ hq => ho _ hq, fun h => absurd h hbad⟩
  by_cases h1 : o.mkdirFails = true
  · rw [if_pos h1]
    exact ⟨_, _, rfl, Or.inl rfl, Or.inl rfl, fun h => by simp at h, fun _ _ _ => rfl, fun h => by simp [WriteEnv.Fine, h1] at h⟩
  rw [if_neg h1]
  by_cases h2 : o.createFails = true
  · rw [if_pos h2]
    exact ⟨_, _, rfl, Or.inl rfl, Or.inl rfl, fun h => by simp at h, fun _ _ _ => rfl, fun h => by simp [WriteEnv.Fine, h2] at h⟩
  rw [if_neg h2]
  by_cases h3 : (o.truncateFails || decide (((8 + 4 * data.length : Nat) : Int) < 0)) = true
  · rw [if_pos h3]
    refine hremove _ fun h => ?_
    rw [h.2.2.1, Bool.false_or, decide_eq_true_eq] at h3
    omega
  rw [if_neg h3]
  by_cases h4 : (o.mapFails || decide (((8 + 4 * data.length : Nat) : Int) = 0)) = true
  · rw [if_pos h4]
    refine hremove _ fun h => ?_
    rw [h.2.2.2.1, Bool.false_or, decide_eq_true_eq] at h4
    omega
  rw [if_neg h4, Int.toNat_natCast]
  simp only [fillAndRename]
  rw [fillContent_eq _ _ _ hg, ok_bind]
  by_cases h5 : (o.unmapFails || o.closeFails || o.renameFails) = true
  · rw [if_pos h5]
    exact ⟨_, _, rfl, Or.inl rfl, Or.inl (FS.write_other _ _ _ _ hne), fun h => by simp at h, fun q _ hq => FS.write_other _ _ _ _ hq,
      fun h => by rw [h.2.2.2.2.1, h.2.2.2.2.2.1, h.2.2.2.2.2.2] at h5; simp at h5⟩
  rw [if_neg h5]
  obtain ⟨fs', hfs'⟩ : ∃ f, f = (((fs.write temp (Spec.Disk.file data)).remove temp).write path (Spec.Disk.file data)) := ⟨_, rfl⟩
  rw [← hfs']
  have hpath : fs' path = some (Spec.Disk.file data) := by rw [hfs']; exact FS.write_same _ _ _
  have hother : ∀ q, q ≠ path → q ≠ temp → fs' q = fs q := by
    intro q hq hq2
    rw [hfs', FS.write_other _ _ _ _ hq, FS.remove_other _ _ _ hq2, FS.write_other _ _ _ _ hq2]
  rcases memoryMap_file fs' path lock o.reading data (Or.inr hpath) with h | h
  · rw [h]
    exact ⟨_, _, rfl, Or.inl rfl, Or.inr hpath, fun _ => hpath, hother, fun _ => hpath⟩
  · rw [h]
    exact ⟨_, _, rfl, Or.inr rfl, Or.inr hpath, fun _ => hpath, hother, fun _ => hpath⟩

/-! ## cleanup -/

/-- the eight bytes of the seed that name the files of an epoch -/
def keyOf (P : Prims) (d : Config) (ep : U64) : List Byte :=
  (Spec.Dag.seed P.keccak256 ((ep * d.epochLength + 1) / d.seedEpochLength).toInt.toNat).take 8

theorem keyOf_length (P : Prims) (d : Config) (ep : U64) : (keyOf P d ep).length = 8 := by
  rw [keyOf, List.length_take, seed_length]; rfl

theorem removeFile_eq (fails : String → Bool) (fs : FS) (path q : String) :
    removeFile fails fs path q = if q = path ∧ fails q = false then none else fs q := by
  rw [removeFile]
  by_cases h : q = path
  · subst h
    cases hf : fails q with
    | true => rw [if_pos rfl, if_neg (by simp)]
    | false => rw [if_neg (by simp), if_pos ⟨rfl, rfl⟩, FS.remove_same]
  · have hr : (if q = path ∧ fails q = false then none else fs q) = fs q := if_neg (fun h' => h h'.1)
    rw [hr]
    by_cases hf : fails path = true
    · rw [if_pos hf]
    · rw [if_neg hf, FS.remove_other _ _ _ h]

section cleanup
variable (P : Prims) (d : Config) (hsel : d.seedEpochLength ≠ 0) (fails : String → Bool) (start : Int)

/-- the files of an epoch -/
def isFileOf (ep : U64) (q : String) : Prop := q = cacheStorageLocation d (keyOf P d ep) ∨ q = l1StorageLocation d (keyOf P d ep)

include hsel

theorem cleanupStep_eq (i : Nat) (fs : FS) : ∃ fs', cleanupStep P d fails start i fs = .ok fs' ∧
    (∀ q, isFileOf P d (BitVec.ofInt 64 (start - i)) q → fails q = false → fs' q = none) ∧
    (∀ q, fs' q = fs q ∨ (fs' q = none ∧ isFileOf P d (BitVec.ofInt 64 (start - i)) q ∧ fails q = false)) := by
  simp only [cleanupStep]
  rw [seedHash_eq P d hsel, ok_bind, slc_ok _ _ _ (by omega) (by rw [seed_length]; omega), ok_bind]
  refine ⟨_, rfl, ?_, ?_⟩
  · intro q hq hf
    simp only [removeFile_eq]
    rcases hq with hq | hq
    · by_cases h : q = l1StorageLocation d (keyOf P d (BitVec.ofInt 64 (start - i)))
      · rw [if_pos ⟨h, hf⟩]
      · exact (if_neg (fun h' => h h'.1)).trans (if_pos ⟨hq, hf⟩)
    · exact if_pos ⟨hq, hf⟩
  · intro q
    simp only [removeFile_eq]
    by_cases h : q = l1StorageLocation d (keyOf P d (BitVec.ofInt 64 (start - i))) ∧ fails q = false
    · exact Or.inr ⟨if_pos h, Or.inr h.1, h.2⟩
    · by_cases h' : q = cacheStorageLocation d (keyOf P d (BitVec.ofInt 64 (start - i))) ∧ fails q = false
      · exact Or.inr ⟨(if_neg h).trans (if_pos h'), Or.inl h'.1, h'.2⟩
      · exact Or.inl ((if_neg h).trans (if_neg h'))

theorem cleanup_loop (n : Nat) (fs : FS) : ∃ fs', forRange 0 n fs (cleanupStep P d fails start) = .ok fs' ∧
    (∀ i, i < n → ∀ q, isFileOf P d (BitVec.ofInt 64 (start - i)) q → fails q = false → fs' q = none) ∧
    (∀ q, fs' q = fs q ∨ (fs' q = none ∧ ∃ i, i < n ∧ isFileOf P d (BitVec.ofInt 64 (start - i)) q ∧ fails q = false)) := by
  refine forRange_inv (f := cleanupStep P d fails start) (fun j f =>
    (∀ i, i < j → ∀ q, isFileOf P d (BitVec.ofInt 64 (start - i)) q → fails q = false → f q = none) ∧
    (∀ q, f q = fs q ∨ (f q = none ∧ ∃ i, i < j ∧ isFileOf P d (BitVec.ofInt 64 (start - i)) q ∧ fails q = false)))
    0 n fs (Nat.zero_le n) ⟨fun i hi => absurd hi (by omega), fun q => Or.inl rfl⟩ ?_
  intro j f _ _ ⟨h1, h2⟩
  obtain ⟨f', e, h3, h4⟩ := cleanupStep_eq P d hsel fails start j f
  refine ⟨f', e, ?_, ?_⟩
  · intro i hi q hq hf
    by_cases hij : i = j
    · subst hij; exact h3 q hq hf
    · rcases h4 q with h | h
      · rw [h]; exact h1 i (by omega) q hq hf
      · exact h.1
  · intro q
    rcases h4 q with h | h
    · rcases h2 q with h' | ⟨h', i, hi, h''⟩
      · exact Or.inl (h.trans h')
      · exact Or.inr ⟨h.trans h', i, by omega, h''⟩
    · exact Or.inr ⟨h.1, j, by omega, h.2⟩

end cleanup

/-- the deletions of the cleanup after epoch `e`: the files of the epochs up to `e - CachesCount` -/
theorem cleanup_eq (P : Prims) (d : Config) (hsel : d.seedEpochLength ≠ 0) (e : U64) (he : e.toNat < 2 ^ 63)
    (hcnt : - 2 ^ 62 ≤ d.cachesCount) (hcnt2 : d.cachesCount < 2 ^ 63) (hse : (e.toNat : Int) - d.cachesCount < 2 ^ 63)
    (fails : String → Bool) (fs : FS) :
    ∃ fs', cleanup P d e fails fs = .ok fs' ∧
      (∀ k : Nat, (k : Int) ≤ e.toNat - d.cachesCount → ∀ q, isFileOf P d (BitVec.ofNat 64 k) q → fails q = false → fs' q = none) ∧
      (∀ q, fs' q = fs q ∨
        (fs' q = none ∧ ∃ k : Nat, (k : Int) ≤ e.toNat - d.cachesCount ∧ isFileOf P d (BitVec.ofNat 64 k) q ∧ fails q = false)) := by
  obtain ⟨start, hs⟩ : ∃ s : Int, s = e.toNat - d.cachesCount := ⟨_, rfl⟩
  have h : (BitVec.ofInt 64 (e.toInt - d.cachesCount)).toInt = start := by
    have h1 : e.toInt = e.toNat := BitVec.toInt_eq_toNat_of_lt (by omega)
    rw [h1, ← hs, BitVec.toInt_ofInt]
    exact Int.bmod_eq_of_le (by omega) (by omega)
  obtain ⟨fs', e', h1, h2⟩ := cleanup_loop P d hsel fails start (start + 1).toNat fs
  have key : ∀ k : Nat, (k : Int) ≤ start → ∃ i : Nat, i < (start + 1).toNat ∧ BitVec.ofInt 64 (start - i) = BitVec.ofNat 64 k := by
    intro k hk
    refine ⟨(start - k).toNat, by omega, ?_⟩
    rw [show start - ((start - k).toNat : Int) = (k : Int) by omega, BitVec.ofInt_natCast]
  have key' : ∀ i : Nat, i < (start + 1).toNat → ∃ k : Nat, (k : Int) ≤ start ∧ BitVec.ofInt 64 (start - i) = BitVec.ofNat 64 k := by
    intro i hi
    refine ⟨(start - i).toNat, by omega, ?_⟩
    conv_lhs => rw [show start - (i : Int) = ((start - i).toNat : Int) by omega]
    rw [BitVec.ofInt_natCast]
  refine ⟨fs', ?_, ?_, ?_⟩
  · simp only [cleanup]; rw [h]; exact e'
  · intro k hk q hq hf
    obtain ⟨i, hi, hik⟩ := key k (by omega)
    exact h1 i hi q (by rw [hik]; exact hq) hf
  · intro q
    rcases h2 q with h | ⟨h, i, hi, h3, h4⟩
    · exact Or.inl h
    · obtain ⟨k, hk, hik⟩ := key' i hi
      exact Or.inr ⟨h, k, by omega, by rw [← hik]; exact h3, h4⟩

/-! ## paths -/

/-- the common form of the two paths -/
theorem cachePath_toList (d : Config) (k : List Byte) : (cacheStorageLocation d k).toList =
    d.storageDir.toList ++ '/' :: 'c' :: ("ache-".toList ++ (d.name.toList ++ ("-R".toList ++ ((toString d.revision).toList ++
      ("-".toList ++ (hexString k).toList))))) := by
  simp [cacheStorageLocation, String.toList_append]

theorem l1Path_toList (d : Config) (k : List Byte) : (l1StorageLocation d k).toList =
    d.storageDir.toList ++ '/' :: 'l' :: ("1-".toList ++ (d.name.toList ++ ("-R".toList ++ ((toString d.revision).toList ++
      ("-".toList ++ (hexString k).toList))))) := by
  simp [l1StorageLocation, String.toList_append]

theorem tempPath_toList (p : String) (n : Nat) : (tempPath p n).toList = p.toList ++ '.' :: (toString n).toList := by
  simp [tempPath, String.toList_append]

theorem hexString_length (k : List Byte) : (hexString k).toList.length = 2 * k.length := by
  rw [hexString, String.toList_ofList]
  exact flatMap_length_const _ 2 (fun _ => rfl) k

theorem hexDigit_inj : ∀ a < 16, ∀ b < 16, hexDigit a = hexDigit b → a = b := by decide

theorem hexString_inj (k k' : List Byte) (h : hexString k = hexString k') : k = k' := by
  rw [hexString, hexString, String.ofList_inj] at h
  induction k generalizing k' with
  | nil =>
    cases k' with
    | nil => rfl
    | cons b k' => simp at h
  | cons a k ih =>
    cases k' with
    | nil => simp at h
    | cons b k' =>
      simp only [List.flatMap_cons, List.cons_append, List.nil_append, List.cons.injEq] at h
      obtain ⟨h1, h2, h3⟩ := h
      have ha := a.isLt
      have hb := b.isLt
      have e1 := hexDigit_inj _ (by omega) _ (by omega) h1
      have e2 := hexDigit_inj _ (by omega) _ (by omega) h2
      rw [ih k' h3, BitVec.eq_of_toNat_eq (show a.toNat = b.toNat by omega)]

theorem cachePath_inj (d : Config) (k k' : List Byte) (h : cacheStorageLocation d k = cacheStorageLocation d k') : k = k' := by
  have := congrArg String.toList h
  rw [cachePath_toList, cachePath_toList] at this
  simp only [List.append_cancel_left_eq, List.cons.injEq, true_and] at this
  exact hexString_inj _ _ (String.toList_inj.mp this)

theorem l1Path_inj (d : Config) (k k' : List Byte) (h : l1StorageLocation d k = l1StorageLocation d k') : k = k' := by
  have := congrArg String.toList h
  rw [l1Path_toList, l1Path_toList] at this
  simp only [List.append_cancel_left_eq, List.cons.injEq, true_and] at this
  exact hexString_inj _ _ (String.toList_inj.mp this)

theorem cachePath_ne_l1Path (d d' : Config) (hd : d.storageDir = d'.storageDir) (k k' : List Byte) :
    cacheStorageLocation d k ≠ l1StorageLocation d' k' := by
  intro h
  have := congrArg String.toList h
  rw [cachePath_toList, l1Path_toList, hd] at this
  simp at this

theorem tempCache_ne_l1Path (d d' : Config) (hd : d.storageDir = d'.storageDir) (k k' : List Byte) (n : Nat) :
    tempPath (cacheStorageLocation d k) n ≠ l1StorageLocation d' k' := by
  intro h
  have := congrArg String.toList h
  rw [tempPath_toList, cachePath_toList, l1Path_toList, hd] at this
  simp at this

theorem tempL1_ne_cachePath (d d' : Config) (hd : d.storageDir = d'.storageDir) (k k' : List Byte) (n : Nat) :
    tempPath (l1StorageLocation d k) n ≠ cacheStorageLocation d' k' := by
  intro h
  have := congrArg String.toList h
  rw [tempPath_toList, cachePath_toList, l1Path_toList, hd] at this
  simp at this

theorem tempCache_ne_cachePath (d : Config) (k k' : List Byte) (hk : k.length = k'.length) (n : Nat) :
    tempPath (cacheStorageLocation d k) n ≠ cacheStorageLocation d k' := by
  intro h
  have := congrArg (fun s => s.toList.length) h
  have h1 := hexString_length k
  have h2 := hexString_length k'
  simp only [tempPath_toList, cachePath_toList, List.length_append, List.length_cons, h1, h2] at this
  omega

theorem tempL1_ne_l1Path (d : Config) (k k' : List Byte) (hk : k.length = k'.length) (n : Nat) :
    tempPath (l1StorageLocation d k) n ≠ l1StorageLocation d k' := by
  intro h
  have := congrArg (fun s => s.toList.length) h
  have h1 := hexString_length k
  have h2 := hexString_length k'
  simp only [tempPath_toList, l1Path_toList, List.length_append, List.length_cons, h1, h2] at this
  omega

/-! ## generate -/

section generate
variable (P : Prims) (d : Config) (e size : U64) (sd : List Byte) (n : Nat)

/-- the published cache of this size and seed -/
def pubCache : List U32 := Spec.Disk.cacheWords P.keccak512 size.toNat d.cacheRounds.toNat sd

/-- the published L1 cache of this size and seed -/
def pubL1 : List U32 :=
  if d.l1Enabled then Spec.Disk.l1Words P.keccak512 d.datasetParents.toNat d.l1CacheSize.toNat (pubCache P d size sd) else []

/-- the L1 parameters agree with each other (or L1 is off) -/
def L1Ok : Prop := d.l1Enabled = true → d.l1CacheSize.toNat = 4 * d.l1CacheNumItems.toNat ∧ d.l1CacheNumItems.toNat % 16 = 0 ∧
  d.l1CacheSize.toNat < 2 ^ 62

variable (hn : 1 ≤ n) (hn2 : n < 2 ^ 26) (hsize : size.toNat = 64 * n)
include hn hn2 hsize

theorem pubCache_gen (dest : List U32) (hd : dest.length = 16 * n) :
    generateCache P d.cacheRounds dest sd = .ok (pubCache P d size sd) := by
  rw [(generateCache_eq P sd d.cacheRounds n hn hn2 dest hd).1, pubCache, Spec.Disk.cacheWords, hsize, show 64 * n / 64 = n by omega]

theorem pubCache_length : (pubCache P d size sd).length = 16 * n := by
  rw [pubCache, Spec.Disk.cacheWords, hsize, show 64 * n / 64 = n by omega]
  exact (generateCache_eq P sd d.cacheRounds n hn hn2 (List.replicate (16 * n) 0) (List.length_replicate ..)).2

omit hn hn2 in
theorem freshCache_length : (freshCache size).length = 16 * n := by
  rw [freshCache, List.length_replicate, BitVec.toNat_udiv, hsize]
  show 64 * n / 4 = _
  omega

theorem l1Words_gen (dest : List U32) (hL : L1Ok d) (hE : d.l1Enabled = true) (hd : dest.length = d.l1CacheNumItems.toNat) :
    generateL1Cache P d.datasetParents dest (pubCache P d size sd) = .ok (pubL1 P d size sd) ∧
    (pubL1 P d size sd).length = d.l1CacheNumItems.toNat := by
  obtain ⟨h1, h2, h3⟩ := hL hE
  obtain ⟨m, hm⟩ : ∃ m, d.l1CacheNumItems.toNat = 16 * m := ⟨d.l1CacheNumItems.toNat / 16, by omega⟩
  have hl := pubCache_length P d size sd n hn hn2 hsize
  have he : pubL1 P d size sd = (List.range m).flatMap fun j =>
      words (itemOf P.keccak512 (pubCache P d size sd) d.datasetParents.toNat (BitVec.ofNat 32 j)) := by
    rw [pubL1, if_pos hE, Spec.Disk.l1Words, h1, hm, show 4 * (16 * m) / 64 = m by omega]
  constructor
  · rw [generateL1Cache_eq P d.datasetParents _ (by omega) (by omega) dest m (by omega), he]
  · rw [he, hm]
    have := flatMap_length_const (fun j => words (itemOf P.keccak512 (pubCache P d size sd) d.datasetParents.toNat (BitVec.ofNat 32 j))) 16
      (fun j => by rw [words_eq, wordView_length, itemOf_length]) (List.range m)
    rw [this, List.length_range]

theorem generateInMemory_eq (hL : L1Ok d) : generateInMemory P d size sd = .ok ⟨pubCache P d size sd, pubL1 P d size sd⟩ := by
  rw [generateInMemory, pubCache_gen P d size sd n hn hn2 hsize _ (freshCache_length size n hsize), ok_bind]
  cases hE : d.l1Enabled with
  | true =>
    rw [if_pos rfl, memoryL1, (l1Words_gen P d size sd n hn hn2 hsize _ hL hE (List.length_replicate ..)).1]
    rfl
  | false =>
    rw [if_neg (by simp), pubL1, hE]
    rfl

/-- the effects on a file system that are allowed to write the file of some data -/
def Wrote (path : String) (o : WriteEnv) (data : List U32) (fs fs' : FS) : Prop :=
  (fs' path = fs path ∨ fs' path = some (Spec.Disk.file data)) ∧ (∀ q, q ≠ path → q ≠ tempPath path o.suffix → fs' q = fs q) ∧
  (o.Fine → fs' path = some (Spec.Disk.file data))

theorem provideCache_eq (path : String) (fs : FS) (o : WriteEnv) : ∃ fs', provideCache P d size sd path fs o = .ok (pubCache P d size sd, fs') ∧
    Wrote path o (pubCache P d size sd) fs fs' := by
  have hl := pubCache_length P d size sd n hn hn2 hsize
  obtain ⟨r, fs', he, hr, h1, _, h3⟩ := memoryMapAndGenerate_eq fs path size d.cachesLockMmap
    (fun buffer => generateCache P d.cacheRounds buffer sd) o (pubCache P d size sd) (by omega) (by omega)
    (pubCache_gen P d size sd n hn hn2 hsize _ (by rw [List.length_replicate, hl]))
  refine ⟨fs', ?_, h1, h3⟩
  rw [provideCache, he, ok_bind]
  rcases hr with rfl | rfl
  · simp only
    rw [pubCache_gen P d size sd n hn hn2 hsize _ (freshCache_length size n hsize)]
    rfl
  · rfl

theorem provideL1_eq (hL : L1Ok d) (hE : d.l1Enabled = true) (path : String) (fs : FS) (o : WriteEnv) :
    ∃ fs', provideL1 P d (pubCache P d size sd) path fs o = .ok (pubL1 P d size sd, fs') ∧
    Wrote path o (pubL1 P d size sd) fs fs' := by
  have hg := fun dest hd => l1Words_gen P d size sd n hn hn2 hsize dest hL hE hd
  have hl := (hg (List.replicate d.l1CacheNumItems.toNat 0) (List.length_replicate ..)).2
  obtain ⟨h1, h2, h3⟩ := hL hE
  obtain ⟨r, fs', he, hr, h1, _, h3⟩ := memoryMapAndGenerate_eq fs path d.l1CacheSize d.cachesLockMmap
    (fun buffer => generateL1Cache P d.datasetParents buffer (pubCache P d size sd)) o (pubL1 P d size sd) (by omega) (by omega)
    (hg _ (by rw [List.length_replicate, hl])).1
  refine ⟨fs', ?_, h1, h3⟩
  rw [provideL1, he, ok_bind]
  rcases hr with rfl | rfl
  · simp only
    rw [memoryL1, (hg _ (List.length_replicate ..)).1]
    rfl
  · rfl

omit hn hn2 hsize in
/-- the state of the two files of an epoch: each is absent or right -/
def FilesOk (fs : FS) : Prop :=
  (fs (cacheStorageLocation d (sd.take 8)) = none ∨
    fs (cacheStorageLocation d (sd.take 8)) = some (Spec.Disk.file (pubCache P d size sd))) ∧
  (d.l1Enabled = true → fs (l1StorageLocation d (sd.take 8)) = none ∨
    fs (l1StorageLocation d (sd.take 8)) = some (Spec.Disk.file (pubL1 P d size sd)))

omit hn hn2 hsize in
theorem tryL1_eq (fs : FS) (o : MapEnv) (hF : FilesOk P d size sd fs) :
    tryL1 d fs (l1StorageLocation d (sd.take 8)) o = .ok (some (pubL1 P d size sd)) ∨
    (d.l1Enabled = true ∧ tryL1 d fs (l1StorageLocation d (sd.take 8)) o = .ok none) := by
  rw [tryL1]
  cases hE : d.l1Enabled with
  | true =>
    rw [if_pos rfl]
    rcases memoryMap_file fs _ d.cachesLockMmap o (pubL1 P d size sd) (hF.2 hE) with h | h
    · exact Or.inr ⟨rfl, h⟩
    · exact Or.inl h
  | false =>
    refine Or.inl ?_
    rw [if_neg (by simp), pubL1, if_neg (by simp [hE])]

omit hn hn2 hsize in
/-- what a path may hold after `generate`, given what it held before -/
def PathOk (fs fs' : FS) (q : String) : Prop :=
  fs' q = fs q ∨ (q = cacheStorageLocation d (sd.take 8) ∧ fs' q = some (Spec.Disk.file (pubCache P d size sd))) ∨
  (d.l1Enabled = true ∧ q = l1StorageLocation d (sd.take 8) ∧ fs' q = some (Spec.Disk.file (pubL1 P d size sd)))

/-- the two generations without the cleanup -/
theorem ensure_eq (hL : L1Ok d) (fs : FS) (o : GenEnv) (c l : Option (List U32))
    (hc : c = none ∨ c = some (pubCache P d size sd))
    (hl : l = some (pubL1 P d size sd) ∨ (d.l1Enabled = true ∧ l = none)) :
    ∃ fs1 fs2, ensureCache P d size sd (cacheStorageLocation d (sd.take 8)) c fs o.cacheWrite = .ok (pubCache P d size sd, fs1) ∧
      ensureL1 P d (pubCache P d size sd) (l1StorageLocation d (sd.take 8)) l fs1 o.l1Write = .ok (pubL1 P d size sd, fs2) ∧
      (∀ q, q ≠ tempPath (cacheStorageLocation d (sd.take 8)) o.cacheWrite.suffix →
        q ≠ tempPath (l1StorageLocation d (sd.take 8)) o.l1Write.suffix → PathOk P d size sd fs fs2 q) ∧
      ((c ≠ none → fs (cacheStorageLocation d (sd.take 8)) = some (Spec.Disk.file (pubCache P d size sd))) → o.cacheWrite.Fine →
        fs2 (cacheStorageLocation d (sd.take 8)) = some (Spec.Disk.file (pubCache P d size sd))) ∧
      ((l ≠ none → fs (l1StorageLocation d (sd.take 8)) = some (Spec.Disk.file (pubL1 P d size sd))) → o.l1Write.Fine →
        fs2 (l1StorageLocation d (sd.take 8)) = some (Spec.Disk.file (pubL1 P d size sd))) := by
  obtain ⟨cp, hcp⟩ : ∃ p, p = cacheStorageLocation d (sd.take 8) := ⟨_, rfl⟩
  obtain ⟨lp, hlp⟩ : ∃ p, p = l1StorageLocation d (sd.take 8) := ⟨_, rfl⟩
  have hne : cp ≠ lp := by rw [hcp, hlp]; exact cachePath_ne_l1Path d d rfl _ _
  have h1 : ∃ fs1, ensureCache P d size sd cp c fs o.cacheWrite = .ok (pubCache P d size sd, fs1) ∧
      ((fs1 cp = fs cp ∨ fs1 cp = some (Spec.Disk.file (pubCache P d size sd))) ∧
        ∀ q, q ≠ cp → q ≠ tempPath cp o.cacheWrite.suffix → fs1 q = fs q) ∧
      ((c ≠ none → fs cp = some (Spec.Disk.file (pubCache P d size sd))) → o.cacheWrite.Fine →
        fs1 cp = some (Spec.Disk.file (pubCache P d size sd))) := by
    rcases hc with rfl | rfl
    · obtain ⟨fs1, e1, w, u, g⟩ := provideCache_eq P d size sd n hn hn2 hsize cp fs o.cacheWrite
      exact ⟨fs1, e1, ⟨w, u⟩, fun _ => g⟩
    · exact ⟨fs, rfl, ⟨Or.inl rfl, fun _ _ _ => rfl⟩, fun h _ => h (by simp)⟩
  obtain ⟨fs1, e1, ⟨w1, u1⟩, g1⟩ := h1
  have h2 : ∃ fs2, ensureL1 P d (pubCache P d size sd) lp l fs1 o.l1Write = .ok (pubL1 P d size sd, fs2) ∧
      ((fs2 lp = fs1 lp ∨ fs2 lp = some (Spec.Disk.file (pubL1 P d size sd))) ∧
        ∀ q, q ≠ lp → q ≠ tempPath lp o.l1Write.suffix → fs2 q = fs1 q) ∧ (fs2 = fs1 ∨ d.l1Enabled = true) ∧
      ((l ≠ none → fs1 lp = some (Spec.Disk.file (pubL1 P d size sd))) → o.l1Write.Fine →
        fs2 lp = some (Spec.Disk.file (pubL1 P d size sd))) := by
    rcases hl with rfl | ⟨hE, rfl⟩
    · exact ⟨fs1, rfl, ⟨Or.inl rfl, fun _ _ _ => rfl⟩, Or.inl rfl, fun h _ => h (by simp)⟩
    · obtain ⟨fs2, e2, w, u, g⟩ := provideL1_eq P d size sd n hn hn2 hsize hL hE lp fs1 o.l1Write
      exact ⟨fs2, e2, ⟨w, u⟩, Or.inr hE, fun _ => g⟩
  obtain ⟨fs2, e2, ⟨w2, u2⟩, hE, g2⟩ := h2
  have hct : cp ≠ tempPath lp o.l1Write.suffix := by rw [hcp, hlp]; exact (tempL1_ne_cachePath d d rfl _ _ _).symm
  have hlt : lp ≠ tempPath cp o.cacheWrite.suffix := by rw [hcp, hlp]; exact (tempCache_ne_l1Path d d rfl _ _ _).symm
  rw [← hcp, ← hlp]
  refine ⟨fs1, fs2, e1, e2, ?_, fun h1 h2 => by rw [u2 cp hne hct]; exact g1 h1 h2,
    fun h1 h2 => g2 (fun h => by rw [u1 lp hne.symm hlt]; exact h1 h) h2⟩
  intro q hq1 hq2
  rw [PathOk, ← hcp, ← hlp]
  by_cases hqc : q = cp
  · subst hqc
    rw [u2 q hne hq2]
    rcases w1 with h | h
    · exact Or.inl h
    · exact Or.inr (Or.inl ⟨rfl, h⟩)
  · have e1 : fs1 q = fs q := u1 q hqc hq1
    by_cases hql : q = lp
    · subst hql
      rcases hE with rfl | hE
      · exact Or.inl e1
      · rcases w2 with h | h
        · exact Or.inl (h.trans e1)
        · exact Or.inr (Or.inr ⟨hE, rfl, h⟩)
    · exact Or.inl ((u2 q hql hq2).trans e1)

omit hn hn2 hsize in
/-- the files of the epoch are there, if the system calls of their writing succeed and the cleanup does not take them -/
def Stored (o : GenEnv) (fs' : FS) : Prop :=
  (o.cacheWrite.Fine → fs' (cacheStorageLocation d (sd.take 8)) = some (Spec.Disk.file (pubCache P d size sd)) ∨
    ∃ k : Nat, (k : Int) ≤ e.toNat - d.cachesCount ∧ isFileOf P d (BitVec.ofNat 64 k) (cacheStorageLocation d (sd.take 8))) ∧
  (d.l1Enabled = true → o.l1Write.Fine → fs' (l1StorageLocation d (sd.take 8)) = some (Spec.Disk.file (pubL1 P d size sd)) ∨
    ∃ k : Nat, (k : Int) ≤ e.toNat - d.cachesCount ∧ isFileOf P d (BitVec.ofNat 64 k) (l1StorageLocation d (sd.take 8)))

/-- what `generate` returns and what it does to the files, from any state in which the epoch's own two files are absent or right and
for all outcomes of the system calls -/
theorem generate_eq (fuel : Nat) (hsz : cacheSize fuel d e = .ok size) (hsel : d.seedEpochLength ≠ 0)
    (hsd : seedHash P d (e * d.epochLength + 1) = .ok sd) (hL : L1Ok d) (he : e.toNat < 2 ^ 63)
    (hcnt : - 2 ^ 62 ≤ d.cachesCount) (hcnt2 : d.cachesCount < 2 ^ 63) (hse : (e.toNat : Int) - d.cachesCount < 2 ^ 63)
    (fs : FS) (o : GenEnv) (hF : d.storageDir ≠ "" → FilesOk P d size sd fs) :
    ∃ fs', generate P fuel d e fs o = .ok (⟨pubCache P d size sd, pubL1 P d size sd⟩, fs') ∧
      (d.storageDir = "" → fs' = fs) ∧
      ((fs' = fs ∧ (d.storageDir = "" ∨ (fs (cacheStorageLocation d (sd.take 8)) ≠ none ∧
          (d.l1Enabled = true → fs (l1StorageLocation d (sd.take 8)) ≠ none)))) ∨
        ∀ k : Nat, (k : Int) ≤ e.toNat - d.cachesCount → ∀ q, isFileOf P d (BitVec.ofNat 64 k) q →
          o.removeFails q = false → fs' q = none) ∧
      (∀ q, q ≠ tempPath (cacheStorageLocation d (sd.take 8)) o.cacheWrite.suffix →
        q ≠ tempPath (l1StorageLocation d (sd.take 8)) o.l1Write.suffix → PathOk P d size sd fs fs' q ∨
        (fs' q = none ∧ ∃ k : Nat, (k : Int) ≤ e.toNat - d.cachesCount ∧ isFileOf P d (BitVec.ofNat 64 k) q ∧ o.removeFails q = false)) ∧
      (d.storageDir ≠ "" → Stored P d e size sd o fs') := by
  have hsl : sd.length = 32 := by
    rw [seedHash_eq P d hsel] at hsd
    injection hsd with hsd
    rw [← hsd, seed_length]
  rw [generate, hsz, ok_bind, hsd, ok_bind]
  by_cases hdir : d.storageDir = ""
  · rw [if_pos hdir, generateInMemory_eq P d size sd n hn hn2 hsize hL]
    exact ⟨fs, rfl, fun _ => rfl, Or.inl ⟨rfl, Or.inl hdir⟩, fun _ _ _ => Or.inl (Or.inl rfl), fun h => absurd hdir h⟩
  rw [if_neg hdir, generateOnDisk, slc_ok _ _ _ (by omega) (by omega), ok_bind]
  have hF := hF hdir
  have hcase : ∀ c l, (c = none ∨ c = some (pubCache P d size sd)) → (l = some (pubL1 P d size sd) ∨ (d.l1Enabled = true ∧ l = none)) →
      (c ≠ none → fs (cacheStorageLocation d (sd.take 8)) ≠ none) →
      (d.l1Enabled = true → l ≠ none → fs (l1StorageLocation d (sd.take 8)) ≠ none) →
      ∃ fs', (do
        let (cache, fs) ← ensureCache P d size sd (cacheStorageLocation d (sd.take 8)) c fs o.cacheWrite
        let (l1, fs) ← ensureL1 P d cache (l1StorageLocation d (sd.take 8)) l fs o.l1Write
        let fs ← cleanup P d e o.removeFails fs
        return (⟨cache, l1⟩, fs) : Go (Loaded × FS)) = .ok (⟨pubCache P d size sd, pubL1 P d size sd⟩, fs') ∧
      (d.storageDir = "" → fs' = fs) ∧
      ((fs' = fs ∧ (d.storageDir = "" ∨ (fs (cacheStorageLocation d (sd.take 8)) ≠ none ∧
          (d.l1Enabled = true → fs (l1StorageLocation d (sd.take 8)) ≠ none)))) ∨
        ∀ k : Nat, (k : Int) ≤ e.toNat - d.cachesCount → ∀ q, isFileOf P d (BitVec.ofNat 64 k) q →
          o.removeFails q = false → fs' q = none) ∧
      (∀ q, q ≠ tempPath (cacheStorageLocation d (sd.take 8)) o.cacheWrite.suffix →
        q ≠ tempPath (l1StorageLocation d (sd.take 8)) o.l1Write.suffix → PathOk P d size sd fs fs' q ∨
        (fs' q = none ∧ ∃ k : Nat, (k : Int) ≤ e.toNat - d.cachesCount ∧ isFileOf P d (BitVec.ofNat 64 k) q ∧ o.removeFails q = false)) ∧
      (d.storageDir ≠ "" → Stored P d e size sd o fs') := by
    intro c l hc hl hc' hl'
    obtain ⟨fs1, fs2, e1, e2, h, g1, g2⟩ := ensure_eq P d size sd n hn hn2 hsize hL fs o c l hc hl
    obtain ⟨fs3, e3, h3, h4⟩ := cleanup_eq P d hsel e he hcnt hcnt2 hse o.removeFails fs2
    refine ⟨fs3, ?_, fun h => absurd h hdir, Or.inr h3, ?_, fun _ => ⟨fun hg => ?_, fun hE hg => ?_⟩⟩
    · rw [e1, ok_bind]
      simp only
      rw [e2, ok_bind]
      simp only
      rw [e3]
      rfl
    · intro q hq1 hq2
      rcases h4 q with h5 | h5
      · refine Or.inl ?_
        have := h q hq1 hq2
        rw [PathOk] at this ⊢
        rw [h5]
        exact this
      · exact Or.inr h5
    · rcases h4 (cacheStorageLocation d (sd.take 8)) with h5 | ⟨_, k, hk, h6, _⟩
      · exact Or.inl (h5.trans (g1 (fun hcn => hF.1.resolve_left (hc' hcn)) hg))
      · exact Or.inr ⟨k, hk, h6⟩
    · rcases h4 (l1StorageLocation d (sd.take 8)) with h5 | ⟨_, k, hk, h6, _⟩
      · exact Or.inl (h5.trans (g2 (fun hln => (hF.2 hE).resolve_left (hl' hE hln)) hg))
      · exact Or.inr ⟨k, hk, h6⟩
  have hc := memoryMap_file fs _ d.cachesLockMmap o.cacheRead (pubCache P d size sd) hF.1
  have hl := tryL1_eq P d size sd fs o.l1Read hF
  have htake : (sd.take 8).drop 0 = sd.take 8 := rfl
  rw [htake]
  simp only
  have hsome : ∀ w, tryL1 d fs (l1StorageLocation d (sd.take 8)) o.l1Read = .ok (some w) → d.l1Enabled = true →
      fs (l1StorageLocation d (sd.take 8)) ≠ none := by
    intro w hl hE
    rw [tryL1, if_pos hE] at hl
    exact memoryMap_some hl
  rcases hc with hc | hc <;> rcases hl with hl | ⟨hE, hl⟩
  · rw [hc, ok_bind, hl, ok_bind]
    exact hcase none _ (Or.inl rfl) (Or.inl rfl) (fun h => absurd rfl h) (fun hE _ => hsome _ hl hE)
  · rw [hc, ok_bind, hl, ok_bind]
    exact hcase none none (Or.inl rfl) (Or.inr ⟨hE, rfl⟩) (fun h => absurd rfl h) (fun _ h => absurd rfl h)
  · have h1 := memoryMap_some hc
    have h2 : d.l1Enabled = true → fs (l1StorageLocation d (sd.take 8)) ≠ none := hsome _ hl
    rw [hc, ok_bind, hl, ok_bind]
    exact ⟨fs, rfl, fun _ => rfl, Or.inl ⟨rfl, Or.inr ⟨h1, h2⟩⟩, fun _ _ _ => Or.inl (Or.inl rfl),
      fun _ => ⟨fun _ => Or.inl (hF.1.resolve_left h1), fun hE _ => Or.inl ((hF.2 hE).resolve_left (h2 hE))⟩⟩
  · rw [hc, ok_bind, hl, ok_bind]
    exact hcase _ none (Or.inr rfl) (Or.inr ⟨hE, rfl⟩) (fun _ => memoryMap_some hc) (fun _ h => absurd rfl h)

end generate

end Verif.Dag
