import Verif.Model.HostOrder
import Verif.Spec.HostOrder
import Verif.Proof.Disk

/-! # Proofs about machines of either byte order -/

set_option autoImplicit false

namespace Verif.Dag

open Go Spec.Ethash Spec.Disk

theorem reversed_eq (x : U32) : reversed x = BitVec.ofNat 32 (beNat (leBytes 4 x)) := by
  rw [reversed, Spec.beValue_eq, Spec.leEncode_eq_leBytes]

theorem leBytes_reversed (x : U32) : leBytes 4 (reversed x) = (leBytes 4 x).reverse := by
  rw [reversed_eq, ← List.reverse_reverse (leBytes 4 x), beNat_reverse, leBytes_ofNat_leNat _ (by simp), List.reverse_reverse]

theorem reversed_reversed (x : U32) : reversed (reversed x) = x := by
  have h : leBytes 4 (reversed (reversed x)) = leBytes 4 x := by rw [leBytes_reversed, leBytes_reversed, List.reverse_reverse]
  have := congrArg leNat h
  rw [leNat_leBytes, leNat_leBytes] at this
  apply BitVec.eq_of_toNat_eq
  have h1 := x.isLt
  have h2 := (reversed (reversed x)).isLt
  omega

theorem reversed_zero : reversed 0 = 0 := by decide

theorem map_reversed_zeros (m : Nat) : (List.replicate m (0 : U32)).map reversed = List.replicate m 0 := by
  rw [List.map_replicate, reversed_zero]

theorem map_reversed_twice (w : List U32) : (w.map reversed).map reversed = w := by
  rw [List.map_map]
  conv_rhs => rw [← List.map_id w]
  refine List.map_congr_left ?_
  intro x _
  exact reversed_reversed x

theorem reversed_ofNat (a : List Byte) (h : a.length = 4) : reversed (BitVec.ofNat 32 (leNat a)) = BitVec.ofNat 32 (beNat a) := by
  rw [reversed_eq, leBytes_ofNat_leNat a h]

theorem reversed_eq_iff (x : U32) : reversed x = x ↔ Palindrome x := by
  rw [Palindrome, Spec.leEncode_eq_leBytes, ← leBytes_reversed]
  constructor
  · intro h; rw [h]
  · intro h
    have := congrArg leNat h
    rw [leNat_leBytes, leNat_leBytes] at this
    apply BitVec.eq_of_toNat_eq
    have h1 := x.isLt
    have h2 := (reversed x).isLt
    omega

theorem byteViewOn_little (w : List U32) : byteViewOn .little w = byteView w := rfl

theorem wordViewOn_little (b : List Byte) : wordViewOn .little b = wordView b := rfl

theorem byteViewOn_big (w : List U32) : byteViewOn .big w = byteView (w.map reversed) := by
  rw [byteViewOn, byteView, List.flatMap_map]
  refine congrArg (fun f => List.flatMap f w) ?_
  funext x
  rw [leBytes_reversed]
  rfl

theorem wordViewOn_big (b : List Byte) : wordViewOn .big b = (wordView b).map reversed := by
  rw [wordViewOn, wordView, List.map_map]
  refine List.map_congr_left ?_
  intro i hi
  have := List.mem_range.mp hi
  exact (reversed_ofNat _ (by rw [List.length_take, List.length_drop]; omega)).symm

theorem generateCacheOn_little (P : Prims) (rounds : Int) (dest : List U32) (seed : List Byte) :
    generateCacheOn .little P rounds dest seed = generateCache P rounds dest seed := rfl

theorem generateL1CacheOn_little (P : Prims) (parents : U32) (dest cache : List U32) :
    generateL1CacheOn .little P parents dest cache = generateL1Cache P parents dest cache := rfl

theorem memoryMapContentOn_little (content : List Byte) (lock : Bool) (o : MapEnv) :
    memoryMapContentOn .little content lock o = memoryMapContent content lock o := rfl

theorem fillContentOn_little (n : Nat) (generator : List U32 → Go (List U32)) :
    fillContentOn .little n generator = fillContent n generator := rfl

theorem generateCacheOn_big (P : Prims) (rounds : Int) (dest : List U32) (seed : List Byte) :
    generateCacheOn .big P rounds dest seed = (generateCache P rounds (dest.map reversed) seed).map (List.map reversed) := by
  rw [generateCacheOn, generateCache, byteViewOn_big]
  cases generateCacheBytes P rounds (byteView (dest.map reversed)) seed with
  | error e => rfl
  | ok c => exact congrArg Except.ok (wordViewOn_big c)

theorem generateL1CacheOn_big (P : Prims) (parents : U32) (dest cache : List U32) :
    generateL1CacheOn .big P parents dest cache = (generateL1Cache P parents (dest.map reversed) cache).map (List.map reversed) := by
  simp only [generateL1CacheOn, generateL1Cache]
  rw [byteViewOn_big]
  cases forRange 0 ((byteView (dest.map reversed)).length / hashBytes) (byteView (dest.map reversed)) (l1Step P parents cache) with
  | error e => rfl
  | ok c => exact congrArg Except.ok (wordViewOn_big c)

theorem bytes_map_reversed (w : List U32) : byteViewOn .big (w.map reversed) = byteView w := by
  rw [byteViewOn_big, map_reversed_twice]

theorem magicBig_words (rest : List Byte) :
    wordViewOn .big (magicBig ++ rest) = 0xbaddcafe :: 0xfee1dead :: wordViewOn .big rest := by
  rw [wordViewOn_big, wordViewOn_big, show magicBig ++ rest = magicBig.take 4 ++ (magicBig.drop 4 ++ rest) from rfl,
    wordView_four _ _ rfl, wordView_four _ _ rfl, List.map_cons, List.map_cons]
  rfl

theorem fillContentOn_big (m : Nat) (generator : List U32 → Go (List U32)) (data : List U32)
    (hg : generator (List.replicate m 0) = .ok data) :
    fillContentOn .big (8 + 4 * m) generator = .ok (magicBig ++ byteViewOn .big data) := by
  simp only [fillContentOn]
  have h1 : wordViewOn .big (List.replicate (8 + 4 * m) (0 : Byte)) = List.replicate (m + 2) 0 := by
    rw [wordViewOn_big, show 8 + 4 * m = 4 * (m + 2) by omega, wordView_zeros, map_reversed_zeros]
  have h2 : dumpMagic.take (m + 2) = dumpMagic := List.take_of_length_le (by simp [dumpMagic])
  rw [h1, List.length_replicate, h2, List.drop_replicate, show m + 2 - dumpMagic.length = m by simp [dumpMagic],
    slc_ok _ _ _ (by simp) (Nat.le_refl _), ok_bind, List.take_length, List.drop_left, hg, ok_bind, List.take_left,
    List.drop_of_length_le (by simp [dumpMagic]; omega), List.append_nil]
  refine congrArg Except.ok ?_
  rw [byteViewOn, byteViewOn, List.flatMap_append]
  rfl

theorem ofNat_beNat_inj (a b : List Byte) (ha : a.length = 4) (hb : b.length = 4)
    (h : BitVec.ofNat 32 (beNat a) = BitVec.ofNat 32 (beNat b)) : a = b := by
  rw [← leNat_reverse, ← leNat_reverse] at h
  have := ofNat_leNat_inj a.reverse b.reverse (by simpa using ha) (by simpa using hb) h
  simpa using this

section content
variable (content : List Byte) (lock : Bool) (o : MapEnv)

theorem memoryMapContentOn_fail (order : ByteOrder) (h : o.mapFails = true ∨ content = []) :
    memoryMapContentOn order content lock o = .ok none := by
  rw [memoryMapContentOn, if_pos (by rcases h with h | h <;> simp [h])]

variable (hm : o.mapFails = false)
include hm

theorem memoryMapContentOn_unfold (order : ByteOrder) (hc : content ≠ []) : memoryMapContentOn order content lock o =
    (forRangeE 0 dumpMagic.length () (magicStep (wordViewOn order content)) >>= fun r => match r with
      | .ret _ => pure none
      | .cont _ => mapped (wordViewOn order content) lock o) := by
  rw [memoryMapContentOn, if_neg (by simp [hm, hc])]
  rfl

theorem memoryMapContentOn_magic (rest : List Byte) (hl : (lock && o.lockFails) = false) :
    memoryMapContentOn .big (magicBig ++ rest) lock o = .ok (some (wordViewOn .big rest)) := by
  rw [memoryMapContentOn_unfold _ _ _ hm _ (by simp [magicBig]), magicBig_words, magicLoop_two, if_pos ⟨rfl, rfl⟩, ok_bind]
  exact mapped_eq _ _ _ _ _ hl

theorem memoryMapContentOn_magic_lock (rest : List Byte) (hl : (lock && o.lockFails) = true) :
    memoryMapContentOn .big (magicBig ++ rest) lock o = .ok none := by
  rw [memoryMapContentOn_unfold _ _ _ hm _ (by simp [magicBig]), magicBig_words, magicLoop_two, if_pos ⟨rfl, rfl⟩, ok_bind]
  simp only [mapped]
  rw [if_pos hl]

theorem memoryMapContentOn_wrong (h8 : 8 ≤ content.length) (hw : content.take 8 ≠ magicBig) :
    memoryMapContentOn .big content lock o = .ok none := by
  obtain ⟨a, ha⟩ : ∃ a, a = content.take 4 := ⟨_, rfl⟩
  obtain ⟨b, hb⟩ : ∃ b, b = (content.drop 4).take 4 := ⟨_, rfl⟩
  have hc : content = a ++ (b ++ content.drop 8) := by
    rw [ha, hb, show content.drop 8 = (content.drop 4).drop 4 by rw [List.drop_drop], List.take_append_drop, List.take_append_drop]
  have hal : a.length = 4 := by rw [ha, List.length_take]; omega
  have hbl : b.length = 4 := by rw [hb, List.length_take, List.length_drop]; omega
  rw [memoryMapContentOn_unfold _ _ _ hm _ (by intro h; rw [h] at h8; simp at h8)]
  conv_lhs => rw [hc]
  rw [wordViewOn_big, wordView_four _ _ hal, wordView_four _ _ hbl, List.map_cons, List.map_cons, reversed_ofNat _ hal,
    reversed_ofNat _ hbl, magicLoop_two, if_neg, ok_bind]
  · rfl
  · rintro ⟨h1, h2⟩
    apply hw
    have e1 : (0xbaddcafe : U32) = BitVec.ofNat 32 (beNat (magicBig.take 4)) := by decide
    have e2 : (0xfee1dead : U32) = BitVec.ofNat 32 (beNat (magicBig.drop 4)) := by decide
    rw [e1] at h1
    rw [e2] at h2
    rw [hc, ofNat_beNat_inj _ _ hal rfl h1, ofNat_beNat_inj _ _ hbl rfl h2]
    rfl

end content

end Verif.Dag
