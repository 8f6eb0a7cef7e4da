import Verif.Model.InMem.Autolykos
import Verif.Proof.Heap

/-! # Autolykos2 with memory -/

set_option autoImplicit false

namespace Verif

open Go

namespace Convutil.InMem

theorem builds_uint32ArrayToBytes {h : Heap} {arr : Slice .word} {ws : List U32} (ha : Held h arr ws) (o : ByteOrder) :
    Builds (uint32ArrayToBytes arr o) h (Convutil.uint32ArrayToBytes ws o) := by
  refine (makes_make h .byte (arr.len * 4)).bind fun buf h1 f1 k1 n1 => ?_
  refine Writes.ret ?_ f1 n1
  have hl := ha.len
  unfold Convutil.uint32ArrayToBytes
  rw [show ws.length = arr.len from hl]
  refine runs_each 0 arr.len k1 fun j h2 ys _ _ f2 k2 => ?_
  have ha2 : Held h2 arr ws := (ha.keep f1).other f2 (Or.inl (by decide))
  exact Runs.val (runs_idx ha2 j) fun v _ => runs_putU32 k2 o (j * 4) v

theorem builds_bytesToUint32Array {h : Heap} {buf : Slice .byte} {bs : List Byte} (hb : Held h buf bs) (o : ByteOrder) :
    Builds (bytesToUint32Array buf o) h (Convutil.bytesToUint32Array bs o) := by
  refine (makes_make h .word (buf.len / 4)).bind fun arr h1 f1 k1 n1 => ?_
  refine Writes.ret ?_ f1 n1
  have hl := hb.len
  unfold Convutil.bytesToUint32Array
  rw [show bs.length = buf.len from hl]
  refine runs_each 0 (buf.len / 4) k1 fun j h2 ys _ _ f2 k2 => ?_
  have hb2 : Held h2 buf bs := (hb.keep f1).other f2 (Or.inl (by decide))
  refine runs_slc_bind hb2 _ _ fun r b _ _ hr => ?_
  exact Runs.val (runs_getU32 hr o) fun v _ => runs_upd k2 j v

theorem builds_uint32ToBytes (h : Heap) (v : U32) (o : ByteOrder) : Builds (uint32ToBytes v o) h (Convutil.uint32ToBytes v o) := by
  refine (makes_make h .byte 4).bind fun data h1 f1 k1 n1 => ?_
  exact Writes.ret (runs_put32 k1 o v) f1 n1

theorem builds_uint64ToBytes (h : Heap) (v : U64) (o : ByteOrder) : Builds (uint64ToBytes v o) h (Convutil.uint64ToBytes v o) := by
  refine (makes_make h .byte 8).bind fun data h1 f1 k1 n1 => ?_
  exact Writes.ret (runs_put64 k1 o v) f1 n1

end Convutil.InMem

namespace Crypto.InMem

theorem makes_blake2b256 (P : Prims) {h : Heap} {s : Slice .byte} {xs : List Byte} (hs : Held h s xs) : Makes (blake2b256 P s) h (P.blake2b256 xs) := by
  unfold blake2b256 Makes
  rw [Mem.bind_ok (contents_ok hs)]
  exact makes_lit h .byte _

end Crypto.InMem

namespace Autolykos.InMem

open Convutil.InMem Crypto.InMem

theorem makes_concatBytes {h : Heap} {a b : Slice .byte} {xs ys : List Byte} (ha : Held h a xs) (hb : Held h b ys) :
    Makes (concatBytes a b) h (Autolykos.concatBytes xs ys) := by
  unfold concatBytes Makes
  obtain ⟨h1, e1, f1, k1⟩ := makes_makeCap h .byte a.len (a.len + b.len) (Nat.le_add_right _ _)
  rw [Mem.bind_ok e1]
  have hl := ha.len
  have hn : newer h .byte (⟨(h.store .byte).length, 0, a.len, a.len + b.len⟩ : Slice .byte).arr := Nat.le_refl _
  have hcp : Go.copyAt (List.replicate a.len (Ty.zero .byte)) 0 xs = .ok xs := by
    unfold Go.copyAt
    rw [if_pos (Nat.zero_le _)]
    have : xs.take a.len = xs := by rw [List.take_of_length_le (Nat.le_of_eq hl)]
    simp [this, hl]
  obtain ⟨_, h2, e2, f2, k2⟩ := runs_copy k1 (ha.keep f1) xs hcp
  rw [Mem.bind_ok e2]
  have hb2 : Held h2 b ys := (hb.keep f1).other f2 (Or.inr (hb.ne hn f1))
  obtain ⟨q, h3, e3, f3, k3, n3⟩ := append_ok k2 hb2
  refine ⟨q, h3, e3, (f1.write f2 hn).write f3 hn, k3, ?_⟩
  rcases n3 with ⟨n3, _⟩ | ⟨n3, _⟩
  · rw [n3]
    exact hn
  · exact newer.mono (f1.write f2 hn) n3

theorem builds_generateM (h : Heap) (size : Nat) : Builds (generateM size) h (Autolykos.generateM size) := by
  refine (makes_make h .byte (size * 8)).bind fun m h1 f1 k1 n1 => ?_
  refine Writes.ret ?_ f1 n1
  refine runs_each 0 size k1 fun j h2 ys _ _ f2 k2 => ?_
  intro b hb
  unfold mStep at hb
  unfold Go.slc at hb
  by_cases hc : j * 8 ≤ j * 8 + 8 ∧ j * 8 + 8 ≤ ys.length
  · rw [if_pos hc] at hb
    have hput : Go.putU64 .big ys (j * 8) (BitVec.ofNat 64 j) = .ok b := hb
    have hl := k2.len
    obtain ⟨e1, _⟩ := held_slc k2 hc.1 hc.2
    rw [Mem.bind_ok e1]
    unfold Go.putU64 at hput
    rw [if_neg (by omega), if_neg (by omega)] at hput
    obtain rfl := Except.ok.inj hput
    obtain ⟨h', e, f, k⟩ := blit_sub (t := .byte) (bytesOf .big 8 (BitVec.ofNat 64 j : U64)) (j * 8) k2 (by rw [length_bytesOf]; exact hc.2) (m.cap - j * 8) (j * 8 + 8 - j * 8)
    refine ⟨(), h', ?_, f, ?_⟩
    · unfold Mem.put64
      rw [if_neg (by show ¬ j * 8 + 8 - j * 8 < 8; omega)]
      exact e
    · rw [length_bytesOf] at k
      exact k
  · rw [if_neg hc] at hb
    cases hb

theorem builds_genIndexes (P : Prims) {h : Heap} {seed : Slice .byte} {xs : List Byte} (hs : Held h seed xs) (k n : U32) :
    Builds (genIndexes P seed k n) h (Autolykos.genIndexes P xs k n) := by
  unfold genIndexes
  refine (makes_blake2b256 P hs).bind fun hash h1 f1 k1 n1 => ?_
  obtain ⟨ext, h2, e2, f2, k2, n2⟩ := append_ok k1 k1
  refine Runs.heap e2 ?_
  have f12 : Frame h h2 none := f1.write f2 n1
  refine (makes_make h2 .word k.toNat).bind fun indexes h3 f3 k3 n3 => ?_
  refine Writes.ret ?_ (f12.trans f3) (newer.mono f12 n3)
  refine runs_each 0 k.toNat k3 fun j h4 ys _ _ f4 k4 => ?_
  have he : Held h4 ext _ := (k2.keep f3).other f4 (Or.inl (by decide))
  unfold indexStep
  refine runs_slc_bind he _ _ fun r b _ _ hr => ?_
  refine Runs.val (runs_getU32 hr .big) fun v _ => ?_
  exact Runs.val Runs.lift fun w _ => runs_upd k4 j w

theorem makes_setBytes {h : Heap} {s : Slice .byte} {xs : List Byte} (hs : Held h s xs) : Makes (setBytes s) h [beNat xs] := by
  unfold setBytes Makes
  rw [Mem.bind_ok (contents_ok hs)]
  exact makes_lit h .big _

theorem runs_sumStep (P : Prims) {H : Heap} {h m : Slice .byte} {hs ms : List Byte} {indexes : Slice .word} {is : List U32} {f2 : Slice .big} {x : Nat}
    (hh : Held H h hs) (hm : Held H m ms) (hi : Held H indexes is) (hf : Held H f2 [x]) (j : Nat) :
    Runs (sumStep P h m indexes f2 j) H (Autolykos.sumStep P hs ms is j x) fun _ b H' => Frame H H' (only f2) ∧ Held H' f2 [b] := by
  unfold sumStep Autolykos.sumStep
  refine Runs.val (runs_idx hi j) fun index _ => ?_
  refine Runs.bind (builds_uint32ToBytes H index .big) fun ib ibs H1 _ q1 => ?_
  obtain ⟨F1, k1, _⟩ := q1
  refine (makes_concatBytes (hh.keep F1) (hm.keep F1)).bind fun hm' H2 F2 k2 _ => ?_
  refine (makes_concatBytes (k1.keep F2) k2).bind fun elem H3 F3 k3 _ => ?_
  refine (makes_blake2b256 P k3).bind fun hash H4 F4 k4 _ => ?_
  rw [← k4.len]
  refine runs_slc_bind k4 _ _ fun r b _ _ hr => ?_
  refine (makes_setBytes hr).bind fun v H5 F5 k5 _ => ?_
  have F : Frame H H5 none := (((F1.trans F2).trans F3).trans F4).trans F5
  have hf5 : Held H5 f2 [x] := hf.keep F
  refine Runs.heap (idx_zero hf5) ?_
  refine Runs.heap (idx_zero k5) ?_
  obtain ⟨H6, e6, F6, k6⟩ := upd_zero hf5 (Nat.add x (beNat b))
  intro y hy
  obtain rfl := Except.ok.inj hy
  exact ⟨(), H6, e6, (F.none_only _).trans F6, k6⟩

/-- the whole computation -/
theorem builds_compute (P : Prims) {H : Heap} {msg : Slice .byte} {xs : List Byte} (hmsg : Held H msg xs) (k nBase : U32) (nonce height : U64) :
    Builds (compute P k nBase msg nonce height) H (Autolykos.compute P k nBase xs nonce height) := by
  unfold compute Autolykos.compute
  refine Runs.bind (builds_generateM H 1024) fun m ms H1 _ q => ?_
  obtain ⟨F1, km, _⟩ := q
  refine Runs.bind (builds_uint32ToBytes H1 _ .big) fun h hs H2 _ q => ?_
  obtain ⟨G, kh, _⟩ := q
  have F2 := F1.trans G
  replace km := km.keep G
  refine Runs.bind (builds_uint64ToBytes H2 _ .big) fun nb nbs H3 _ q => ?_
  obtain ⟨G, kn, _⟩ := q
  have F3 := F2.trans G
  replace km := km.keep G
  replace kh := kh.keep G
  refine Runs.val Runs.lift fun n _ => ?_
  refine (makes_lit H3 .big _).bind fun bigN H4 G kN _ => ?_
  have F4 := F3.trans G
  replace km := km.keep G
  replace kh := kh.keep G
  replace kn := kn.keep G
  refine (makes_concatBytes (hmsg.keep F4) kn).bind fun full H5 G kf _ => ?_
  have F5 := F4.trans G
  replace km := km.keep G
  replace kh := kh.keep G
  replace kn := kn.keep G
  replace kN := kN.keep G
  refine (makes_blake2b256 P kf).bind fun mh H6 G kmh _ => ?_
  have F6 := F5.trans G
  replace km := km.keep G
  replace kh := kh.keep G
  replace kn := kn.keep G
  replace kN := kN.keep G
  refine runs_slc_bind kmh _ _ fun tl tls _ _ ktl => ?_
  refine (makes_setBytes ktl).bind fun prei8 H7 G kp np => ?_
  have F7 := F6.trans G
  replace km := km.keep G
  replace kh := kh.keep G
  replace kn := kn.keep G
  replace kN := kN.keep G
  refine Runs.heap (idx_zero kp) ?_
  refine Runs.heap (idx_zero kN) ?_
  refine Runs.val Runs.lift fun r _ => ?_
  obtain ⟨H8, e8, G, kp⟩ := upd_zero kp r
  refine Runs.heap e8 ?_
  have F8 := F7.write G (newer.mono F6 np)
  replace km := km.other G (Or.inl (by decide))
  replace kh := kh.other G (Or.inl (by decide))
  replace kn := kn.other G (Or.inl (by decide))
  refine Runs.heap (idx_zero kp) ?_
  refine Runs.bind (builds_uint32ToBytes H8 _ .big) fun i is H9 _ q => ?_
  obtain ⟨G, ki, _⟩ := q
  have F9 := F8.trans G
  replace km := km.keep G
  replace kh := kh.keep G
  replace kn := kn.keep G
  refine (makes_concatBytes kh km).bind fun hm H10 G khm _ => ?_
  have F10 := F9.trans G
  replace km := km.keep G
  replace kh := kh.keep G
  replace kn := kn.keep G
  replace ki := ki.keep G
  refine (makes_concatBytes ki khm).bind fun ihm H11 G kihm _ => ?_
  have F11 := F10.trans G
  replace km := km.keep G
  replace kh := kh.keep G
  replace kn := kn.keep G
  refine (makes_blake2b256 P kihm).bind fun fh H12 G kfh _ => ?_
  have F12 := F11.trans G
  replace km := km.keep G
  replace kh := kh.keep G
  replace kn := kn.keep G
  refine runs_slc_bind kfh _ _ fun f fs _ _ kff => ?_
  refine (makes_concatBytes (hmsg.keep F12) kn).bind fun mn H13 G kmn _ => ?_
  have F13 := F12.trans G
  replace km := km.keep G
  replace kh := kh.keep G
  replace kff := kff.keep G
  refine (makes_concatBytes kff kmn).bind fun seed H14 G kseed _ => ?_
  have F14 := F13.trans G
  replace km := km.keep G
  replace kh := kh.keep G
  refine Runs.bind (builds_genIndexes P kseed k n) fun indexes ixs H15 _ q => ?_
  obtain ⟨G, kix, _⟩ := q
  have F15 := F14.trans G
  replace km := km.keep G
  replace kh := kh.keep G
  refine (makes_lit H15 .big _).bind fun f2 H16 G kf2 nf2 => ?_
  have F16 := F15.trans G
  replace km := km.keep G
  replace kh := kh.keep G
  replace kix := kix.keep G
  have hloop : Runs (Mem.each 0 indexes.len (sumStep P h m indexes f2)) H16 (Go.forRange 0 ixs.length 0 (Autolykos.sumStep P hs ms ixs))
      fun _ b H' => Frame H16 H' (only f2) ∧ Held H' f2 [b] := by
    rw [← kix.len]
    refine runs_forRange (fun (_ : Unit) b H' => Frame H16 H' (only f2) ∧ Held H' f2 [b]) 0 _ () 0 H16 ⟨Frame.refl _ _, kf2⟩ ?_
    rintro j _ b Hj _ _ ⟨Fj, kj⟩
    exact (runs_sumStep P (kh.other Fj (Or.inl (by decide))) (km.other Fj (Or.inl (by decide))) (kix.other Fj (Or.inl (by decide))) kj j).post
      fun _ _ _ _ q => ⟨Fj.trans q.1, q.2⟩
  refine Runs.bind hloop fun _ s H17 _ q => ?_
  obtain ⟨G, ks⟩ := q
  have F17 := F16.write G (newer.mono F15 nf2)
  refine Runs.heap (idx_zero ks) ?_
  refine (makes_fresh H17 .byte _).bind fun bs H18 G kbs _ => ?_
  have F18 := F17.trans G
  intro d hd
  obtain rfl := Except.ok.inj hd
  obtain ⟨q, H19, e, G, kq, nq⟩ := makes_blake2b256 P kbs
  exact ⟨q, H19, e, F18.trans G, kq, newer.mono F18 nq⟩

end Autolykos.InMem

end Verif
