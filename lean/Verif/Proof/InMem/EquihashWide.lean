import Verif.Proof.EquihashPlain
import Verif.Proof.InMem.Quiet

/-! # Equihash with the twist: the capacity of the digests -/

set_option autoImplicit false

namespace Verif.Equihash.InMem

open Go Spec Spec.Equihash Convutil.InMem Crypto.InMem

variable {q : Params}

/-! ## Nothing but BLAKE2b makes an array of unknown capacity -/

theorem quiet_expandArray (input : Slice .byte) (bitLen bytePad : Nat) : Quiet (expandArray input bitLen bytePad) := by
  unfold expandArray
  refine .ite (.pure _) (.ite (.pure _) ?_)
  refine .ite (.pure _) (.bind (.make _ _) fun output => .bind (.forRange _ _ _ fun i s => ?_) fun _ => .pure _)
  unfold expandStep
  refine .bind (.idx _ _) fun b => ?_
  dsimp only
  exact .ite (.bind (.each _ _ fun x => .upd _ _ _) fun _ => .pure _) (.pure _)

theorem quiet_bytesToUint32Array (buf : Slice .byte) (o : ByteOrder) : Quiet (bytesToUint32Array buf o) := by
  unfold bytesToUint32Array
  exact .bind (.make _ _) fun arr => .bind (.each _ _ fun i => .bind (.slc _ _ _) fun b => .bind (.getU32 _ _) fun v => .upd _ _ _) fun _ => .pure _

theorem quiet_uint32ArrayToBytes (arr : Slice .word) (o : ByteOrder) : Quiet (uint32ArrayToBytes arr o) := by
  unfold uint32ArrayToBytes
  exact .bind (.make _ _) fun buf => .bind (.each _ _ fun i => .bind (.idx _ _) fun v => .putU32 _ _ _ _) fun _ => .pure _

theorem quiet_indicesFromMinimal (n k : Nat) (minimal : Slice .byte) : Quiet (indicesFromMinimal n k minimal) := by
  unfold indicesFromMinimal
  refine .bind (.lift _) fun c => ?_
  refine .ite (.pure _) (.ite (.pure _) (.bind (quiet_expandArray _ _ _) fun x => ?_))
  cases x with
  | error e => exact .pure _
  | ok a => exact .bind (quiet_bytesToUint32Array _ _) fun _ => .pure _

/-! ## One digest -/

/-- the digest, with the bytes behind it -/
theorem digest_run (h : (untwisted q).WF) (P : Prims) {H : Heap} {init personal : Slice .byte} {header : List Byte} (ki : Held H init header)
    (kp : Held H personal (pstate q)) (g : U32) :
    ∃ (tmp : Slice .byte) (h' : Heap), hashBlakeWithOffset P init personal g q.digest H = .ok (tmp, h') ∧ Frame H h' Go.none ∧ newer H .byte tmp.arr ∧
      h'.spare .byte = (fun i => H.spare .byte (i + 1)) ∧ tmp.cap = q.digest + (H.spare .byte 0).length ∧
      Held h' (⟨tmp.arr, tmp.off, tmp.cap, tmp.cap⟩ : Slice .byte) (rawHash P q header g.toNat ++ H.spare .byte 0) := by
  have hraw : (rawHash P q header g.toNat).length = q.digest := rawHash_length P h header g.toNat
  unfold hashBlakeWithOffset
  obtain ⟨st, H1, e1, F1, k1, n1⟩ := makes_make H .byte (init.len + 4)
  rw [Mem.bind_ok e1]
  have hil : header.length = init.len := ki.len
  have c1 : Go.copyAt (List.replicate (init.len + 4) (0 : Byte)) 0 header = .ok (header ++ List.replicate 4 0) := by
    rw [← hil]; exact copy_zero header 4
  obtain ⟨_, H2, e2, G2, k2⟩ := runs_copy k1 (ki.keep F1) _ c1
  rw [Mem.bind_ok e2]
  have F2 := F1.write G2 n1
  have c2 : Go.putU32 .little (header ++ List.replicate 4 (0 : Byte)) init.len g = .ok (header ++ leEncode 4 g.toNat) := by
    rw [← hil, put_le header 0 4 rfl, List.replicate_zero, List.append_nil]
  obtain ⟨_, H3, e3, G3, k3⟩ := runs_putU32 k2 .little init.len g _ c2
  rw [Mem.bind_ok e3]
  have F3 := F2.write G3 n1
  have s1 := Quiet.make .byte _ _ _ _ e1
  have s2 := Quiet.copy _ _ _ _ _ e2
  have s3 := Quiet.putU32 _ _ _ _ _ _ _ e3
  have hs : H3.spare .byte = H.spare .byte := s3.trans (s2.trans s1)
  have hb : Crypto.blake2b P (header ++ leEncode 4 g.toNat) (pstate q) q.digest = .ok (rawHash P q header g.toNat) := by
    have := blakeOff_eq P h header g
    simp only [Equihash.hashBlakeWithOffset] at this
    rw [copy_zero, ok_bind, put_le header 0 4 rfl, ok_bind, List.replicate_zero, List.append_nil] at this
    exact this
  unfold blake2b
  rw [Mem.bind_ok (contents_ok k3), Mem.bind_ok (contents_ok (kp.keep F3)), hb]
  have key := held_add H3 .byte (rawHash P q header g.toNat ++ H3.spare .byte 0) []
  rw [List.append_nil, List.length_nil, Nat.add_zero, List.length_append] at key
  refine ⟨_, _, rfl, F3.trans ((frame_add _ _ _).trans (frame_next _ _)), newer.mono F3 (Nat.le_refl _), ?_, ?_, ?_⟩
  · rw [← hs]
    show Function.update H3.spare .byte (fun i => H3.spare .byte (i + 1)) .byte = _
    rw [Function.update_self]
  · show (rawHash P q header g.toNat).length + (H3.spare .byte 0).length = _
    rw [hraw, hs]
  · rw [← hs]
    exact key.keep (frame_next _ _)

/-- the body of the loop over the lanes -/
theorem lane_ok {h : Heap} {tmp : Slice .byte} {ts : List Byte} (kt : Held h (⟨tmp.arr, tmp.off, tmp.cap, tmp.cap⟩ : Slice .byte) ts) {myHash : Slice .word}
    {ms : List U32} (km : Held h myHash ms) (i : Nat) :
    Writes (do
      let b ← Mem.slc tmp (i * 4) ((i + 1) * 4)
      let v ← Mem.getU32 .little b
      let m ← Mem.idx myHash i
      Mem.upd myHash i ((m : U32) + v)) h myHash (laneStep ts i ms) := by
  unfold laneStep
  refine runs_slc_bind (s := (⟨tmp.arr, tmp.off, tmp.cap, tmp.cap⟩ : Slice .byte)) kt _ _ fun r _ _ _ kr => ?_
  refine Runs.val (runs_getU32 kr .little) fun v _ => ?_
  exact Runs.val (runs_idx km _) fun m _ => runs_upd km _ _

theorem lane_step_ok {ts : List Byte} {i : Nat} {ms : List U32} (h1 : (i + 1) * 4 ≤ ts.length) (h2 : i < ms.length) :
    ∃ ms', laneStep ts i ms = .ok ms' ∧ ms'.length = ms.length := by
  have e : laneStep ts i ms = .ok (ms.set i (ms[i] + BitVec.ofNat 32 (leNat (((ts.take ((i + 1) * 4)).drop (i * 4)).take 4)))) := by
    simp only [laneStep]
    rw [slc_ok _ _ _ (by omega) h1, ok_bind, getU32, if_pos (by simp; omega), ok_bind, idx, List.getElem?_eq_getElem h2, ok_bind, upd_ok _ _ _ h2]
    rfl
  exact ⟨_, e, by simp⟩

/-- a digest whose capacity is too small -/
theorem lanes_panic {tmp : Slice .byte} {ts : List Byte} {myHash : Slice .word} (hc : tmp.cap < 64) (hl : ts.length = tmp.cap) :
    ∀ (k i : Nat) (h : Heap) (ms : List U32), i + k = 16 → i * 4 ≤ tmp.cap → Held h (⟨tmp.arr, tmp.off, tmp.cap, tmp.cap⟩ : Slice .byte) ts →
      Held h myHash ms → ms.length = 16 →
      ∃ h', Mem.loop k i () (fun i (_ : Unit) => do
        let b ← Mem.slc tmp (i * 4) ((i + 1) * 4)
        let v ← Mem.getU32 .little b
        let m ← Mem.idx myHash i
        Mem.upd myHash i ((m : U32) + v)) h = .error (.panic .slice, h')
  | 0, i, h, ms, hi, hb, _, _, _ => by omega
  | k + 1, i, h, ms, hi, hb, kt, km, hm => by
    unfold Mem.loop
    by_cases hf : (i + 1) * 4 ≤ tmp.cap
    · obtain ⟨ms', e, l⟩ := lane_step_ok (ts := ts) (i := i) (ms := ms) (by omega) (by omega)
      obtain ⟨_, h1, e1, G, k1⟩ := lane_ok kt km i _ e
      obtain ⟨h', e'⟩ := lanes_panic hc hl k (i + 1) h1 ms' (by omega) hf (kt.other G (Or.inl (by decide))) k1 (by omega)
      refine ⟨h', ?_⟩
      rw [Mem.bind_ok e1]
      exact e'
    · refine ⟨h, Mem.bind_error (Mem.bind_error ?_)⟩
      unfold Mem.slc
      rw [if_neg (fun q => hf q.2)]
      rfl

/-! ## The sums -/

theorem maybe_twist (h : (untwisted q).WF) (P : Prims) {H : Heap} {init personal : Slice .byte} {header : List Byte} (ki : Held H init header)
    (kp : Held H personal (pstate q)) {myHash : Slice .word} (g : U32) (hg : g.toNat < 2 ^ 32 - 1) (s : Nat) :
    ∀ (d m fuel : Nat) (h1 : Heap) (ms : List U32), s + m + d = g.toNat + 1 → d + 1 ≤ fuel → Frame H h1 (only myHash) → Held h1 myHash ms →
      Near P q header s m ms →
      Maybe (64 - q.digest) (Mem.forever fuel (BitVec.ofNat 32 (s + m)) (twistStep P init personal myHash g q.digest)) h1 (.ok ()) fun _ _ h' =>
        Frame H h' (only myHash) ∧ (∃ ms', Held h' myHash ms' ∧ Near P q header s (g.toNat + 1 - s) ms') ∧ (Wide (64 - q.digest) h1 → Wide (64 - q.digest) h') := by
  have hdl : q.digest ≤ 64 := h.digest_le
  intro d
  induction d with
  | zero =>
    intro m fuel h1 ms hm hf F km hn
    obtain ⟨f, rfl⟩ : ∃ f, fuel = f + 1 := ⟨fuel - 1, by omega⟩
    have hle : ¬ (BitVec.ofNat 32 (s + m) ≤ g) := by
      rw [BitVec.le_def, BitVec.toNat_ofNat, Nat.mod_eq_of_lt (by omega)]; omega
    intro _ _
    refine Or.inl ⟨(), h1, ?_, F, ⟨ms, km, ?_⟩, id⟩
    · unfold Mem.forever twistStep
      rw [if_neg hle]
      rfl
    · rw [show g.toNat + 1 - s = m by omega]
      exact hn
  | succ d ih =>
    intro m fuel h1 ms hm hf F km hn
    obtain ⟨f, rfl⟩ : ∃ f, fuel = f + 1 := ⟨fuel - 1, by omega⟩
    have htn : (BitVec.ofNat 32 (s + m)).toNat = s + m := by rw [BitVec.toNat_ofNat, Nat.mod_eq_of_lt (by omega)]
    have hle : BitVec.ofNat 32 (s + m) ≤ g := by rw [BitVec.le_def, htn]; omega
    have hraw : (rawHash P q header (s + m)).length = q.digest := rawHash_length P h header (s + m)
    obtain ⟨tmp, h2, e2, F2, n2, s2, hcap, kt⟩ := digest_run h P (ki.other F (Or.inl (by decide))) (kp.other F (Or.inl (by decide))) (BitVec.ofNat 32 (s + m))
    rw [htn] at kt
    have km2 := km.keep F2
    unfold Mem.forever
    have hstep : twistStep P init personal myHash g q.digest (BitVec.ofNat 32 (s + m)) h1 = ((do
        Mem.each 0 16 fun i => do
          let b ← Mem.slc tmp (i * 4) ((i + 1) * 4)
          let v ← Mem.getU32 .little b
          let m ← Mem.idx myHash i
          Mem.upd myHash i ((m : U32) + v)
        pure (.cont (BitVec.ofNat 32 (s + m) + 1))) : Mem (Step U32 Unit)) h2 := by
      unfold twistStep
      rw [if_pos hle, Mem.bind_ok e2]
    by_cases hc : 64 ≤ tmp.cap
    · have hlen : 64 ≤ (rawHash P q header (s + m) ++ h1.spare .byte 0).length := by
        rw [List.length_append, hraw, ← hcap]; exact hc
      obtain ⟨_, h3, e3, G3, k3⟩ := runs_each 0 16 km2 (fun i h' ys _ _ f' k' => lane_ok (kt.other f' (Or.inl (by decide))) k' i) _
        (laneLoop_wide _ hlen ms hn.1)
      have s3 : h3.spare .byte = h2.spare .byte :=
        Quiet.each 0 16 (fun i => .bind (.slc _ _ _) fun b => .bind (.getU32 _ _) fun v => .bind (.idx _ _) fun m => .upd _ _ _) _ _ _ e3
      have hw : Wide (64 - q.digest) h1 → Wide (64 - q.digest) h3 := fun hw => (hw.shift s2).same s3
      have hnext : BitVec.ofNat 32 (s + m) + 1 = BitVec.ofNat 32 (s + (m + 1)) := by
        apply BitVec.eq_of_toNat_eq
        rw [BitVec.toNat_add, htn, BitVec.toNat_ofNat]
        rfl
      have e4 : twistStep P init personal myHash g q.digest (BitVec.ofNat 32 (s + m)) h1 = .ok (.cont (BitVec.ofNat 32 (s + (m + 1))), h3) := by
        rw [hstep, Mem.bind_ok e3, hnext]
        rfl
      refine Maybe.step e4 hw ?_
      refine (ih (m + 1) f h3 _ (by omega) (by omega) (F.trans ((F2.none_only _).trans G3)) k3 (near_step P q header s m hn hraw _)).post fun _ _ h' _ r => ?_
      exact ⟨r.1, r.2.1, fun w => r.2.2 (hw w)⟩
    · obtain ⟨h', e'⟩ := lanes_panic (myHash := myHash) (tmp := tmp) (ts := rawHash P q header (s + m) ++ h1.spare .byte 0) (by omega)
        (by rw [List.length_append, hraw, hcap]) 16 0 h2 ms rfl (by omega) kt km2 hn.1
      intro _ _
      refine Or.inr ⟨h', Mem.bind_error ?_, fun hw => ?_⟩
      · rw [hstep]
        exact Mem.bind_error e'
      · have := hw 0
        omega

/-- the bytes that leaves are taken from are those of the specification -/
theorem maybe_generateHash (h : (untwisted q).WF) (P : Prims) {H : Heap} {init personal : Slice .byte} {header : List Byte} (ki : Held H init header)
    (kp : Held H personal (pstate q)) (ht : q.twist = true) (g : U32) (hg : g.toNat < 2 ^ 32 - 1) (fuel : Nat) (hf : 17 ≤ fuel) :
    Maybe (64 - q.digest) (generateHash P fuel init personal g q.digest true) H (.ok ()) fun s _ h' =>
      Frame H h' Go.none ∧ (∃ bs, Held h' s bs ∧ bs.length = 64 ∧ bs.take q.digest = (groupHash P q header g.toNat).take q.digest) ∧
        (Wide (64 - q.digest) H → Wide (64 - q.digest) h') := by
  have hdl : q.digest ≤ 64 := h.digest_le
  unfold generateHash
  rw [if_neg (by simp)]
  obtain ⟨myHash, H1, e1, F1, km, nm⟩ := makes_make H .word 16
  have s1 := Quiet.make .word 16 _ _ _ e1
  refine Maybe.step e1 (fun hw => hw.same s1) ?_
  have hmod : g.toNat % 16 < 16 := Nat.mod_lt _ (by omega)
  have hle := Nat.mod_le g.toNat 16
  have loop := maybe_twist h P (ki.keep F1) (kp.keep F1) (myHash := myHash) g hg (g.toNat - g.toNat % 16) (g.toNat % 16 + 1) 0 fuel H1 _ (by omega) (by omega)
    (Frame.refl _ _) km (near_zero P q header _)
  rw [Nat.add_zero, ← start_eq] at loop
  refine Maybe.bind (g := .ok ()) (l := fun _ => .ok ()) loop fun _ _ H2 _ r => ⟨r.2.2, ?_⟩
  obtain ⟨G2, ⟨ms, k2, hn⟩, hw2⟩ := r
  have F2 := F1.write G2 nm
  rw [show g.toNat + 1 - (g.toNat - g.toNat % 16) = g.toNat % 16 + 1 by omega] at hn
  obtain ⟨hash, H3, e3, F3, kh, nh⟩ := builds_uint32ArrayToBytes k2 .little _ (Convutil.uint32ArrayToBytes_eq ms .little)
  have s3 := quiet_uint32ArrayToBytes _ _ _ _ _ e3
  refine Maybe.step e3 (fun hw => hw.same s3) ?_
  have hlen : (ms.flatMap (bytesOf .little 4)).length = 64 := by
    rw [flatMap_length_const _ 4 (fun a => bytesOf_length .little 4 a), hn.1]
  obtain ⟨_, H4, e4, G4, k4⟩ := runs_each (t := .byte) (f := fun t => do
      let b ← Mem.idx hash (15 + 16 * t)
      Mem.upd hash (15 + 16 * t) ((b : Byte) &&& 0xF8)) (g := maskStep) 0 (q.digest / 16) kh (fun t h2 ys _ _ f2 k2 => by
        unfold maskStep
        exact Runs.val (runs_idx k2 _) fun m _ => runs_upd k2 _ _) _ (maskLoop_wide _ hlen q.digest hdl)
  have s4 : H4.spare .byte = H3.spare .byte := Quiet.each 0 _ (fun t => .bind (.idx _ _) fun b => .upd _ _ _) _ _ _ e4
  refine Maybe.step e4 (fun hw => hw.same s4) (Maybe.pure ⟨(F2.trans F3).write G4 (newer.mono F2 nh), ⟨_, k4, ?_, near_bytes P ht hdl header g.toNat hn⟩, ?_⟩)
  · rw [List.length_mapIdx, hlen]
  · intro hw
    exact ((hw2 (hw.same s1)).same s3).same s4

/-! ## Leaves and the whole function -/

/-- a part of the beginning of a slice -/
theorem runs_slc_take {t : Ty} {h : Heap} {s : Slice t} {bs : List t.Val} (k : Held h s bs) (D lo hi : Nat) :
    Runs (Mem.slc s lo hi) h (Go.slc (bs.take D) lo hi) fun a b h' => h' = h ∧ Held h a b := by
  intro b hb
  have hb' : Go.slc bs lo hi = .ok b := by
    unfold Go.slc at hb ⊢
    by_cases hc : lo ≤ hi ∧ hi ≤ (bs.take D).length
    · rw [if_pos hc, List.take_take] at hb
      rw [List.length_take] at hc
      rw [if_pos ⟨hc.1, by omega⟩]
      rw [Nat.min_eq_left (by omega)] at hb
      exact hb
    · rw [if_neg hc] at hb
      cases hb
  obtain ⟨a, h', e, q⟩ := runs_slc k lo hi b hb'
  exact ⟨a, h', e, q.1, q.2.2⟩

theorem maybe_newNode (h : (untwisted q).WF) (P : Prims) {H : Heap} {personal state : Slice .byte} {header : List Byte} (kp : Held H personal (pstate q))
    (ks : Held H state header) (ht : q.twist = true) (i : U32) (hi : i.toNat < 2 ^ 26) (fuel : Nat) (hf : 17 ≤ fuel) :
    Maybe (64 - q.digest) (newNode P fuel q.n q.k personal true state i) H
      (Equihash.newNode (plainPrims P q header) fuel q.n q.k (pstate q) false header i) fun x y h' =>
        Ended H Same x y h' ∧ (Wide (64 - q.digest) H → Wide (64 - q.digest) h') := by
  have hdl : q.digest ≤ 64 := h.digest_le
  have hper : 0 < q.per := per_pos (q := untwisted q) h
  unfold newNode Equihash.newNode
  refine Maybe.val Runs.lift fun per eper => ?_
  obtain rfl : q.per = per := Except.ok.inj ((per_eq h).symm.trans eper)
  refine Maybe.val Runs.lift fun g eg => ?_
  have hgd : g = i.toNat / q.per := by
    rw [divN, if_neg (by omega)] at eg
    exact (Except.ok.inj eg).symm
  have hg : g < 2 ^ 26 := by
    rw [hgd]
    exact Nat.lt_of_le_of_lt (Nat.div_le_self _ _) hi
  have hgn : (BitVec.ofNat 32 g).toNat = g := by rw [BitVec.toNat_ofNat, Nat.mod_eq_of_lt (by omega)]
  refine Maybe.val Runs.lift fun size esize => ?_
  obtain rfl : q.digest = size := Except.ok.inj ((hashOutput_eq h).symm.trans esize)
  have hl : Equihash.generateHash (plainPrims P q header) fuel header (pstate q) (BitVec.ofNat 32 g) q.digest false =
      .ok ((groupHash P q header g).take q.digest) := by
    unfold Equihash.generateHash
    rw [if_pos (by simp), ← rawHash_plain P ht hdl]
    have := blakeOff_eq (plainPrims P q header) h header (BitVec.ofNat 32 g)
    rw [hgn] at this
    exact this
  rw [hl]
  refine Maybe.bind (g := .ok ()) (l := fun _ => _) (maybe_generateHash h P ks kp ht (BitVec.ofNat 32 g) (by omega) fuel hf) fun hash _ H1 _ r => ⟨r.2.2, ?_⟩
  obtain ⟨F1, ⟨bs, kh, _, hb⟩, hw⟩ := r
  rw [hgn] at hb
  rw [← hb]
  dsimp only
  refine Maybe.bind (runs_slc_take kh q.digest _ _).maybe fun part b h' _ r => ?_
  obtain ⟨rfl, kr⟩ := r
  refine ⟨id, ?_⟩
  refine Maybe.val Runs.lift fun c _ => ?_
  refine Maybe.after (runs_expandArray kr c 0) (quiet_expandArray _ _ _) fun x y h2 _ s2 r => ?_
  have hw2 : Wide (64 - q.digest) H → Wide (64 - q.digest) h2 := fun w => (hw w).same s2
  cases x with
  | error e =>
    cases y with
    | ok b => exact r.elim
    | error e' => exact Maybe.pure ⟨⟨r.1, F1.trans r.2⟩, hw2⟩
  | ok a =>
    cases y with
    | error e' => exact r.elim
    | ok b =>
      dsimp only
      obtain ⟨ix, H2, e2, F2, kx, _⟩ := makes_lit h2 .word [i]
      have s3 := Quiet.lit .word [i] _ _ _ e2
      exact Maybe.step e2 (fun w => w.same s3) (Maybe.pure ⟨⟨(F1.trans r.1).trans F2, r.2.keep F2, kx⟩, fun w => (hw2 w).same s3⟩)

theorem maybe_verify (h : (untwisted q).WF) (P : Prims) (fuel : Nat) (hf : 17 ≤ fuel) {H : Heap} {personal header soln : Slice .byte} {hs ss : List Byte}
    (kp : Held H personal q.personal) (kh : Held H header hs) (ks : Held H soln ss) (h32 : ss.length < 2 ^ 32) (ht : q.twist = true) :
    Maybe (64 - q.digest) (verify P fuel q.n q.k personal header soln true) H
      (Equihash.verify (plainPrims P q hs) fuel q.n q.k q.personal hs ss false) fun a b h => a = b ∧ Frame H h Go.none := by
  unfold verify Equihash.verify
  have hps := pstate_eq h
  simp only at hps
  rw [show (untwisted q).personal.length = personal.len from kp.len, show (untwisted q).personal = q.personal from rfl] at hps
  rw [show q.personal.length = personal.len from kp.len]
  obtain ⟨st, H1, e1, F1, kt, nt⟩ := makes_make H .byte (personal.len + 8)
  refine Maybe.step e1 (fun w => w.same (Quiet.make _ _ _ _ _ e1)) ?_
  refine Maybe.after (runs_copy kt (kp.keep F1)) (.copy _ _) fun _ xs H2 c2 _ r => ?_
  obtain ⟨G, kt⟩ := r
  have F2 := F1.write G nt
  refine Maybe.after (runs_putU32 kt .little _ _) (.putU32 _ _ _ _) fun _ xs3 H3 c3 _ r => ?_
  obtain ⟨G, kt⟩ := r
  have F3 := F2.write G nt
  refine Maybe.after (runs_putU32 kt .little _ _) (.putU32 _ _ _ _) fun _ xs4 H4 c4 _ r => ?_
  obtain ⟨G, kt⟩ := r
  have F4 := F3.write G nt
  obtain rfl : pstate q = xs4 := by
    have c2' : Go.copyAt (List.replicate (personal.len + 8) (0 : Byte)) 0 q.personal = .ok xs := c2
    rw [c2', ok_bind] at hps
    have c3' : Go.putU32 .little xs personal.len (BitVec.ofNat 32 (untwisted q).n) = .ok xs3 := c3
    rw [c3', ok_bind] at hps
    have c4' : Go.putU32 .little xs3 (personal.len + 4) (BitVec.ofNat 32 (untwisted q).k) = .ok xs4 := c4
    rw [c4'] at hps
    exact (Except.ok.inj hps).symm
  refine Maybe.after (runs_indicesFromMinimal (ks.keep F4) q.n q.k) (quiet_indicesFromMinimal _ _ _) fun x y H5 c5 _ r => ?_
  cases x with
  | error e =>
    cases y with
    | ok b => exact r.elim
    | error e' =>
      obtain ⟨rfl, F⟩ := r
      exact Maybe.pure ⟨rfl, F4.trans F⟩
  | ok ix =>
    cases y with
    | error e' => exact r.elim
    | ok is =>
    obtain ⟨F5, ki⟩ := r
    have F5' := F4.trans F5
    have hsmall : ∀ v ∈ is, v.toNat < 2 ^ 26 := by
      have hd := decode_eq h ss h32
      have hd' : Equihash.indicesFromMinimal q.n q.k ss = _ := hd
      rw [hd'] at c5
      by_cases hl : ss.length = (untwisted q).solLen
      · rw [if_pos hl] at c5
        obtain rfl := Except.ok.inj (Except.ok.inj c5)
        intro v hv
        obtain ⟨i, hi, rfl⟩ := List.mem_map.1 hv
        have := indices_lt h ss i hi
        rw [BitVec.toNat_ofNat, Nat.mod_eq_of_lt (by omega)]
        exact this
      · rw [if_neg hl] at c5
        cases Except.ok.inj c5
    dsimp only
    rw [show is.length = ix.len from ki.len]
    refine Maybe.then (maybe_loopE (Rows H5) (fun e e' h => e = e' ∧ Frame H5 h Go.none) (ix.len - 0) 0 [] [] H5 ⟨Frame.refl _ _, .nil⟩ ?_) fun x y H6 _ q => ?_
    · rintro i rows rows' h1 _ _ ⟨F, r⟩
      unfold rowStep Equihash.rowStep
      refine Maybe.val (runs_idx (ki.keep F) i) fun v hv => ?_
      have hvm : v ∈ is := by
        unfold Go.idx at hv
        cases hc : is[i]? with
        | none => rw [hc] at hv; cases hv
        | some u =>
          rw [hc] at hv
          obtain rfl := Except.ok.inj hv
          exact List.mem_of_getElem? hc
      refine Maybe.bind (maybe_newNode h P ((kt.keep F5).keep F) ((kh.keep F5').keep F) ht v (hsmall v hvm) fuel hf) fun x y h2 _ s => ⟨s.2, ?_⟩
      obtain ⟨s, hw⟩ := s
      cases x with
      | error e =>
        cases y with
        | ok b => exact s.elim
        | error e' =>
          obtain ⟨rfl, G⟩ := s
          exact Maybe.pure ⟨hw, rfl, F.trans G⟩
      | ok m =>
        cases y with
        | error e' => exact s.elim
        | ok nd => exact Maybe.pure ⟨hw, F.trans s.1, forall₂_snoc (R := fun m n => Same m n h2) (same_all s.1 r) s.2⟩
    · cases x with
      | ret e =>
        cases y with
        | cont s => exact q.elim
        | ret e' =>
          obtain ⟨rfl, F⟩ := q
          exact Runs.pure ⟨rfl, F5'.trans F⟩
      | cont rows =>
        cases y with
        | ret e' => exact q.elim
        | cont rows' => exact (runs_finish H5 _ _ fuel q).post fun a b h _ r => ⟨r.1, F5'.trans r.2⟩

/-! ## Too little capacity -/

/-- a slice is out of range -/
def Stops {α : Type} (m : Mem α) (h : Heap) : Prop := ∃ h', m h = .error (.panic .slice, h')

theorem Stops.first {α β : Type} {m : Mem α} {k : α → Mem β} {h : Heap} (hm : Stops m h) : Stops (m >>= k) h := by
  obtain ⟨h', e⟩ := hm
  exact ⟨h', Mem.bind_error e⟩

theorem Stops.later {α β : Type} {m : Mem α} {k : α → Mem β} {h h' : Heap} {a : α} (hm : m h = .ok (a, h')) (hk : Stops (k a) h') : Stops (m >>= k) h := by
  obtain ⟨h'', e⟩ := hk
  exact ⟨h'', (Mem.bind_ok hm).trans e⟩

theorem stops_generateHash (h : (untwisted q).WF) (P : Prims) {H : Heap} {init personal : Slice .byte} {header : List Byte} (ki : Held H init header)
    (kp : Held H personal (pstate q)) (g : U32) (fuel : Nat) (hf : 1 ≤ fuel) (hs : (H.spare .byte 0).length < 64 - q.digest) :
    Stops (generateHash P fuel init personal g q.digest true) H := by
  unfold generateHash
  rw [if_neg (by simp)]
  obtain ⟨myHash, H1, e1, F1, km, nm⟩ := makes_make H .word 16
  have s1 := Quiet.make .word 16 _ _ _ e1
  refine Stops.later e1 (Stops.first ?_)
  obtain ⟨f, rfl⟩ : ∃ f, fuel = f + 1 := ⟨fuel - 1, by omega⟩
  have hle : g &&& 0xFFFFFFF0 ≤ g := by
    rw [start_eq, BitVec.le_def, BitVec.toNat_ofNat]
    have := g.isLt
    exact Nat.le_trans (Nat.mod_le _ _) (Nat.sub_le _ _)
  unfold Mem.forever
  refine Stops.first ?_
  unfold twistStep
  rw [if_pos hle]
  obtain ⟨tmp, h2, e2, F2, _, _, hcap, kt⟩ := digest_run h P (ki.keep F1) (kp.keep F1) (g &&& 0xFFFFFFF0)
  refine Stops.later e2 (Stops.first ?_)
  rw [s1] at hcap
  exact lanes_panic (ts := rawHash P q header (g &&& 0xFFFFFFF0).toNat ++ H1.spare .byte 0) (by omega)
    (by rw [List.length_append, show (rawHash P q header _).length = q.digest from rawHash_length P h header _, s1, hcap]) 16 0 h2 _ rfl (by omega) kt
    (km.keep F2) (by simp)

theorem stops_newNode (h : (untwisted q).WF) (P : Prims) {H : Heap} {personal state : Slice .byte} {header : List Byte} (kp : Held H personal (pstate q))
    (ks : Held H state header) (i : U32) (fuel : Nat) (hf : 1 ≤ fuel) (hs : (H.spare .byte 0).length < 64 - q.digest) :
    Stops (newNode P fuel q.n q.k personal true state i) H := by
  have hper : 0 < q.per := per_pos (q := untwisted q) h
  have e1 : indicesPerHashOutput q.n = .ok q.per := per_eq (q := untwisted q) h
  have e2 : divN i.toNat q.per = .ok (i.toNat / q.per) := by rw [divN, if_neg (by omega)]
  have e3 : hashOutput q.n = .ok q.digest := hashOutput_eq (q := untwisted q) h
  unfold newNode
  refine Stops.later (a := q.per) (h' := H) (by rw [e1]; rfl) ?_
  refine Stops.later (a := i.toNat / q.per) (h' := H) (by rw [e2]; rfl) ?_
  refine Stops.later (a := q.digest) (h' := H) (by rw [e3]; rfl) ?_
  exact Stops.first (stops_generateHash h P ks kp _ fuel hf hs)

theorem stops_verify (h : (untwisted q).WF) (P : Prims) (fuel : Nat) (hf : 1 ≤ fuel) {H : Heap} {personal header soln : Slice .byte} {hs ss : List Byte}
    (kp : Held H personal q.personal) (kh : Held H header hs) (ks : Held H soln ss) (hl : ss.length = q.solLen)
    (hsp : (H.spare .byte 0).length < 64 - q.digest) : Stops (verify P fuel q.n q.k personal header soln true) H := by
  have hn : q.n ≤ 512 := h.n_hi
  have hk : q.k < 32 := wf_k (q := untwisted q) h
  have hpl : q.personal.length = personal.len := kp.len
  have h32 : ss.length < 2 ^ 32 := by
    have := h.small
    rw [hl]
    unfold Params.solLen
    exact Nat.lt_of_le_of_lt (Nat.div_le_self _ _) (show 2 ^ q.k * (q.c + 1) < 2 ^ 32 from by
      have : 4 * (2 ^ q.k * (q.c + 1)) < 2 ^ 32 := this
      omega)
  unfold verify
  obtain ⟨st, H1, e1, F1, kt, nt⟩ := makes_make H .byte (personal.len + 8)
  refine Stops.later e1 ?_
  obtain ⟨_, H2, e2, G, kt⟩ := runs_copy kt (kp.keep F1) _ (show Go.copyAt (List.replicate (personal.len + 8) (0 : Byte)) 0 q.personal = .ok _ by
    rw [← hpl]; exact copy_zero q.personal 8)
  refine Stops.later e2 ?_
  have F2 := F1.write G nt
  obtain ⟨_, H3, e3, G, kt⟩ := runs_putU32 kt .little personal.len (BitVec.ofNat 32 q.n) _ (by rw [← hpl]; exact put_le q.personal 4 8 rfl _)
  refine Stops.later e3 ?_
  have F3 := F2.write G nt
  obtain ⟨_, H4, e4, G, kt⟩ := runs_putU32 kt .little (personal.len + 4) (BitVec.ofNat 32 q.k) (pstate q) (by
    have e : personal.len + 4 = (q.personal ++ leEncode 4 (BitVec.ofNat 32 q.n).toNat).length := by simp [hpl]
    rw [e, put_le _ 0 4 rfl]
    simp only [BitVec.toNat_ofNat, Nat.mod_eq_of_lt (show q.n < 2 ^ 32 by omega), Nat.mod_eq_of_lt (show q.k < 2 ^ 32 by omega),
      List.replicate_zero, List.append_nil]
    rfl)
  refine Stops.later e4 ?_
  have F4 := F3.write G nt
  have hdec : Equihash.indicesFromMinimal q.n q.k ss = .ok (.ok ((indices q ss).map (BitVec.ofNat 32))) := by
    have := decode_eq h ss h32
    rw [if_pos (show ss.length = (untwisted q).solLen from hl)] at this
    exact this
  obtain ⟨x, H5, e5, r⟩ := runs_indicesFromMinimal (ks.keep F4) q.n q.k _ hdec
  refine Stops.later e5 ?_
  cases x with
  | error e => exact r.elim
  | ok ix =>
    obtain ⟨F5, ki⟩ := r
    have s1 := Quiet.make _ _ _ _ _ e1
    have s2 := Quiet.copy _ _ _ _ _ e2
    have s3 := Quiet.putU32 _ _ _ _ _ _ _ e3
    have s4 := Quiet.putU32 _ _ _ _ _ _ _ e4
    have s5 := quiet_indicesFromMinimal _ _ _ _ _ _ e5
    have hs5 : H5.spare .byte = H.spare .byte := s5.trans (s4.trans (s3.trans (s2.trans s1)))
    dsimp only
    have hix : ix.len = 2 ^ q.k := by
      rw [← ki.len, List.length_map, indices_length]
    have hpos : 0 < 2 ^ q.k := Nat.pow_pos (by omega)
    refine Stops.first ?_
    unfold Mem.forRangeE
    obtain ⟨c, hc⟩ : ∃ c, ix.len - 0 = c + 1 := ⟨ix.len - 1, by omega⟩
    rw [hc]
    unfold Mem.loopE
    refine Stops.first ?_
    unfold rowStep
    have hv : ∃ v, Go.idx ((indices q ss).map (BitVec.ofNat 32)) 0 = .ok v := by
      unfold Go.idx
      rw [List.getElem?_eq_getElem (by rw [List.length_map, indices_length]; exact hpos)]
      exact ⟨_, rfl⟩
    obtain ⟨v, hv⟩ := hv
    obtain ⟨v', H6, e6, rfl, rfl⟩ := runs_idx ki 0 v hv
    refine Stops.later e6 (Stops.first ?_)
    exact stops_newNode h P (kt.keep F5) (kh.keep (F4.trans F5)) v' fuel hf (by rw [hs5]; exact hsp)

end Verif.Equihash.InMem
