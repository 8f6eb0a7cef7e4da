import Verif.Model.InMem.Beam
import Verif.Proof.InMem.Equihash

/-! # BeamHash III with memory -/

set_option autoImplicit false

namespace Verif.Beam.InMem

open Go Convutil.InMem Crypto.InMem
open Equihash.InMem (append_two forall₂_snoc)

/-- the package variables have the values that they are initialised with -/
structure Masks (h : Heap) (G : Globals) : Prop where
  index : Held h G.indexMask [Beam.indexMask]
  collision : Held h G.collisionMask [Beam.collisionMask]
  mix : Held h G.mixMask [Beam.mixMask]

theorem Masks.keep {h h' : Heap} {G : Globals} (m : Masks h G) (F : Frame h h' Go.none) : Masks h' G := ⟨m.index.keep F, m.collision.keep F, m.mix.keep F⟩

/-! ## `big.Int` -/

/-- `m` overwrites `z` with `v` -/
def Sets (m : Mem Unit) (h : Heap) (z : Big) (v : Nat) : Prop := ∃ h', m h = .ok ((), h') ∧ Frame h h' (only z) ∧ Held h' z [v]

theorem val_ok {h : Heap} {x : Big} {a : Nat} (kx : Held h x [a]) : val x h = .ok (a, h) := idx_zero kx

theorem set_ok {h : Heap} {z : Big} {c : Nat} (kz : Held h z [c]) (v : Nat) : Sets (set z v) h z v := upd_zero kz v

theorem and_ok {h : Heap} {z x y : Big} {c a b : Nat} (kz : Held h z [c]) (kx : Held h x [a]) (ky : Held h y [b]) : Sets (and z x y) h z (a &&& b) := by
  unfold and Sets
  rw [Mem.bind_ok (val_ok kx), Mem.bind_ok (val_ok ky)]
  exact set_ok kz _

theorem or_ok {h : Heap} {z x y : Big} {c a b : Nat} (kz : Held h z [c]) (kx : Held h x [a]) (ky : Held h y [b]) : Sets (or z x y) h z (a ||| b) := by
  unfold or Sets
  rw [Mem.bind_ok (val_ok kx), Mem.bind_ok (val_ok ky)]
  exact set_ok kz _

theorem xor_ok {h : Heap} {z x y : Big} {c a b : Nat} (kz : Held h z [c]) (kx : Held h x [a]) (ky : Held h y [b]) : Sets (xor z x y) h z (a ^^^ b) := by
  unfold xor Sets
  rw [Mem.bind_ok (val_ok kx), Mem.bind_ok (val_ok ky)]
  exact set_ok kz _

theorem rsh_ok {h : Heap} {z x : Big} {c a : Nat} (kz : Held h z [c]) (kx : Held h x [a]) (n : Nat) : Sets (rsh z x n) h z (a >>> n) := by
  unfold rsh Sets
  rw [Mem.bind_ok (val_ok kx)]
  exact set_ok kz _

theorem lsh_ok {h : Heap} {z x : Big} {c a : Nat} (kz : Held h z [c]) (kx : Held h x [a]) (n : Nat) : Sets (lsh z x n) h z (a <<< n) := by
  unfold lsh Sets
  rw [Mem.bind_ok (val_ok kx)]
  exact set_ok kz _

/-- a statement that overwrites a `big.Int` -/
theorem Sets.bind {γ δ : Type} {m : Mem Unit} {k : Unit → Mem γ} {h : Heap} {z : Big} {v : Nat} {g : Go δ} {Q : γ → δ → Heap → Prop} (hm : Sets m h z v)
    (hk : ∀ h', Frame h h' (only z) → Held h' z [v] → Runs (k ()) h' g Q) : Runs (m >>= k) h g Q := by
  obtain ⟨h', e, F, kz⟩ := hm
  exact Runs.heap e (hk h' F kz)

/-- `new(big.Int)` followed by other statements -/
theorem new_bind {γ δ : Type} {k : Big → Mem γ} {h : Heap} {v : Nat} {g : Go δ} {Q : γ → δ → Heap → Prop}
    (hk : ∀ z h', Frame h h' Go.none → Held h' z [v] → newer h .big z.arr → Runs (k z) h' g Q) : Runs (new v >>= k) h g Q := by
  obtain ⟨z, h', e, F, kz, nz⟩ := makes_lit h .big [v]
  exact Runs.heap e (hk z h' F kz nz)

theorem Sets.runs {m : Mem Unit} {h : Heap} {z : Big} {v : Nat} {β : Type} {b : β} {Q : Unit → β → Heap → Prop} (hm : Sets m h z v)
    (hq : ∀ h', Frame h h' (only z) → Held h' z [v] → Q () b h') : Runs m h (.ok b) Q := by
  obtain ⟨h', e, F, kz⟩ := hm
  intro c hc
  obtain rfl := Except.ok.inj hc
  exact ⟨(), h', e, hq h' F kz⟩

/-! ## The functions -/

theorem builds_reverseBytes {H : Heap} {b : Slice .byte} {bs : List Byte} (kb : Held H b bs) : Builds (reverseBytes b) H (Beam.reverseBytes bs) := by
  unfold reverseBytes Beam.reverseBytes
  obtain ⟨c, H1, e1, F1, kc, nc⟩ := makes_make H .byte b.len
  refine Runs.heap e1 ?_
  obtain ⟨u, H2, e2, G2, kc⟩ := runs_copy kc (kb.keep F1) bs (by
    unfold Go.copyAt
    rw [if_pos (Nat.zero_le _)]
    refine congrArg Except.ok ?_
    rw [List.take_zero, List.length_replicate, List.nil_append, ← kb.len, Nat.sub_zero, List.take_length, Nat.zero_add, List.drop_eq_nil_of_le (by simp), List.append_nil])
  refine Runs.heap e2 ?_
  rw [show bs.length = c.len from kc.len]
  refine Writes.ret ?_ (F1.write G2 nc) nc
  refine runs_each 0 _ kc fun i h1 zs _ _ f1 k1 => ?_
  unfold swapStep
  rw [show zs.length = c.len from k1.len]
  refine Runs.val (runs_idx k1 _) fun _ _ => ?_
  refine Runs.val (runs_idx k1 _) fun _ _ => ?_
  refine (runs_upd k1 _ _).bind fun b h2 _ G k2 => ?_
  rw [show b.length = c.len from k2.len]
  exact Runs.post (runs_upd k2 _ _) fun _ _ _ _ q => ⟨G.trans q.1, q.2⟩

theorem builds_indicesFromMinimal {H : Heap} {G : Globals} {soln : Slice .byte} {ss : List Byte} (kG : Masks H G) (ks : Held H soln ss) :
    Builds (indicesFromMinimal G soln) H (Beam.indicesFromMinimal ss) := by
  unfold indicesFromMinimal Beam.indicesFromMinimal
  refine runs_slc_bind ks _ _ fun head _ _ _ kd => ?_
  refine Runs.bind (builds_reverseBytes kd) fun rev rs H1 _ q => ?_
  obtain ⟨F1, kr, _⟩ := q
  refine Runs.heap (contents_ok kr) (new_bind fun z H2 F2 kz nz => ?_)
  obtain ⟨ix, H3, e3, F3, kx, nx⟩ := makes_make H2 .word 32
  refine Runs.heap e3 ?_
  have F2' := F1.trans F2
  have F3' := F2'.trans F3
  have nz' := newer.mono F1 nz
  have nx' := newer.mono F2' nx
  refine Runs.last (k := fun _ => ix) (Q := fun _ (b : Nat × List U32) h => Frame H h Go.none ∧ Held h z [b.1] ∧ Held h ix b.2) ?_ fun _ b h _ q => ⟨q.1, q.2.2, nx'⟩
  unfold Mem.each
  refine runs_forRange (fun _ (b : Nat × List U32) h => Frame H h Go.none ∧ Held h z [b.1] ∧ Held h ix b.2) 0 32 _ _ H3 ⟨F3', kz.keep F3, kx⟩ ?_
  rintro i _ ⟨st, is⟩ h _ _ ⟨F, k1, k2⟩
  unfold indexStep
  dsimp only at k1 k2 ⊢
  refine new_bind fun t h1 F1 kt nt => ?_
  have hne : z.arr ≠ t.arr := k1.ne nt F1
  refine (and_ok kt (k1.keep F1) ((kG.keep (F.trans F1)).index)).bind fun h2 G2 kt => ?_
  have F2 := (F.trans F1).write G2 (newer.mono F nt)
  refine Runs.heap (val_ok kt) ?_
  have k12 := (k1.keep F1).other G2 (Or.inr hne)
  have k22 := (k2.keep F1).other G2 (Or.inl (by decide))
  refine (runs_upd k22 _ _).bind fun is h3 _ G3 k23 => ?_
  have F3 := F2.write G3 nx'
  have k13 := k12.other G3 (Or.inl (by decide))
  exact (rsh_ok k13 k13 25).runs fun h4 G4 k14 => ⟨F3.write G4 nz', k14, k23.other G4 (Or.inl (by decide))⟩

/-- a node of the model with memory, and the node that it stands for -/
def Same (m : Node) (n : Beam.Node) (h : Heap) : Prop := Held h m.bitset [n.bitset] ∧ Held h m.indices n.indices

theorem Same.keep {m : Node} {n : Beam.Node} {h h' : Heap} (q : Same m n h) (F : Frame h h' Go.none) : Same m n h' := ⟨q.1.keep F, q.2.keep F⟩

theorem runs_newNode {H : Heap} {prePow : Slice .dword} {ps : List U64} (kp : Held H prePow ps) (ix : U32) :
    Runs (newNode prePow ix) H (Beam.newNode ps ix) fun m n h => Frame H h Go.none ∧ Same m n h ∧ newer H .big m.bitset.arr := by
  unfold newNode Beam.newNode
  refine new_bind fun z H1 F1 kz nz => ?_
  refine Runs.bind (Q := fun _ (b : Nat) h => Frame H h Go.none ∧ Held h z [b]) ?_ fun _ b h _ q => ?_
  · unfold Mem.each
    refine runs_forRange (fun _ (b : Nat) h => Frame H h Go.none ∧ Held h z [b]) 0 7 _ _ H1 ⟨F1, kz⟩ ?_
    rintro t _ b h _ _ ⟨F, k⟩
    unfold wordStep Beam.wordStep
    refine (lsh_ok k k 64).bind fun h1 G1 kb => ?_
    have F1 := F.write G1 nz
    have kp1 := kp.keep F1
    refine Runs.val (runs_idx kp1 _) fun k0 _ => ?_
    refine Runs.val (runs_idx kp1 _) fun k1 _ => ?_
    refine Runs.val (runs_idx kp1 _) fun k2 _ => ?_
    refine Runs.val (runs_idx kp1 _) fun k3 _ => ?_
    refine new_bind fun v h2 F2 kv nv => ?_
    have kb := kb.keep F2
    exact (or_ok kb kb kv).runs fun h3 G3 k3 => ⟨(F1.trans F2).write G3 nz, k3⟩
  · obtain ⟨F, k⟩ := q
    obtain ⟨is, h2, e2, F2, k2, _⟩ := makes_lit h .word [ix]
    exact Runs.heap e2 (Runs.pure ⟨F.trans F2, ⟨k.keep F2, k2⟩, nz⟩)

theorem fill_ok {H : Heap} {s : Slice .byte} {xs : List Byte} (ks : Held H s xs) :
    Writes (Mem.each 0 s.len fun i => Mem.upd s i (0xFF : Byte)) H s (.ok (List.replicate s.len (0xFF : Byte))) := by
  have hw : Writes (Mem.each 0 s.len fun i => Mem.upd s i (0xFF : Byte)) H s (Go.forRange 0 s.len xs fun i b => Go.upd b i (0xFF : Byte)) :=
    runs_each 0 _ ks fun i h1 ys _ _ f1 k1 => runs_upd k1 _ _
  have hl := ks.len
  have : ∀ n i (zs : List Byte), i + n = zs.length → Go.loop n i zs (fun i b => Go.upd b i (0xFF : Byte)) = .ok (zs.take i ++ List.replicate n (0xFF : Byte)) := by
    intro n
    induction n with
    | zero =>
      intro i zs h
      rw [List.replicate_zero, List.append_nil, List.take_of_length_le (by omega)]
      rfl
    | succ n ih =>
      intro i zs h
      unfold Go.loop
      have hu : Go.upd zs i (0xFF : Byte) = .ok (zs.set i 0xFF) := by
        unfold Go.upd
        rw [if_pos (by omega)]
      show (Go.upd zs i (0xFF : Byte) >>= fun s' => Go.loop n (i + 1) s' _) = _
      rw [hu]
      show Go.loop n (i + 1) (zs.set i 0xFF) _ = _
      rw [ih (i + 1) _ (by rw [List.length_set]; omega)]
      refine congrArg Except.ok ?_
      rw [List.replicate_succ, List.take_add_one, List.getElem?_set_self (by omega), List.take_set_of_le (Nat.le_refl _)]
      simp
  unfold Go.forRange at hw
  rw [this (s.len - 0) 0 xs (by omega), List.take_zero, List.nil_append, Nat.sub_zero] at hw
  exact hw

theorem runs_newNodeFromChildrenRef {H : Heap} {a b : Node} {a' b' : Beam.Node} (ha : Same a a' H) (hb : Same b b' H) (remLen : U32) :
    Runs (newNodeFromChildrenRef a b remLen) H (Beam.newNodeFromChildrenRef a' b' remLen)
      fun m n h => Frame H h Go.none ∧ Same m n h ∧ newer H .big m.bitset.arr := by
  unfold newNodeFromChildrenRef Beam.newNodeFromChildrenRef
  dsimp only
  refine new_bind fun w H1 F1 kw nw => ?_
  refine (xor_ok kw (ha.1.keep F1) (hb.1.keep F1)).bind fun H2 G2 kw => ?_
  refine (rsh_ok kw kw 24).bind fun H3 G3 kw => ?_
  have F3 := (F1.write G2 nw).write G3 nw
  obtain ⟨rm, H4, e4, F4, kr, nr⟩ := makes_make H3 .byte 56
  refine Runs.heap e4 ?_
  have hlen : rm.len = 56 := by rw [← kr.len, List.length_replicate]
  obtain ⟨u, H5, e5, G5, kr⟩ := fill_ok kr _ rfl
  refine Runs.heap e5 ?_
  have F4' := F3.trans F4
  have F5 := F4'.write G5 (newer.mono F3 nr)
  rw [hlen] at kr
  refine Runs.heap (contents_ok kr) ?_
  have kw5 := (kw.keep F4).other G5 (Or.inl (by decide))
  refine new_bind fun mb H6 F6 km nm => ?_
  have hne : w.arr ≠ mb.arr := kw5.ne nm F6
  refine (rsh_ok km km _).bind fun H7 G7 km => ?_
  have F7 := (F5.trans F6).write G7 (newer.mono F5 nm)
  have kw7 := (kw5.keep F6).other G7 (Or.inr hne)
  refine (and_ok kw7 kw7 km).bind fun H8 G8 kw8 => ?_
  have F8 := F7.write G8 nw
  obtain ⟨ix, H9, e9, F9, kx, nx⟩ := makes_make H8 .word 0
  refine Runs.heap e9 ?_
  have F9' := F8.trans F9
  refine Runs.val (runs_idx (ha.keep F9').2 0) fun a0 _ => ?_
  refine Runs.val (runs_idx (hb.keep F9').2 0) fun b0 _ => ?_
  have nx' : newer H .word ix.arr := newer.mono F8 nx
  by_cases hc : a0 < b0
  · rw [if_pos hc, if_pos hc]
    obtain ⟨q, r, h4, h5, e4, e5, F5, kr, G⟩ := append_two F9' kx nx' ha.2 hb.2
    refine Runs.heap e4 (Runs.heap e5 (Runs.pure ⟨F5, ⟨?_, kr⟩, nw⟩))
    refine (kw8.keep F9).frame G fun q => ?_
    rcases q.2 with q | q
    · cases q.1
    · exact (kw8.keep F9).old q
  · rw [if_neg hc, if_neg hc]
    obtain ⟨q, r, h4, h5, e4, e5, F5, kr, G⟩ := append_two F9' kx nx' hb.2 ha.2
    refine Runs.heap e4 (Runs.heap e5 (Runs.pure ⟨F5, ⟨?_, kr⟩, nw⟩))
    refine (kw8.keep F9).frame G fun q => ?_
    rcases q.2 with q | q
    · cases q.1
    · exact (kw8.keep F9).old q

theorem runs_validateSubtrees {H : Heap} {G : Globals} (kG : Masks H G) {a b : Node} {a' b' : Beam.Node} (ha : Same a a' H) (hb : Same b b' H) :
    Runs (validateSubtrees G a b) H (Beam.validateSubtrees a' b') fun x y h => x = y ∧ Frame H h Go.none := by
  unfold validateSubtrees Beam.validateSubtrees
  dsimp only
  refine new_bind fun ma H1 F1 ka na => ?_
  refine (and_ok ka (ha.keep F1).1 (kG.keep F1).collision).bind fun H2 G2 ka => ?_
  have F2 := F1.write G2 na
  refine new_bind fun mb H3 F3 kb nb => ?_
  have hne : ma.arr ≠ mb.arr := ka.ne nb F3
  have F3' := F2.trans F3
  refine (and_ok kb (hb.keep F3').1 (kG.keep F3').collision).bind fun H4 G4 kb => ?_
  have F4 := F3'.write G4 (newer.mono F2 nb)
  have ka4 := (ka.keep F3).other G4 (Or.inr hne)
  refine Runs.heap (val_ok ka4) (Runs.heap (val_ok kb) ?_)
  by_cases hc : a'.bitset &&& Beam.collisionMask ≠ b'.bitset &&& Beam.collisionMask
  · rw [if_pos hc, if_pos hc]
    exact Runs.pure ⟨rfl, F4⟩
  rw [if_neg hc, if_neg hc]
  have ha4 := ha.keep F4
  have hb4 := hb.keep F4
  refine Runs.val (runs_idx hb4.2 _) fun b0 _ => ?_
  refine Runs.val (runs_idx ha4.2 _) fun a0 _ => ?_
  by_cases hc : b0 < a0
  · rw [if_pos hc, if_pos hc]
    exact Runs.pure ⟨rfl, F4⟩
  rw [if_neg hc, if_neg hc]
  refine Runs.heap (contents_ok ha4.2) (Runs.heap (contents_ok hb4.2) ?_)
  by_cases hd : (a'.indices.any fun i => b'.indices.any fun j => i == j) = true
  · rw [if_pos hd, if_pos hd]
    exact Runs.pure ⟨rfl, F4⟩
  · rw [if_neg hd, if_neg hd]
    exact Runs.pure ⟨rfl, F4⟩

theorem runs_applyMix {H : Heap} {G : Globals} (kG : Masks H G) {a : Node} {a' : Beam.Node} (ha : Same a a' H) (remLen : U32) :
    Runs (applyMix G a remLen) H (Beam.applyMix a' remLen) fun _ n h => Frame H h (only a.bitset) ∧ Same a n h := by
  unfold applyMix Beam.applyMix
  dsimp only
  rw [show a'.indices.length = a.indices.len from ha.2.len]
  refine new_bind fun tb H1 F1 kt nt => ?_
  refine Runs.heap (val_ok (ha.keep F1).1) ?_
  refine (set_ok kt _).bind fun H2 G2 kt => ?_
  have F2 := F1.write G2 nt
  refine Runs.bind (Q := fun _ (b : Nat) h => Frame H h Go.none ∧ Held h tb [b]) ?_ fun _ b H3 _ q => ?_
  · unfold Mem.each
    refine runs_forRange (fun _ (b : Nat) h => Frame H h Go.none ∧ Held h tb [b]) 0 _ _ _ H2 ⟨F2, kt⟩ ?_
    rintro i _ b h _ _ ⟨F, k⟩
    unfold padStep Beam.padStep
    refine Runs.val (runs_idx (ha.keep F).2 i) fun v _ => ?_
    refine new_bind fun tmp h1 F1 km nm => ?_
    have hne : tb.arr ≠ tmp.arr := k.ne nm F1
    refine (lsh_ok km km _).bind fun h2 G2 km => ?_
    have k2 := (k.keep F1).other G2 (Or.inr hne)
    exact (or_ok k2 k2 km).runs fun h3 G3 k3 => ⟨((F.trans F1).write G2 (newer.mono F nm)).write G3 nt, k3⟩
  · obtain ⟨F3, kt⟩ := q
    refine Runs.bind (Q := fun x (b : Nat × U64) h => x = b.2 ∧ Frame H h Go.none ∧ Held h tb [b.1]) ?_ fun x b H4 _ q => ?_
    · refine runs_forRange (fun x (b : Nat × U64) h => x = b.2 ∧ Frame H h Go.none ∧ Held h tb [b.1]) 0 _ _ _ H3 ⟨rfl, F3, kt⟩ ?_
      rintro i _ ⟨t, r⟩ h _ _ ⟨rfl, F, k⟩
      unfold mixStep Beam.mixStep
      dsimp only at k ⊢
      refine new_bind fun t h1 F1 km nm => ?_
      have hne : tb.arr ≠ t.arr := k.ne nm F1
      refine (and_ok km (k.keep F1) (kG.keep (F.trans F1)).mix).bind fun h2 G2 km => ?_
      have F2 := (F.trans F1).write G2 (newer.mono F nm)
      have k2 := (k.keep F1).other G2 (Or.inr hne)
      refine Runs.heap (val_ok km) ?_
      refine (rsh_ok k2 k2 64).bind fun h3 G3 k3 => ?_
      exact Runs.pure ⟨rfl, F2.write G3 nt, k3⟩
    · obtain ⟨rfl, F4, _⟩ := q
      refine new_bind fun rb H5 F5 kr nr => ?_
      have F5' := F4.trans F5
      have ha5 := ha.keep F5'
      have hne : rb.arr ≠ a.bitset.arr := ((ha.keep F4).1.ne nr F5).symm
      refine (rsh_ok ha5.1 ha5.1 64).bind fun H6 G6 k6 => ?_
      refine (lsh_ok k6 k6 64).bind fun H7 G7 k7 => ?_
      have kr7 := (kr.other G6 (Or.inr hne)).other G7 (Or.inr hne)
      have G := ((F5'.none_only (only a.bitset)).trans G6).trans G7
      exact (or_ok k7 k7 kr7).runs fun H8 G8 k8 =>
        ⟨G.trans G8, k8, ((ha5.2.other G6 (Or.inl (by decide))).other G7 (Or.inl (by decide))).other G8 (Or.inl (by decide))⟩

theorem builds_initializePrePow (P : Prims) {H : Heap} {personal header soln : Slice .byte} {ps hs ss : List Byte} (kp : Held H personal ps) (kh : Held H header hs)
    (ks : Held H soln ss) : Builds (initializePrePow P personal header soln) H (Beam.initializePrePow P ps hs ss) := by
  unfold initializePrePow Beam.initializePrePow
  rw [show ps.length = personal.len from kp.len, show hs.length = header.len from kh.len, show ss.length = soln.len from ks.len]
  refine (makes_make H .byte (personal.len + 8)).bind fun st H1 F1 kt nt => ?_
  refine (runs_copy kt (kp.keep F1)).bind fun xs H2 _ G kt => ?_
  have F2 := F1.write G nt
  refine (runs_putU32 kt .little _ _).bind fun xs H3 _ G kt => ?_
  have F3 := F2.write G nt
  refine (runs_putU32 kt .little _ _).bind fun xs H4 _ G kt => ?_
  have F4 := F3.write G nt
  refine (makes_make H4 .byte (header.len + 4)).bind fun sa H5 F5 ka na => ?_
  have hne : st.arr ≠ sa.arr := kt.ne na F5
  have na' := newer.mono F4 na
  have F5 := F4.trans F5
  rename_i F5o
  refine (runs_copy ka (kh.keep F5)).bind fun ys H6 _ G6 ka => ?_
  have F6 := F5.write G6 na'
  refine runs_slc_bind (ks.keep F6) _ _ fun tail _ _ _ kl => ?_
  refine Runs.val (runs_getU32 kl .little) fun nonce _ => ?_
  refine (runs_putU32 ka .little _ _).bind fun ys H7 _ G7 ka => ?_
  have F7 := F6.write G7 na'
  have kt7 := ((kt.keep F5o).other G6 (Or.inr hne)).other G7 (Or.inr hne)
  refine Runs.bind (builds_blake2b P ka kt7 32) fun hash zs H8 _ q => ?_
  obtain ⟨F8, k1, _⟩ := q
  have F8 := F7.trans F8
  refine runs_slc_bind k1 _ _ fun r _ _ _ kr => ?_
  refine Runs.val (runs_getU64 kr .little) fun s0 _ => ?_
  refine runs_slc_bind k1 _ _ fun r _ _ _ kr => ?_
  refine Runs.val (runs_getU64 kr .little) fun s1 _ => ?_
  refine runs_slc_bind k1 _ _ fun r _ _ _ kr => ?_
  refine Runs.val (runs_getU64 kr .little) fun s2 _ => ?_
  refine runs_slc_bind k1 _ _ fun r _ _ _ kr => ?_
  refine Runs.val (runs_getU64 kr .little) fun s3 _ => ?_
  intro b hb
  obtain ⟨a, h', e, F, k, n⟩ := (makes_lit H8 .dword [s0, s1, s2, s3]).builds b hb
  exact ⟨a, h', e, F8.trans F, k, newer.mono F8 n⟩

/-- the rows in use correspond, have a `bitset` each that the others do not share, and nothing that existed before has been written -/
structure Rows (H : Heap) (ms : List Node) (ns : List Beam.Node) (h : Heap) : Prop where
  frame : Frame H h Go.none
  same : List.Forall₂ (fun m n => Same m n h) ms ns
  newer : ∀ m ∈ ms, newer H .big m.bitset.arr
  apart : (ms.map fun m => m.bitset.arr).Nodup

theorem same_all {ms : List Node} {ns : List Beam.Node} {h h' : Heap} (F : Frame h h' Go.none) (q : List.Forall₂ (fun m n => Same m n h) ms ns) :
    List.Forall₂ (fun m n => Same m n h') ms ns := q.imp fun _ _ q => q.keep F

theorem same_other {ms : List Node} {ns : List Beam.Node} {h h' : Heap} {z : Big} (F : Frame h h' (only z)) (hz : z.arr ∉ ms.map fun m => m.bitset.arr)
    (q : List.Forall₂ (fun m n => Same m n h) ms ns) : List.Forall₂ (fun m n => Same m n h') ms ns := by
  induction q with
  | nil => exact .nil
  | cons r _ ih =>
    rw [List.map_cons, List.mem_cons, not_or] at hz
    exact .cons ⟨r.1.other F (Or.inr (Ne.symm hz.1)), r.2.other F (Or.inl (by decide))⟩ (ih hz.2)

theorem old_all {ms : List Node} {ns : List Beam.Node} {h : Heap} (q : List.Forall₂ (fun m n => Same m n h) ms ns) :
    ∀ x ∈ ms.map (fun m => m.bitset.arr), ¬ Go.newer h .big x := by
  induction q with
  | nil => intro x hx; cases hx
  | cons r _ ih =>
    intro x hx
    rw [List.map_cons, List.mem_cons] at hx
    rcases hx with rfl | hx
    · exact r.1.old
    · exact ih x hx

/-- a row made later -/
theorem Rows.snoc {H h h' : Heap} {ms : List Node} {ns : List Beam.Node} {m : Node} {n : Beam.Node} (q : Rows H ms ns h) (F : Frame h h' Go.none) (r : Same m n h')
    (hn : Go.newer h .big m.bitset.arr) : Rows H (ms ++ [m]) (ns ++ [n]) h' := by
  refine ⟨q.frame.trans F, forall₂_snoc (R := fun m n => Same m n h') (same_all F q.same) r, ?_, ?_⟩
  · intro x hx
    rw [List.mem_append, List.mem_singleton] at hx
    rcases hx with hx | rfl
    · exact q.newer x hx
    · exact Go.newer.mono q.frame hn
  · rw [List.map_append, List.nodup_append]
    refine ⟨q.apart, by simp, ?_⟩
    intro x hx y hy hxy
    rw [List.map_singleton, List.mem_singleton] at hy
    subst hxy hy
    exact old_all q.same _ hx hn

theorem pairs_combine {H : Heap} {G : Globals} (kG : Masks H G) (round : U32) :
    Pairing.InMem.Pairs (Rows H) (fun h => Frame H h Go.none) (combine G round) (Beam.combine round) := by
  rintro a b rest a' b' rest' h ⟨F, q, hn, hd⟩
  cases q with
  | cons ha q =>
  cases q with
  | cons hb q =>
  rw [List.map_cons, List.map_cons, List.nodup_cons, List.nodup_cons, List.mem_cons, not_or] at hd
  obtain ⟨⟨hab, har⟩, hbr, hdr⟩ := hd
  unfold combine Beam.combine
  refine Runs.bind (runs_applyMix (kG.keep F) ha _) fun _ a' h1 _ r => ?_
  obtain ⟨G1, ha⟩ := r
  have F1 := F.write G1 (hn a (List.mem_cons_self ..))
  have hb : Same b b' h1 := ⟨hb.1.other G1 (Or.inr (Ne.symm hab)), hb.2.other G1 (Or.inl (by decide))⟩
  have q := same_other G1 har q
  refine Runs.bind (runs_applyMix (kG.keep F1) hb _) fun _ b' h2 _ r => ?_
  obtain ⟨G2, hb⟩ := r
  have F2 := F1.write G2 (hn b (List.mem_cons_of_mem _ (List.mem_cons_self ..)))
  have ha : Same a a' h2 := ⟨ha.1.other G2 (Or.inr hab), ha.2.other G2 (Or.inl (by decide))⟩
  have q := same_other G2 hbr q
  refine Runs.bind (runs_validateSubtrees (kG.keep F2) ha hb) fun o _ h3 _ r => ?_
  obtain ⟨rfl, F3⟩ := r
  have F3' := F2.trans F3
  cases o with
  | some e => exact Runs.pure ⟨rfl, F3'⟩
  | none =>
    dsimp only
    refine Runs.last (runs_newNodeFromChildrenRef (ha.keep F3) (hb.keep F3) _) fun m n h' _ r => ?_
    exact Rows.snoc ⟨F3', same_all F3 q, fun m hm => hn m (List.mem_cons_of_mem _ (List.mem_cons_of_mem _ hm)), hdr⟩ r.1 r.2.1 r.2.2

theorem runs_verify (P : Prims) (fuel : Nat) {H : Heap} {G : Globals} (kG : Masks H G) {personal header soln : Slice .byte} {ps hs ss : List Byte}
    (kp : Held H personal ps) (kh : Held H header hs) (ks : Held H soln ss) :
    Runs (verify P fuel G personal header soln) H (Beam.verify P fuel ps hs ss) fun a b h => a = b ∧ Frame H h Go.none := by
  unfold verify Beam.verify
  refine Runs.bind (builds_initializePrePow P kp kh ks) fun pre pp H1 _ q => ?_
  obtain ⟨F1, kpre, _⟩ := q
  refine Runs.bind (builds_indicesFromMinimal (kG.keep F1) (ks.keep F1)) fun ix is H2 _ q => ?_
  obtain ⟨F2, ki, _⟩ := q
  have F2' := F1.trans F2
  rw [show is.length = ix.len from ki.len]
  refine Runs.bind (runs_forRange (Rows H2) 0 ix.len [] [] H2 ⟨Frame.refl _ _, .nil, fun _ h => (List.not_mem_nil h).elim, List.nodup_nil⟩ ?_) fun rows rows' H3 _ q => ?_
  · rintro i rows rows' h _ _ q
    unfold rowStep Beam.rowStep
    refine Runs.val (runs_idx (ki.keep q.frame) i) fun v _ => ?_
    exact Runs.last (runs_newNode ((kpre.keep F2).keep q.frame) v) fun m n h' _ r => q.snoc r.1 r.2.1 r.2.2
  · refine Runs.bind (Pairing.InMem.runs_rounds (fun _ _ _ q => q.same.length_eq) (fun r => pairs_combine (kG.keep F2') _) fuel 1 q) fun x y H4 _ q => ?_
    cases x with
    | error e =>
      cases y with
      | ok c => exact q.elim
      | error e' =>
        obtain ⟨rfl, F⟩ := q
        exact Runs.pure ⟨rfl, F2'.trans F⟩
    | ok rows =>
      cases y with
      | error e' => exact q.elim
      | ok rows' =>
        obtain ⟨F, q, _, _⟩ := q
        dsimp only
        cases q with
        | nil =>
          intro b hb
          cases hb
        | @cons top top' _ _ r _ =>
          refine Runs.heap (a := top) (h' := H4) rfl ?_
          refine new_bind fun z H5 F5 kz nz => ?_
          refine Runs.heap (val_ok kz) (Runs.heap (val_ok (r.keep F5).1) ?_)
          have F5' := (F2'.trans F).trans F5
          show Runs _ _ (if top'.bitset ≠ 0 then Pure.pure (false, Option.none) else Pure.pure (true, Option.none)) _
          by_cases hd : top'.bitset ≠ 0
          · rw [if_pos hd, if_pos hd]
            exact Runs.pure ⟨rfl, F5'⟩
          · rw [if_neg hd, if_neg hd]
            exact Runs.pure ⟨rfl, F5'⟩

end Verif.Beam.InMem
