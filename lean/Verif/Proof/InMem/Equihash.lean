import Mathlib.Data.List.Forall2
import Verif.Model.InMem.Equihash
import Verif.Proof.InMem.Small

/-! # The row-halving loop and Equihash with memory -/

set_option autoImplicit false

namespace Verif

open Go

namespace Pairing.InMem

variable {M N E : Type}

/-- how the results of combining two rows correspond: `I` relates the rows in use, `R` holds when an error is returned -/
def Outcome (I : List M → List N → Heap → Prop) (R : Heap → Prop) (rest : List M) (rest' : List N) : Except E M → Except E N → Heap → Prop
  | .error e, .error e', h => e = e' ∧ R h
  | .ok c, .ok c', h => I (rest ++ [c]) (rest' ++ [c']) h
  | _, _, _ => False

/-- combining two rows keeps the correspondence of the rows in use -/
def Pairs (I : List M → List N → Heap → Prop) (R : Heap → Prop) (pair : M → M → Mem (Except E M)) (pair' : N → N → Go (Except E N)) : Prop :=
  ∀ a b rest a' b' rest' h, I (a :: b :: rest) (a' :: b' :: rest') h → Runs (pair a b) h (pair' a' b') (Outcome I R rest rest')

theorem drop_two {A : Type} {l : List A} {n : Nat} {a b : A} (ha : l[n]? = some a) (hb : l[n + 1]? = some b) : l.drop n = a :: b :: l.drop (n + 2) := by
  rw [List.drop_eq_getElem?_toList_append, ha, List.drop_eq_getElem?_toList_append (i := n + 1), hb]
  rfl

theorem runs_pairLoop {I : List M → List N → Heap → Prop} {R : Heap → Prop} {pair : M → M → Mem (Except E M)} {pair' : N → N → Go (Except E N)}
    (hI : ∀ ms ns h, I ms ns h → ms.length = ns.length) (hp : Pairs I R pair pair') {rows : List M} {rows' : List N} {h : Heap} (h0 : I rows rows' h) :
    Runs (pairLoop pair rows) h (Pairing.pairLoop pair' rows') (Related I fun e e' h' => e = e' ∧ R h') := by
  have hl := hI _ _ _ h0
  unfold pairLoop Pairing.pairLoop
  rw [hl]
  unfold Mem.forRangeE Go.forRangeE
  refine Runs.post (runs_loopE (fun j cur cur' h => I (rows.drop (2 * j) ++ cur) (rows'.drop (2 * j) ++ cur') h) (fun e e' h' => e = e' ∧ R h') _ 0 [] [] h
    (by simpa using h0) ?_) ?_
  · intro j cur cur' h1 _ _ hj
    unfold pairStep Pairing.pairStep
    intro y hy
    cases ha : rows'[2 * j]? with
    | none =>
      unfold Go.idx at hy
      rw [ha] at hy
      cases hy
    | some a' =>
    cases hb : rows'[2 * j + 1]? with
    | none =>
      unfold Go.idx at hy
      rw [ha, hb] at hy
      cases hy
    | some b' =>
    obtain ⟨hlb, _⟩ := List.getElem?_eq_some_iff.1 hb
    obtain ⟨a, ea⟩ : ∃ a, rows[2 * j]? = some a := ⟨_, List.getElem?_eq_getElem (by omega)⟩
    obtain ⟨b, eb⟩ : ∃ b, rows[2 * j + 1]? = some b := ⟨_, List.getElem?_eq_getElem (by omega)⟩
    have key : Runs (do
        match ← pair a b with
        | .error e => pure (.ret e)
        | .ok c => pure (.cont (cur ++ [c]))) h1 (do
        match ← pair' a' b' with
        | .error e => pure (.ret e)
        | .ok c => pure (.cont (cur' ++ [c])))
        (Related (fun cur cur' h => I (rows.drop (2 * (j + 1)) ++ cur) (rows'.drop (2 * (j + 1)) ++ cur') h) fun e e' h' => e = e' ∧ R h') := by
      rw [drop_two ea eb, drop_two ha hb] at hj
      refine Runs.bind (hp _ _ _ _ _ _ _ hj) fun x x' h2 _ q => ?_
      cases x with
      | error e =>
        cases x' with
        | error e' => exact Runs.pure q
        | ok c' => exact q.elim
      | ok c =>
        cases x' with
        | error e' => exact q.elim
        | ok c' =>
          refine Runs.pure ?_
          show I _ _ _
          rw [← List.append_assoc, ← List.append_assoc]
          exact q
    have e1 : Go.idx rows (2 * j) = .ok a := by unfold Go.idx; rw [ea]
    have e2 : Go.idx rows (2 * j + 1) = .ok b := by unfold Go.idx; rw [eb]
    have e3 : Go.idx rows' (2 * j) = .ok a' := by unfold Go.idx; rw [ha]
    have e4 : Go.idx rows' (2 * j + 1) = .ok b' := by unfold Go.idx; rw [hb]
    rw [e3, e4] at hy
    rw [e1, e2]
    exact key y hy
  · intro x y h' _ q
    have d1 : rows.drop (2 * (0 + ((rows'.length + 1) / 2 - 0))) = [] := by rw [List.drop_eq_nil_iff]; omega
    have d2 : rows'.drop (2 * (0 + ((rows'.length + 1) / 2 - 0))) = [] := by rw [List.drop_eq_nil_iff]; omega
    rw [d1, d2] at q
    exact q

/-- how the results of all rounds correspond -/
def Final (I : List M → List N → Heap → Prop) (R : Heap → Prop) : Except E (List M) → Except E (List N) → Heap → Prop
  | .error e, .error e', h => e = e' ∧ R h
  | .ok c, .ok c', h => I c c' h
  | _, _, _ => False

theorem runs_rounds {I : List M → List N → Heap → Prop} {R : Heap → Prop} {pair : Nat → M → M → Mem (Except E M)} {pair' : Nat → N → N → Go (Except E N)}
    (hI : ∀ ms ns h, I ms ns h → ms.length = ns.length) (hp : ∀ r, Pairs I R (pair r) (pair' r)) (fuel start : Nat) {rows : List M} {rows' : List N} {h : Heap}
    (h0 : I rows rows' h) : Runs (rounds pair fuel start rows) h (Pairing.rounds pair' fuel start rows') (Final I R) := by
  unfold rounds Pairing.rounds
  refine runs_forever (fun (s : Nat × List M) (s' : Nat × List N) h => s.1 = s'.1 ∧ I s.2 s'.2 h) (Final I R) ?_ fuel _ _ h ⟨rfl, h0⟩
  rintro ⟨r, rows⟩ ⟨_, rows'⟩ h ⟨rfl, hi⟩
  unfold roundStep Pairing.roundStep
  dsimp only at hi ⊢
  rw [hI _ _ _ hi]
  by_cases hc : 1 < rows'.length
  · rw [if_pos hc, if_pos hc]
    refine Runs.bind (runs_pairLoop hI (hp r) hi) fun x y h1 _ q => ?_
    cases x with
    | ret e =>
      cases y with
      | ret e' => exact Runs.pure q
      | cont s => exact q.elim
    | cont s =>
      cases y with
      | ret e' => exact q.elim
      | cont s' => exact Runs.pure ⟨rfl, q⟩
  · rw [if_neg hc, if_neg hc]
    exact Runs.pure hi

end Pairing.InMem

namespace Crypto.InMem

theorem builds_blake2b (P : Prims) {h : Heap} {s p : Slice .byte} {xs ps : List Byte} (hs : Held h s xs) (hp : Held h p ps) (size : Nat) :
    Builds (blake2b P s p size) h (Crypto.blake2b P xs ps size) := by
  unfold blake2b
  intro out ho
  obtain ⟨a, h', e, q⟩ := makes_fresh h .byte out
  refine ⟨a, h', ?_, q⟩
  rw [Mem.bind_ok (contents_ok hs), Mem.bind_ok (contents_ok hp), ho]
  exact e

end Crypto.InMem

namespace Equihash.InMem

open Convutil.InMem Crypto.InMem

/-- the same error, or results that correspond; existing memory is not written -/
def Ended {E α β : Type} (H : Heap) (Q : α → β → Heap → Prop) : Except E α → Except E β → Heap → Prop
  | .error e, .error e', h => e = e' ∧ Frame H h Go.none
  | .ok a, .ok b, h => Frame H h Go.none ∧ Q a b h
  | _, _, _ => False

theorem Ended.mono {E α β : Type} {H H1 h : Heap} {Q : α → β → Heap → Prop} {x : Except E α} {y : Except E β} (F : Frame H H1 Go.none) (q : Ended H1 Q x y h) :
    Ended H Q x y h := by
  cases x with
  | error e =>
    cases y with
    | error e' => exact ⟨q.1, F.trans q.2⟩
    | ok b => exact q.elim
  | ok a =>
    cases y with
    | error e' => exact q.elim
    | ok b => exact ⟨F.trans q.1, q.2⟩

/-- a function with an error result, called by another -/
theorem Ended.bind {E α β γ δ : Type} {H : Heap} {Q : α → β → Heap → Prop} {m : Mem (Except E α)} {g : Go (Except E β)} {k : Except E α → Mem γ}
    {l : Except E β → Go δ} {R : γ → δ → Heap → Prop} (hm : Runs m H g (Ended H Q)) (h1 : ∀ e h', Frame H h' Go.none → Runs (k (.error e)) h' (l (.error e)) R)
    (h2 : ∀ a b h', Frame H h' Go.none → Q a b h' → Runs (k (.ok a)) h' (l (.ok b)) R) : Runs (m >>= k) H (g >>= l) R :=
  Runs.bind hm fun x y h' _ q => by
    cases x with
    | error e =>
      cases y with
      | error e' =>
        obtain ⟨rfl, F⟩ := q
        exact h1 e h' F
      | ok b => exact q.elim
    | ok a =>
      cases y with
      | error e' => exact q.elim
      | ok b => exact h2 a b h' q.1 q.2

theorem runs_expandArray {H : Heap} {input : Slice .byte} {bs : List Byte} (ki : Held H input bs) (bitLen bytePad : Nat) :
    Runs (expandArray input bitLen bytePad) H (Equihash.expandArray bs bitLen bytePad) (Ended H fun s b h => Held h s b) := by
  unfold expandArray Equihash.expandArray
  dsimp only
  rw [show bs.length = input.len from ki.len]
  by_cases h1 : bitLen < 8
  · rw [if_pos h1, if_pos h1]
    exact Runs.pure ⟨rfl, Frame.refl _ _⟩
  rw [if_neg h1, if_neg h1]
  by_cases h2 : 32 < bitLen
  · rw [if_pos h2, if_pos h2]
    exact Runs.pure ⟨rfl, Frame.refl _ _⟩
  rw [if_neg h2, if_neg h2]
  obtain ⟨W, hW⟩ : ∃ W, W = u32 (u32 (bitLen + 7) / 8 + bytePad) := ⟨_, rfl⟩
  rw [← hW]
  obtain ⟨L, hL⟩ : ∃ L, L = u32 (u32 (8 * W) * u32 input.len) / bitLen := ⟨_, rfl⟩
  rw [← hL]
  by_cases h3 : L = u32 input.len
  · rw [if_pos h3, if_pos h3]
    exact Runs.pure ⟨Frame.refl _ _, ki⟩
  rw [if_neg h3, if_neg h3]
  obtain ⟨output, H1, e1, F1, ko, no⟩ := makes_make H .byte L
  refine Runs.heap e1 ?_
  have hne : input.arr ≠ output.arr := ki.ne no F1
  have ki1 := ki.keep F1
  refine Runs.last (Q := fun (a : ExpState) (b : Equihash.ExpState) h' => a = ⟨b.accBits, b.accValue, b.j⟩ ∧ Frame H1 h' (only output) ∧ Held h' output b.output) ?_
    fun a b h' _ q => ⟨F1.write q.2.1 no, q.2.2⟩
  refine runs_forRange (fun (a : ExpState) (b : Equihash.ExpState) h' => a = ⟨b.accBits, b.accValue, b.j⟩ ∧ Frame H1 h' (only output) ∧ Held h' output b.output)
    0 _ _ _ H1 ⟨rfl, Frame.refl _ _, ko⟩ ?_
  rintro i _ b h _ _ ⟨rfl, F, k⟩
  unfold expandStep Equihash.expandStep
  refine Runs.val (runs_idx (ki1.other F (Or.inr hne)) i) fun v _ => ?_
  dsimp only
  by_cases hc : bitLen ≤ u32 (b.accBits + 8)
  · rw [if_pos hc, if_pos hc]
    refine Writes.bind (runs_each _ _ k fun x h2 ys _ _ f2 k2 => ?_) fun ys h2 _ G k2 => Runs.pure ⟨rfl, F.trans G, k2⟩
    unfold expandByte
    exact runs_upd k2 _ _
  · rw [if_neg hc, if_neg hc]
    exact Runs.pure ⟨rfl, F, k⟩

theorem runs_indicesFromMinimal {H : Heap} {soln : Slice .byte} {bs : List Byte} (ks : Held H soln bs) (n k : Nat) :
    Runs (indicesFromMinimal n k soln) H (Equihash.indicesFromMinimal n k bs) (Ended H fun s b h => Held h s b) := by
  unfold indicesFromMinimal Equihash.indicesFromMinimal
  refine Runs.val Runs.lift fun c _ => ?_
  dsimp only
  rw [show bs.length = soln.len from ks.len]
  by_cases h1 : u32 soln.len ≠ u32 (u32 (2 ^ k) * u32 (c + 1)) / 8
  · rw [if_pos h1, if_pos h1]
    exact Runs.pure ⟨rfl, Frame.refl _ _⟩
  rw [if_neg h1, if_neg h1]
  by_cases h2 : 4 < u32 (u32 (c + 1) + 7) / 8
  · rw [if_pos h2, if_pos h2]
    exact Runs.pure ⟨rfl, Frame.refl _ _⟩
  rw [if_neg h2, if_neg h2]
  refine Ended.bind (runs_expandArray ks _ _) (fun e h' F => Runs.pure ⟨rfl, F⟩) fun a b h' F ka => ?_
  exact Runs.last (builds_bytesToUint32Array ka .big) fun _ _ _ _ q => ⟨F.trans q.1, q.2.1⟩

theorem builds_hashBlakeWithOffset (P : Prims) {H : Heap} {init personal : Slice .byte} {is ps : List Byte} (ki : Held H init is) (kp : Held H personal ps)
    (offset : U32) (len : Nat) : Builds (hashBlakeWithOffset P init personal offset len) H (Equihash.hashBlakeWithOffset P is ps offset len) := by
  unfold hashBlakeWithOffset Equihash.hashBlakeWithOffset
  rw [show is.length = init.len from ki.len]
  refine (makes_make H .byte (init.len + 4)).bind fun st H1 F1 k n => ?_
  refine (runs_copy k (ki.keep F1)).bind fun xs H2 _ G k => ?_
  have F2 := F1.write G n
  refine (runs_putU32 k .little _ offset).bind fun xs H3 _ G k => ?_
  have F3 := F2.write G n
  intro b hb
  obtain ⟨a, h', e, F, k, n⟩ := builds_blake2b P k (kp.keep F3) len b hb
  exact ⟨a, h', e, F3.trans F, k, newer.mono F3 n⟩

theorem runs_twistStep (P : Prims) {H h : Heap} {init personal : Slice .byte} {is ps : List Byte} {myHash : Slice .word} {ms : List U32} (ki : Held H init is)
    (kp : Held H personal ps) (F : Frame H h (only myHash)) (km : Held h myHash ms) (g : U32) (len : Nat) (g2 : U32) :
    Runs (twistStep P init personal myHash g len g2) h (Equihash.twistStep P is ps g len (g2, ms))
      (Related (fun a b h' => a = b.1 ∧ Frame H h' (only myHash) ∧ Held h' myHash b.2) fun _ b h' => Frame H h' (only myHash) ∧ Held h' myHash b) := by
  unfold twistStep Equihash.twistStep
  dsimp only
  by_cases hc : g2 ≤ g
  · rw [if_pos hc, if_pos hc]
    refine Runs.bind (builds_hashBlakeWithOffset P (ki.other F (Or.inl (by decide))) (kp.other F (Or.inl (by decide))) g2 len) fun tmp ts h1 _ q => ?_
    obtain ⟨F1, kt, _⟩ := q
    refine Writes.bind (runs_each 0 16 (km.keep F1) fun i h2 ys _ _ f2 k2 => ?_) fun ys h2 _ G k2 => Runs.pure ⟨rfl, F.trans ((F1.none_only _).trans G), k2⟩
    unfold laneStep
    refine runs_slc_bind (kt.other f2 (Or.inl (by decide))) _ _ fun r _ _ _ kr => ?_
    refine Runs.val (runs_getU32 kr .little) fun v _ => ?_
    refine Runs.val (runs_idx k2 _) fun m _ => runs_upd k2 _ _
  · rw [if_neg hc, if_neg hc]
    exact Runs.pure ⟨F, km⟩

theorem builds_generateHash (P : Prims) (fuel : Nat) {H : Heap} {init personal : Slice .byte} {is ps : List Byte} (ki : Held H init is) (kp : Held H personal ps)
    (g : U32) (len : Nat) (twist : Bool) : Builds (generateHash P fuel init personal g len twist) H (Equihash.generateHash P fuel is ps g len twist) := by
  unfold generateHash Equihash.generateHash
  by_cases ht : (!twist) = true
  · rw [if_pos ht, if_pos ht]
    exact builds_hashBlakeWithOffset P ki kp g len
  rw [if_neg ht, if_neg ht]
  refine (makes_make H .word 16).bind fun myHash H1 F1 km nm => ?_
  dsimp only
  refine Runs.bind (Q := fun _ b h' => Frame H1 h' (only myHash) ∧ Held h' myHash b) ?_ fun _ ms H2 _ q => ?_
  · refine runs_forever (fun (a : U32) (b : U32 × List U32) h' => a = b.1 ∧ Frame H1 h' (only myHash) ∧ Held h' myHash b.2) _ ?_ fuel _ _ H1 ⟨rfl, Frame.refl _ _, km⟩
    rintro _ ⟨g2, ms⟩ h ⟨rfl, F, k⟩
    exact runs_twistStep P (ki.keep F1) (kp.keep F1) F k g len _
  · obtain ⟨G2, km⟩ := q
    have F2 := F1.write G2 nm
    refine Runs.bind (builds_uint32ArrayToBytes km .little) fun hash hs H3 _ q => ?_
    obtain ⟨F3, kh, nh⟩ := q
    refine Writes.ret (runs_each 0 _ kh fun t h2 ys _ _ f2 k2 => ?_) (F2.trans F3) (newer.mono F2 nh)
    unfold maskStep
    exact Runs.val (runs_idx k2 _) fun m _ => runs_upd k2 _ _

/-- a node of the model with memory, and the node that it stands for -/
def Same (m : Node) (n : Equihash.Node) (h : Heap) : Prop := Held h m.hash n.hash ∧ Held h m.indices n.indices

theorem Same.keep {m : Node} {n : Equihash.Node} {h h' : Heap} (q : Same m n h) (F : Frame h h' Go.none) : Same m n h' := ⟨q.1.keep F, q.2.keep F⟩

theorem runs_newNode (P : Prims) (fuel n k : Nat) {H : Heap} {personal state : Slice .byte} {ps ss : List Byte} (kp : Held H personal ps) (ks : Held H state ss)
    (twist : Bool) (i : U32) :
    Runs (newNode P fuel n k personal twist state i) H (Equihash.newNode P fuel n k ps twist ss i) (Ended H Same) := by
  unfold newNode Equihash.newNode
  refine Runs.val Runs.lift fun per _ => ?_
  refine Runs.val Runs.lift fun g _ => ?_
  refine Runs.val Runs.lift fun size _ => ?_
  refine Runs.bind (builds_generateHash P fuel ks kp _ size twist) fun hash hs H1 _ q => ?_
  obtain ⟨F1, kh, _⟩ := q
  dsimp only
  refine runs_slc_bind kh _ _ fun part _ _ _ kr => ?_
  refine Runs.val Runs.lift fun c _ => ?_
  refine Ended.bind (runs_expandArray kr c 0) (fun e h' F => Runs.pure ⟨rfl, F1.trans F⟩) fun a b h' F ka => ?_
  dsimp only
  obtain ⟨ix, H2, e2, F2, kx, _⟩ := makes_lit h' .word [i]
  refine Runs.heap e2 (Runs.pure ⟨(F1.trans F).trans F2, ka.keep F2, kx⟩)

/-- two slices appended to a new one -/
theorem append_two {t : Ty} {H h : Heap} {s a b : Slice t} {as bs : List t.Val} (F : Frame H h Go.none) (ks : Held h s []) (ns : newer H t s.arr) (ka : Held H a as)
    (kb : Held H b bs) : ∃ q r h1 h2, Mem.append s a h = .ok (q, h1) ∧ Mem.append q b h1 = .ok (r, h2) ∧ Frame H h2 Go.none ∧ Held h2 r (as ++ bs) ∧
      Frame h h2 (fun t i => newer H t i ∧ (only s t i ∨ newer h t i)) := by
  obtain ⟨q, h1, e1, G1, kq, o1⟩ := append_ok ks (ka.keep F)
  have nq : newer H t q.arr := by
    rcases o1 with ⟨e, _⟩ | ⟨n, _⟩
    · rw [e]; exact ns
    · exact newer.mono F n
  have F1 := F.write G1 ns
  obtain ⟨r, h2, e2, G2, kr, o2⟩ := append_ok kq (kb.keep F1)
  refine ⟨q, r, h1, h2, e1, e2, F1.write G2 nq, kr, ?_⟩
  refine (G1.mono ?_).trans (G2.mono ?_)
  · rintro t' i ⟨rfl, rfl⟩
    exact ⟨ns, Or.inl ⟨rfl, rfl⟩⟩
  · rintro t' i ⟨rfl, rfl⟩
    refine ⟨nq, ?_⟩
    rcases o1 with ⟨e, _⟩ | ⟨n, _⟩
    · exact Or.inl ⟨rfl, e⟩
    · exact Or.inr n

theorem runs_newNodeFromChildrenRef {H : Heap} {a b : Node} {a' b' : Equihash.Node} (ha : Same a a' H) (hb : Same b b' H) (trim : Nat) :
    Runs (newNodeFromChildrenRef a b trim) H (Equihash.newNodeFromChildrenRef a' b' trim) fun m n h => Frame H h Go.none ∧ Same m n h := by
  unfold newNodeFromChildrenRef Equihash.newNodeFromChildrenRef
  dsimp only
  rw [show a'.hash.length = a.hash.len from ha.1.len]
  refine (makes_make H .byte _).bind fun hash H1 F1 kh nh => ?_
  have hne1 : a.hash.arr ≠ hash.arr := ha.1.ne nh F1
  have hne2 : b.hash.arr ≠ hash.arr := hb.1.ne nh F1
  have ha1 := ha.keep F1
  have hb1 := hb.keep F1
  refine Writes.bind (runs_each 0 _ kh fun t h2 ys _ _ f2 k2 => ?_) fun hs H2 _ G2 kh => ?_
  · unfold xorStep
    refine Runs.val (runs_idx (ha1.1.other f2 (Or.inr hne1)) _) fun x _ => ?_
    exact Runs.val (runs_idx (hb1.1.other f2 (Or.inr hne2)) _) fun y _ => runs_upd k2 _ _
  have F2 := F1.write G2 nh
  obtain ⟨ix, H3, e3, F3, kx, nx⟩ := makes_make H2 .word 0
  refine Runs.heap e3 ?_
  have F3' := F2.trans F3
  have ha3 := ha.keep F3'
  have hb3 := hb.keep F3'
  refine Runs.val (runs_idx ha3.2 0) fun a0 _ => ?_
  refine Runs.val (runs_idx hb3.2 0) fun b0 _ => ?_
  have nx' : newer H .word ix.arr := newer.mono F2 nx
  by_cases hc : a0 < b0
  · rw [if_pos hc, if_pos hc]
    obtain ⟨q, r, h4, h5, e4, e5, F5, kr, G⟩ := append_two F3' kx nx' ha.2 hb.2
    refine Runs.heap e4 (Runs.heap e5 (Runs.pure ⟨F5, ?_, kr⟩))
    refine (kh.keep F3).frame G fun q => ?_
    rcases q.2 with q | q
    · cases q.1
    · exact (kh.keep F3).old q
  · rw [if_neg hc, if_neg hc]
    obtain ⟨q, r, h4, h5, e4, e5, F5, kr, G⟩ := append_two F3' kx nx' hb.2 ha.2
    refine Runs.heap e4 (Runs.heap e5 (Runs.pure ⟨F5, ?_, kr⟩))
    refine (kh.keep F3).frame G fun q => ?_
    rcases q.2 with q | q
    · cases q.1
    · exact (kh.keep F3).old q

theorem runs_validateSubtrees {H : Heap} {a b : Node} {a' b' : Equihash.Node} (ha : Same a a' H) (hb : Same b b' H) (n k : Nat) :
    Runs (validateSubtrees n k a b) H (Equihash.validateSubtrees n k a' b') fun x y h => x = y ∧ h = H := by
  unfold validateSubtrees Equihash.validateSubtrees
  refine Runs.val Runs.lift fun cbl _ => ?_
  refine Runs.val ?_ fun s _ => ?_
  · refine Runs.post (runs_forRangeE (fun x y h' => x = y ∧ h' = H) (fun x y h' => x = y ∧ h' = H) 0 cbl () () H ⟨rfl, rfl⟩ ?_) ?_
    · rintro i x _ _ _ _ ⟨rfl, rfl⟩
      unfold collideStep Equihash.collideStep
      refine Runs.val (runs_idx ha.1 _) fun x _ => ?_
      refine Runs.val (runs_idx hb.1 _) fun y _ => ?_
      by_cases hc : x ≠ y
      · rw [if_pos hc, if_pos hc]
        exact Runs.pure ⟨rfl, rfl⟩
      · rw [if_neg hc, if_neg hc]
        exact Runs.pure ⟨rfl, rfl⟩
    · intro x y h' _ q
      cases x with
      | cont x =>
        cases y with
        | cont y => exact ⟨by rw [q.1], q.2⟩
        | ret y => exact q.elim
      | ret x =>
        cases y with
        | cont y => exact q.elim
        | ret y => exact ⟨by rw [q.1], q.2⟩
  · cases s with
    | ret e => exact Runs.pure ⟨rfl, rfl⟩
    | cont u =>
      dsimp only
      refine Runs.val (runs_idx hb.2 _) fun b0 _ => ?_
      refine Runs.val (runs_idx ha.2 _) fun a0 _ => ?_
      by_cases hc : b0 < a0
      · rw [if_pos hc, if_pos hc]
        exact Runs.pure ⟨rfl, rfl⟩
      rw [if_neg hc, if_neg hc]
      refine Runs.heap (contents_ok ha.2) (Runs.heap (contents_ok hb.2) ?_)
      by_cases hd : (a'.indices.any fun i => b'.indices.any fun j => i == j) = true
      · rw [if_pos hd, if_pos hd]
        exact Runs.pure ⟨rfl, rfl⟩
      · rw [if_neg hd, if_neg hd]
        exact Runs.pure ⟨rfl, rfl⟩

/-- the rows in use correspond, and nothing that existed before has been written -/
def Rows (H : Heap) (ms : List Node) (ns : List Equihash.Node) (h : Heap) : Prop := Frame H h Go.none ∧ List.Forall₂ (fun m n => Same m n h) ms ns

theorem same_all {ms : List Node} {ns : List Equihash.Node} {h h' : Heap} (F : Frame h h' Go.none) (q : List.Forall₂ (fun m n => Same m n h) ms ns) :
    List.Forall₂ (fun m n => Same m n h') ms ns := q.imp fun _ _ q => q.keep F

theorem forall₂_snoc {A B : Type} {R : A → B → Prop} {as : List A} {bs : List B} {a : A} {b : B} (h : List.Forall₂ R as bs) (r : R a b) :
    List.Forall₂ R (as ++ [a]) (bs ++ [b]) := by
  induction h with
  | nil => exact .cons r .nil
  | cons h _ ih => exact .cons h ih

theorem pairs_combine (H : Heap) (n k : Nat) :
    Pairing.InMem.Pairs (Rows H) (fun h => Frame H h Go.none) (combine n k) (Equihash.combine n k) := by
  rintro a b rest a' b' rest' h ⟨F, q⟩
  cases q with
  | cons ha q =>
  cases q with
  | cons hb q =>
  unfold combine Equihash.combine
  refine Runs.val (runs_validateSubtrees ha hb n k) fun o _ => ?_
  cases o with
  | some e => exact Runs.pure ⟨rfl, F⟩
  | none =>
    dsimp only
    refine Runs.val Runs.lift fun trim _ => ?_
    exact Runs.last (runs_newNodeFromChildrenRef ha hb trim) fun m n h' _ r => ⟨F.trans r.1, forall₂_snoc (R := fun m n => Same m n h') (same_all r.1 q) r.2⟩

/-- the rounds and the last test of `verify` -/
theorem runs_finish (H : Heap) (n k fuel : Nat) {rows : List Node} {rows' : List Equihash.Node} {h : Heap} (q : Rows H rows rows' h) :
    Runs (do
      match ← Pairing.InMem.rounds (fun _ => combine n k) fuel 0 rows with
      | .error e => pure (false, some e)
      | .ok rows => do
        let top ← Mem.lift (Go.idx rows 0)
        let hash ← Mem.contents top.hash
        if List.any hash (fun (v : Byte) => v != 0) then pure (false, none) else pure (true, none)) h
      (do
        match ← Pairing.rounds (fun _ => Equihash.combine n k) fuel 0 rows' with
        | .error e => pure (false, some e)
        | .ok rows => do
          let top ← Go.idx rows 0
          if top.hash.any (fun v => v != 0) then pure (false, none) else pure (true, none)) fun a b h => a = b ∧ Frame H h Go.none := by
  refine Runs.bind (Pairing.InMem.runs_rounds (fun _ _ _ q => q.2.length_eq) (fun _ => pairs_combine H n k) fuel 0 q) fun x y H7 _ q => ?_
  cases x with
  | error e =>
    cases y with
    | ok c => exact q.elim
    | error e' =>
      obtain ⟨rfl, F⟩ := q
      exact Runs.pure ⟨rfl, F⟩
  | ok rows =>
    cases y with
    | error e' => exact q.elim
    | ok rows' =>
      obtain ⟨F, q⟩ := q
      dsimp only
      cases q with
      | nil =>
        intro b hb
        cases hb
      | @cons top top' _ _ r _ =>
        refine Runs.heap (a := top) (h' := H7) rfl ?_
        refine Runs.heap (contents_ok r.1) ?_
        show Runs _ _ (if (top'.hash.any fun v => v != 0) = true then Pure.pure (false, Option.none) else Pure.pure (true, Option.none)) _
        by_cases hd : (top'.hash.any fun v => v != 0) = true
        · rw [if_pos hd, if_pos hd]
          exact Runs.pure ⟨rfl, F⟩
        · rw [if_neg hd, if_neg hd]
          exact Runs.pure ⟨rfl, F⟩

theorem runs_verify (P : Prims) (fuel : Nat) (n k : Nat) {H : Heap} {personal header soln : Slice .byte} {ps hs ss : List Byte} (kp : Held H personal ps)
    (kh : Held H header hs) (ks : Held H soln ss) (twist : Bool) :
    Runs (verify P fuel n k personal header soln twist) H (Equihash.verify P fuel n k ps hs ss twist) fun a b h => a = b ∧ Frame H h Go.none := by
  unfold verify Equihash.verify
  rw [show ps.length = personal.len from kp.len]
  refine (makes_make H .byte (personal.len + 8)).bind fun st H1 F1 kt nt => ?_
  refine (runs_copy kt (kp.keep F1)).bind fun xs H2 _ G kt => ?_
  have F2 := F1.write G nt
  refine (runs_putU32 kt .little _ _).bind fun xs H3 _ G kt => ?_
  have F3 := F2.write G nt
  refine (runs_putU32 kt .little _ _).bind fun xs H4 _ G kt => ?_
  have F4 := F3.write G nt
  refine Ended.bind (runs_indicesFromMinimal (ks.keep F4) n k) (fun e h' F => Runs.pure ⟨rfl, F4.trans F⟩) fun ix is H5 F5 ki => ?_
  have F5' := F4.trans F5
  dsimp only
  rw [show is.length = ix.len from ki.len]
  refine Runs.bind (runs_forRangeE (Rows H5) (fun e e' h => e = e' ∧ Frame H5 h Go.none) 0 ix.len [] [] H5 ⟨Frame.refl _ _, .nil⟩ ?_) fun x y H6 _ q => ?_
  · rintro i rows rows' h _ _ ⟨F, q⟩
    unfold rowStep Equihash.rowStep
    refine Runs.val (runs_idx (ki.keep F) i) fun v _ => ?_
    refine Ended.bind (runs_newNode P fuel n k ((kt.keep F5).keep F) ((kh.keep F5').keep F) twist v) (fun e h' G => Runs.pure ⟨rfl, F.trans G⟩) fun m nd h' G r => ?_
    exact Runs.pure ⟨F.trans G, forall₂_snoc (R := fun m n => Same m n h') (same_all G q) r⟩
  · cases x with
    | ret e =>
      cases y with
      | cont s => exact q.elim
      | ret e' =>
        obtain ⟨rfl, F⟩ := q
        exact Runs.pure ⟨rfl, F5'.trans F⟩
    | cont rows =>
      cases y with
      | ret e' => exact q.elim
      | cont rows' =>
        dsimp only
        exact (runs_finish H5 n k fuel q).post fun a b h _ r => ⟨r.1, F5'.trans r.2⟩

end Equihash.InMem

end Verif
