import Verif.Proof.InMem.IsolationDag
import Verif.Model.InMem.Beam
import Verif.Model.InMem.Generate

/-! # Equihash, BeamHash III and cache generation write to their own arrays only -/

set_option autoImplicit false

namespace Verif

open Go

variable {n : Ty → Nat}

namespace Pairing.InMem

variable {N E : Type}

theorem spares_rounds {pair : Nat → N → N → Mem (Except E N)} (I : N → Prop)
    (hp : ∀ r a b, I a → I b → Spares n (pair r a b) fun x => ∀ c, x = .ok c → I c) (fuel start : Nat) (rows : List N) (hr : ∀ a ∈ rows, I a) :
    Spares n (rounds pair fuel start rows) fun x => ∀ out, x = .ok out → ∀ a ∈ out, I a := by
  have hidx : ∀ (l : List N) i a, (∀ a ∈ l, I a) → Go.idx l i = .ok a → I a := by
    intro l i a hl hg
    unfold Go.idx at hg
    cases hc : l[i]? with
    | none => rw [hc] at hg; cases hg
    | some r =>
      rw [hc] at hg
      obtain rfl := Except.ok.inj hg
      exact hl r (List.mem_of_getElem? hc)
  unfold rounds
  refine Spares.forever (fun s : Nat × List N => ∀ a ∈ s.2, I a) _ (fun s hs => ?_) fuel (start, rows) hr
  unfold roundStep
  refine Spares.ite ?_ (Spares.pure ?_)
  · unfold pairLoop
    refine Spares.bind (Spares.forRangeE (fun cur : List N => ∀ a ∈ cur, I a) (fun _ : E => True) _ _ _ (by simp) fun t cur hcur => ?_) fun x hx => ?_
    · unfold pairStep
      refine Spares.bind Spares.lift fun a ha => Spares.bind Spares.lift fun b hb => Spares.bind (hp s.1 a b (hidx _ _ _ hs ha) (hidx _ _ _ hs hb)) fun x hx => ?_
      cases x with
      | error e => exact Spares.pure trivial
      | ok c =>
        refine Spares.pure fun d hd => ?_
        rcases List.mem_append.1 hd with h | h
        · exact hcur d h
        · obtain rfl := List.mem_singleton.1 h
          exact hx d rfl
    · cases x with
      | ret e => exact Spares.pure fun _ h => by cases h
      | cont rows' => exact Spares.pure hx
  · intro out ho
    obtain rfl := Except.ok.inj ho
    exact hs

end Pairing.InMem

theorem Crypto.InMem.spares_blake2b (P : Prims) (data personal : Slice .byte) (size : Nat) :
    Spares n (Crypto.InMem.blake2b P data personal size) fun s => n .byte ≤ s.arr := by
  unfold Crypto.InMem.blake2b
  spares

macro_rules | `(tactic| spares_rule) => `(tactic| with_reducible exact Crypto.InMem.spares_blake2b _ _ _ _)

namespace Equihash.InMem

theorem spares_expandStep (input : Slice .byte) {output : Slice .byte} (ho : n .byte ≤ output.arr) (bitLen bytePad width : Nat) (mask : U32) (i : Nat) (s : ExpState) :
    Spares n (expandStep input output bitLen bytePad width mask i s) fun _ => True := by
  unfold expandStep
  spares

theorem spares_expandArray (input : Slice .byte) (bitLen bytePad : Nat) : Spares n (expandArray input bitLen bytePad) fun _ => True := by
  unfold expandArray
  refine Spares.ite (Spares.pure trivial) (Spares.ite (Spares.pure trivial) ?_)
  refine Spares.ite (Spares.pure trivial) (Spares.bind (Spares.make _ _) fun output ho => ?_)
  exact Spares.bind (Spares.values _ _ _ fun i s => spares_expandStep input ho _ _ _ _ i s) fun _ _ => Spares.pure trivial

theorem spares_indicesFromMinimal (N k : Nat) (minimal : Slice .byte) : Spares n (indicesFromMinimal N k minimal) fun _ => True := by
  unfold indicesFromMinimal
  refine Spares.bind Spares.lift fun c _ => ?_
  refine Spares.ite (Spares.pure trivial) (Spares.ite (Spares.pure trivial) (Spares.bind (spares_expandArray _ _ _) fun x _ => ?_))
  cases x with
  | error e => exact Spares.pure trivial
  | ok a => exact Spares.bind (Convutil.InMem.spares_bytesToUint32Array _ _) fun _ _ => Spares.pure trivial

theorem spares_hashBlakeWithOffset (P : Prims) (st ps : Slice .byte) (offset : U32) (len : Nat) :
    Spares n (hashBlakeWithOffset P st ps offset len) fun s => n .byte ≤ s.arr := by
  unfold hashBlakeWithOffset
  spares

theorem spares_twistStep (P : Prims) (st ps : Slice .byte) {myHash : Slice .word} (hm : n .word ≤ myHash.arr) (g : U32) (len : Nat) (g2 : U32) :
    Spares n (twistStep P st ps myHash g len g2) (Spares.ofStep (fun _ => True) fun _ => True) := by
  unfold twistStep
  refine Spares.ite (Spares.bind (spares_hashBlakeWithOffset P st ps g2 len) fun tmp _ => ?_) (Spares.pure trivial)
  refine Spares.bind (Q := fun _ => True) (Spares.each _ _ fun i => ?_) fun _ _ => Spares.pure trivial
  spares

theorem spares_generateHash (P : Prims) (fuel : Nat) (st ps : Slice .byte) (g : U32) (len : Nat) (twist : Bool) :
    Spares n (generateHash P fuel st ps g len twist) fun s => n .byte ≤ s.arr := by
  unfold generateHash
  refine Spares.ite (spares_hashBlakeWithOffset P st ps g len) (Spares.bind (Spares.make _ _) fun myHash hm => ?_)
  refine Spares.bind (Q := fun _ => True) (Spares.forever (fun _ => True) _ (fun g2 _ => spares_twistStep P st ps hm g len g2) fuel _ trivial) fun _ _ => ?_
  spares

theorem spares_newNode (P : Prims) (fuel N k : Nat) (ps : Slice .byte) (twist : Bool) (state : Slice .byte) (i : U32) :
    Spares n (newNode P fuel N k ps twist state i) fun _ => True := by
  unfold newNode
  refine Spares.bind Spares.lift fun _ _ => Spares.bind Spares.lift fun _ _ => Spares.bind Spares.lift fun _ _ => ?_
  refine Spares.bind (spares_generateHash P fuel state ps _ _ twist) fun _ _ => Spares.bind (Spares.slc _ _ _) fun _ _ => ?_
  refine Spares.bind Spares.lift fun _ _ => Spares.bind (spares_expandArray _ _ _) fun x _ => ?_
  cases x with
  | error e => exact Spares.pure trivial
  | ok a => exact Spares.bind (Spares.lit _ _) fun _ _ => Spares.pure trivial

theorem spares_newNodeFromChildrenRef (a b : Node) (trim : Nat) : Spares n (newNodeFromChildrenRef a b trim) fun _ => True := by
  unfold newNodeFromChildrenRef
  refine Spares.bind (Spares.make _ _) fun hash hh => Spares.bind (Q := fun _ => True) (by spares) fun _ _ => ?_
  refine Spares.bind (Spares.make _ _) fun ix hi => Spares.bind (Spares.idx _ _) fun _ _ => Spares.bind (Spares.idx _ _) fun _ _ => ?_
  exact Spares.ite (Spares.bind (Spares.append hi _) fun ix hi => Spares.bind (Spares.append hi _) fun _ _ => Spares.pure trivial)
    (Spares.bind (Spares.append hi _) fun ix hi => Spares.bind (Spares.append hi _) fun _ _ => Spares.pure trivial)

theorem spares_validateSubtrees (N k : Nat) (a b : Node) : Spares n (validateSubtrees N k a b) fun _ => True := by
  unfold validateSubtrees
  refine Spares.bind Spares.lift fun _ _ => ?_
  refine Spares.bind (Spares.forRangeE (fun _ => True) (fun _ => True) _ _ _ trivial fun i s _ => ?_) fun x _ => ?_
  · unfold collideStep
    exact Spares.bind (Spares.idx _ _) fun _ _ => Spares.bind (Spares.idx _ _) fun _ _ => Spares.ite (Spares.pure trivial) (Spares.pure trivial)
  · cases x with
    | ret e => exact Spares.pure trivial
    | cont u =>
      refine Spares.bind (Spares.idx _ _) fun _ _ => Spares.bind (Spares.idx _ _) fun _ _ => Spares.ite (Spares.pure trivial) ?_
      exact Spares.bind (Spares.contents _) fun _ _ => Spares.bind (Spares.contents _) fun _ _ => Spares.ite (Spares.pure trivial) (Spares.pure trivial)

theorem spares_combine (N k : Nat) (a b : Node) : Spares n (combine N k a b) fun _ => True := by
  unfold combine
  refine Spares.bind (spares_validateSubtrees N k a b) fun x _ => ?_
  cases x with
  | some e => exact Spares.pure trivial
  | none => exact Spares.bind Spares.lift fun _ _ => Spares.bind (spares_newNodeFromChildrenRef _ _ _) fun _ _ => Spares.pure trivial

theorem spares_verify (P : Prims) (fuel N k : Nat) (personal header soln : Slice .byte) (twist : Bool) :
    Spares n (verify P fuel N k personal header soln twist) fun _ => True := by
  unfold verify
  refine Spares.bind (Spares.make _ _) fun ps hps => Spares.bind (Spares.copy hps _) fun _ _ => ?_
  refine Spares.bind (Spares.putU32 hps _ _ _) fun _ _ => Spares.bind (Spares.putU32 hps _ _ _) fun _ _ => ?_
  refine Spares.bind (spares_indicesFromMinimal N k soln) fun x _ => ?_
  cases x with
  | error e => exact Spares.pure trivial
  | ok indices =>
    refine Spares.bind (Spares.forRangeE (fun _ => True) (fun _ => True) _ _ _ trivial fun i s _ => ?_) fun x _ => ?_
    · unfold rowStep
      refine Spares.bind (Spares.idx _ _) fun _ _ => Spares.bind (spares_newNode P fuel N k ps twist header _) fun x _ => ?_
      cases x with
      | error e => exact Spares.pure trivial
      | ok nd => exact Spares.pure trivial
    · cases x with
      | ret e => exact Spares.pure trivial
      | cont rows =>
        refine Spares.bind (Pairing.InMem.spares_rounds (fun _ => True) (fun _ a b _ _ => (spares_combine N k a b).post fun _ _ _ _ => trivial) fuel 0 rows
          fun _ _ => trivial) fun x _ => ?_
        cases x with
        | error e => exact Spares.pure trivial
        | ok rows =>
          exact Spares.bind Spares.lift fun _ _ => Spares.bind (Spares.contents _) fun _ _ => Spares.ite (Spares.pure trivial) (Spares.pure trivial)

end Equihash.InMem

namespace Beam.InMem

theorem spares_val (x : Big) : Spares n (val x) fun _ => True := Spares.idx x 0

theorem spares_set {z : Big} (hz : n .big ≤ z.arr) (v : Nat) : Spares n (set z v) fun _ => True := Spares.upd (Or.inl hz) 0 v

theorem spares_new (v : Nat) : Spares n (new v) fun z => n .big ≤ z.arr := Spares.lit .big [v]

theorem spares_and {z : Big} (hz : n .big ≤ z.arr) (x y : Big) : Spares n (and z x y) fun _ => True :=
  Spares.bind (spares_val x) fun _ _ => Spares.bind (spares_val y) fun _ _ => spares_set hz _

theorem spares_or {z : Big} (hz : n .big ≤ z.arr) (x y : Big) : Spares n (or z x y) fun _ => True :=
  Spares.bind (spares_val x) fun _ _ => Spares.bind (spares_val y) fun _ _ => spares_set hz _

theorem spares_xor {z : Big} (hz : n .big ≤ z.arr) (x y : Big) : Spares n (xor z x y) fun _ => True :=
  Spares.bind (spares_val x) fun _ _ => Spares.bind (spares_val y) fun _ _ => spares_set hz _

theorem spares_rsh {z : Big} (hz : n .big ≤ z.arr) (x : Big) (k : Nat) : Spares n (rsh z x k) fun _ => True :=
  Spares.bind (spares_val x) fun _ _ => spares_set hz _

theorem spares_lsh {z : Big} (hz : n .big ≤ z.arr) (x : Big) (k : Nat) : Spares n (lsh z x k) fun _ => True :=
  Spares.bind (spares_val x) fun _ _ => spares_set hz _

macro_rules | `(tactic| spares_rule) => `(tactic| with_reducible first
  | exact Beam.InMem.spares_val _ | exact Beam.InMem.spares_new _
  | (refine Beam.InMem.spares_set ?_ _; spares_side) | (refine Beam.InMem.spares_and ?_ _ _; spares_side) | (refine Beam.InMem.spares_or ?_ _ _; spares_side)
  | (refine Beam.InMem.spares_xor ?_ _ _; spares_side) | (refine Beam.InMem.spares_rsh ?_ _ _; spares_side) | (refine Beam.InMem.spares_lsh ?_ _ _; spares_side))

theorem spares_reverseBytes (b : Slice .byte) : Spares n (reverseBytes b) fun s => n .byte ≤ s.arr := by
  unfold reverseBytes
  spares

macro_rules | `(tactic| spares_rule) => `(tactic| with_reducible exact Beam.InMem.spares_reverseBytes _)

theorem spares_indicesFromMinimal (G : Globals) (soln : Slice .byte) : Spares n (indicesFromMinimal G soln) fun _ => True := by
  unfold indicesFromMinimal
  spares

theorem spares_newNode (prePow : Slice .dword) (ix : U32) : Spares n (newNode prePow ix) fun nd => n .big ≤ nd.bitset.arr := by
  unfold newNode
  refine Spares.bind (spares_new _) fun bitset hb => Spares.bind (Q := fun _ => True) (Spares.each _ _ fun t => ?_) fun _ _ => Spares.bind (Spares.lit _ _) fun _ _ => Spares.pure hb
  unfold wordStep
  spares

theorem spares_newNodeFromChildrenRef (a b : Node) (remLen : U32) : Spares n (newNodeFromChildrenRef a b remLen) fun nd => n .big ≤ nd.bitset.arr := by
  unfold newNodeFromChildrenRef
  refine Spares.bind (spares_new _) fun w hw => Spares.bind (spares_xor hw _ _) fun _ _ => Spares.bind (spares_rsh hw _ _) fun _ _ => ?_
  refine Spares.bind (Spares.make _ _) fun raw hraw => Spares.bind (Q := fun _ => True) (by spares) fun _ _ => ?_
  refine Spares.bind (Spares.contents _) fun _ _ => Spares.bind (spares_new _) fun m hm => Spares.bind (spares_rsh hm _ _) fun _ _ => ?_
  refine Spares.bind (spares_and hw _ _) fun _ _ => ?_
  refine Spares.bind (Spares.make _ _) fun ix hi => Spares.bind (Spares.idx _ _) fun _ _ => Spares.bind (Spares.idx _ _) fun _ _ => ?_
  exact Spares.ite (Spares.bind (Spares.append hi _) fun ix hi => Spares.bind (Spares.append hi _) fun _ _ => Spares.pure hw)
    (Spares.bind (Spares.append hi _) fun ix hi => Spares.bind (Spares.append hi _) fun _ _ => Spares.pure hw)

theorem spares_validateSubtrees (G : Globals) (a b : Node) : Spares n (validateSubtrees G a b) fun _ => True := by
  unfold validateSubtrees
  refine Spares.bind (spares_new _) fun x hx => Spares.bind (spares_and hx _ _) fun _ _ => Spares.bind (spares_new _) fun y hy => Spares.bind (spares_and hy _ _) fun _ _ => ?_
  refine Spares.bind (spares_val _) fun _ _ => Spares.bind (spares_val _) fun _ _ => Spares.ite (Spares.pure trivial) ?_
  refine Spares.bind (Spares.idx _ _) fun _ _ => Spares.bind (Spares.idx _ _) fun _ _ => Spares.ite (Spares.pure trivial) ?_
  exact Spares.bind (Spares.contents _) fun _ _ => Spares.bind (Spares.contents _) fun _ _ => Spares.ite (Spares.pure trivial) (Spares.pure trivial)

theorem spares_applyMix (G : Globals) {nd : Node} (hb : n .big ≤ nd.bitset.arr) (remLen : U32) : Spares n (applyMix G nd remLen) fun _ => True := by
  unfold applyMix
  refine Spares.bind (spares_new _) fun t ht => Spares.bind (spares_val _) fun _ _ => Spares.bind (spares_set ht _) fun _ _ => ?_
  refine Spares.bind (Q := fun _ => True) (Spares.each _ _ fun i => ?_) fun _ _ => ?_
  · unfold padStep
    spares
  refine Spares.bind (Q := fun _ => True) (Spares.values _ _ _ fun i s => ?_) fun _ _ => ?_
  · unfold mixStep
    spares
  exact Spares.bind (spares_new _) fun r _ => Spares.bind (spares_rsh hb _ _) fun _ _ => Spares.bind (spares_lsh hb _ _) fun _ _ => spares_or hb _ _

theorem spares_initializePrePow (P : Prims) (personal header soln : Slice .byte) : Spares n (initializePrePow P personal header soln) fun _ => True := by
  unfold initializePrePow
  spares

theorem spares_combine (G : Globals) (r : U32) {a b : Node} (ha : n .big ≤ a.bitset.arr) (hb : n .big ≤ b.bitset.arr) :
    Spares n (combine G r a b) fun x => ∀ c, x = .ok c → n .big ≤ c.bitset.arr := by
  unfold combine
  refine Spares.bind (spares_applyMix G ha _) fun _ _ => Spares.bind (spares_applyMix G hb _) fun _ _ => Spares.bind (spares_validateSubtrees G a b) fun x _ => ?_
  cases x with
  | some e => exact Spares.pure fun _ h => by cases h
  | none =>
    refine Spares.bind (spares_newNodeFromChildrenRef _ _ _) fun nd hnd => Spares.pure fun c hc => ?_
    obtain rfl := Except.ok.inj hc
    exact hnd

theorem spares_verify (P : Prims) (fuel : Nat) (G : Globals) (personal header soln : Slice .byte) : Spares n (verify P fuel G personal header soln) fun _ => True := by
  unfold verify
  refine Spares.bind (spares_initializePrePow P personal header soln) fun prePow _ => Spares.bind (spares_indicesFromMinimal G soln) fun indices _ => ?_
  refine Spares.bind (Spares.forRange (fun rows : List Node => ∀ a ∈ rows, n .big ≤ a.bitset.arr) _ _ _ (by simp) fun i rows hr => ?_) fun rows hr => ?_
  · unfold rowStep
    refine Spares.bind (Spares.idx _ _) fun _ _ => Spares.bind (spares_newNode _ _) fun nd hnd => Spares.pure fun a ha => ?_
    rcases List.mem_append.1 ha with h | h
    · exact hr a h
    · obtain rfl := List.mem_singleton.1 h
      exact hnd
  · refine Spares.bind (Pairing.InMem.spares_rounds (fun a : Node => n .big ≤ a.bitset.arr) (fun _ a b ha hb => spares_combine G _ ha hb) fuel 1 rows hr) fun x _ => ?_
    cases x with
    | error e => exact Spares.pure trivial
    | ok rows =>
      exact Spares.bind Spares.lift fun _ _ => Spares.bind (spares_new _) fun _ _ => Spares.bind (spares_val _) fun _ _ => Spares.bind (spares_val _) fun _ _ =>
        Spares.ite (Spares.pure trivial) (Spares.pure trivial)

theorem spares_clientVerify (P : Prims) (fuel : Nat) (G : Globals) (personal header soln : Slice .byte) :
    Spares n (clientVerify P fuel G personal header soln) fun _ => True := by
  unfold clientVerify
  exact Spares.ite (Spares.pure trivial) (Spares.ite (Spares.pure trivial) (spares_verify P fuel G personal header soln))

end Beam.InMem

namespace Dag.InMem

theorem spares_viewArray (v : View) : Spares n v.array fun _ => True := Spares.bind (Spares.array _) fun _ _ => Spares.pure trivial

theorem spares_viewContents (v : View) : Spares n v.contents fun _ => True := Spares.bind (spares_viewArray v) fun _ _ => Spares.pure trivial

theorem spares_viewSlc (v : View) (lo hi : Nat) : Spares n (v.slc lo hi) fun r => r.arr = v.arr := by
  unfold View.slc
  by_cases hc : lo ≤ hi ∧ hi ≤ v.cap
  · rw [if_pos hc]; exact Spares.pure rfl
  · rw [if_neg hc]; exact Spares.lift.post fun _ h => by cases h

theorem spares_viewBlit {v : View} (hv : n .word ≤ v.arr) (bs : List Byte) : Spares n (v.blit bs) fun _ => True :=
  Spares.bind (spares_viewArray v) fun _ _ => Spares.blit (s := (⟨v.arr, 0, 0, 0⟩ : Slice .word)) hv 0 _

theorem spares_viewCopy {v : View} (hv : n .word ≤ v.arr) (s : Slice .byte) : Spares n (v.copy s) fun _ => True :=
  Spares.bind (Spares.contents s) fun _ _ => spares_viewBlit hv _

theorem spares_hashToView (P : Prims) {v : View} (hv : n .word ≤ v.arr) (xs : List Byte) : Spares n (hashToView P v xs) fun _ => True :=
  Spares.bind (spares_viewSlc v 0 64) fun _ hd => spares_viewBlit (by rw [hd]; exact hv) _

theorem spares_generateCache (P : Prims) (rounds : Int) {dest : Slice .word} (hd : n .word ≤ dest.arr) (seed : Slice .byte) :
    Spares n (generateCache P rounds dest seed) fun _ => True := by
  have hv : n .word ≤ (View.of dest).arr := hd
  unfold generateCache
  refine Spares.bind (Spares.contents _) fun xs _ => Spares.bind (spares_hashToView P hv xs) fun _ _ => ?_
  refine Spares.bind (Q := fun _ => True) (Spares.each _ _ fun k => ?_) fun _ _ => ?_
  · unfold chain
    refine Spares.bind (spares_viewSlc _ _ _) fun d he => Spares.bind (spares_viewSlc _ _ _) fun _ _ => Spares.bind (spares_viewContents _) fun _ _ => ?_
    exact spares_hashToView P (by rw [he]; exact hv) _
  · refine Spares.bind (Spares.make _ _) fun temp ht => Spares.each _ _ fun _ => Spares.each _ _ fun j => ?_
    unfold memo
    refine Spares.bind (spares_viewSlc _ _ _) fun _ _ => Spares.bind (spares_viewContents _) fun _ _ => Spares.bind Spares.lift fun _ _ => ?_
    refine Spares.bind Spares.lift fun _ _ => Spares.bind (spares_viewSlc _ _ _) fun a _ => Spares.bind (spares_viewSlc _ _ _) fun b _ => ?_
    refine Spares.bind (Q := fun _ => True) ?_ fun _ _ => Spares.bind (spares_viewSlc _ _ _) fun d he => Spares.bind (Spares.contents _) fun _ _ =>
      spares_hashToView P (by rw [he]; exact hv) _
    unfold xorViews
    refine Spares.bind (spares_viewContents _) fun _ _ => Spares.bind (spares_viewContents _) fun _ _ => ?_
    exact Spares.ite (Spares.lift.post fun _ _ => trivial) (Spares.blit ht _ _)

theorem spares_generateL1Cache (P : Prims) (parents : U32) {dest : Slice .word} (hd : n .word ≤ dest.arr) (cache : Slice .word) :
    Spares n (generateL1Cache P parents dest cache) fun _ => True := by
  unfold generateL1Cache
  refine Spares.each _ _ fun i => Spares.bind (spares_generateDatasetItem P parents cache _) fun _ _ => Spares.bind (spares_viewSlc _ _ _) fun d he => ?_
  exact spares_viewCopy (by rw [he]; exact hd) _

theorem spares_seedHash (P : Prims) (d : Config) (height : U64) : Spares n (seedHash P d height) fun s => n .byte ≤ s.arr := by
  unfold seedHash
  refine Spares.bind (Spares.make _ _) fun s hs => Spares.ite (Spares.pure hs) (Spares.bind Spares.lift fun _ _ => ?_)
  refine Spares.bind (Q := fun _ => True) (Spares.each _ _ fun _ => ?_) fun _ _ => Spares.pure hs
  unfold keccak256Hasher
  spares

theorem spares_generate (P : Prims) (fuel : Nat) (d : Config) (epoch : U64) :
    Spares n (generate P fuel d epoch) fun p => n .word ≤ p.1.arr ∧ (p.2 = nilWords ∨ n .word ≤ p.2.arr) := by
  unfold generate
  refine Spares.bind Spares.lift fun _ _ => Spares.bind (spares_seedHash P d _) fun _ _ => Spares.bind (Spares.make _ _) fun c hc => ?_
  refine Spares.bind (spares_generateCache P _ hc _) fun _ _ => Spares.ite ?_ (Spares.pure ⟨hc, Or.inl rfl⟩)
  exact Spares.bind (Spares.make _ _) fun l hl => Spares.bind (spares_generateL1Cache P _ hl _) fun _ _ => Spares.pure ⟨hc, Or.inr hl⟩

end Dag.InMem

end Verif
