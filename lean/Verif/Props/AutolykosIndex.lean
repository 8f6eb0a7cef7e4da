import Verif.Proof.AutolykosIndex
import Verif.Props.Autolykos
import Verif.Props.Binding

/-! # C104: the indexes of Autolykos2 determine what they were drawn from -/

set_option autoImplicit false

namespace Verif.Props

open Go Autolykos

/-- **C104** At every height, `genIndexes` returns the same 32 indexes for two seeds exactly when the seeds have the same digest: taking
32 overlapping windows modulo the size of the table loses nothing of the digest. -/
theorem C104_indexes (P : Prims) (height : U64) (n : U32) (hn : calcN newErgo.nBase height = .ok n) (x y : List Byte) :
    genIndexes P x newErgo.k n = genIndexes P y newErgo.k n ↔ P.blake2b256 x = P.blake2b256 y := by
  obtain ⟨n', e, v, hge⟩ := C53_size height
  rw [hn] at e
  obtain rfl := Except.ok.inj e
  have hn0 : n ≠ 0 := by
    rintro rfl
    revert hge
    decide
  rw [genIndexes_eq P x _ n (by decide) hn0, genIndexes_eq P y _ n (by decide) hn0]
  constructor
  · intro h
    have h := Except.ok.inj h
    have hs := size_separates height.toNat
    rw [← v] at hs
    refine windows_inj hs _ _ (P.blake2b256_length x) (P.blake2b256_length y) fun j hj => ?_
    have hj := List.map_inj_left.mp h j (List.mem_range.mpr hj)
    have hlt : ∀ w : Nat, w % n.toNat < 2 ^ 32 := fun w => Nat.lt_trans (Nat.mod_lt _ (by omega)) n.isLt
    have := congrArg BitVec.toNat hj
    rwa [BitVec.toNat_ofNat, BitVec.toNat_ofNat, Nat.mod_eq_of_lt (hlt _), Nat.mod_eq_of_lt (hlt _)] at this
  · intro h
    rw [h]

/-- **C104** Two attempts at one height that select the same 32 elements in the same order are the same attempt, or their seeds are a collision
of Blake2b-256. -/
theorem C104_attempts (P : Prims) (height : Nat) (msg msg' : List Byte) (hm : msg.length = 32) (hm' : msg'.length = 32) (nonce nonce' : U64) :
    let N := Spec.Autolykos.tableSize (2 ^ 26) height
    let b := Spec.beEncode 8 nonce.toNat
    let b' := Spec.beEncode 8 nonce'.toNat
    (∀ j < 32, Spec.Autolykos.index P.blake2b256 N height msg b j = Spec.Autolykos.index P.blake2b256 N height msg' b' j) →
      (msg = msg' ∧ nonce = nonce') ∨
      Collision P.blake2b256 (Spec.Autolykos.seed P.blake2b256 N height msg b) (Spec.Autolykos.seed P.blake2b256 N height msg' b') := by
  intro N b b' h
  have hd := windows_inj (size_separates height) _ _ (P.blake2b256_length _) (P.blake2b256_length _) h
  by_cases hs : Spec.Autolykos.seed P.blake2b256 N height msg b = Spec.Autolykos.seed P.blake2b256 N height msg' b'
  · left
    unfold Spec.Autolykos.seed at hs
    have hel : ∀ i, (Spec.Autolykos.element P.blake2b256 height i).length = 31 := fun i => by
      rw [Spec.Autolykos.element, List.length_drop, P.blake2b256_length]
    have h1 := (List.append_inj hs (by rw [hel, hel])).2
    have h2 := List.append_inj h1 (by omega)
    refine ⟨h2.1, ?_⟩
    exact BitVec.eq_of_toNat_eq (Spec.beEncode_inj 8 _ _ (by have := nonce.isLt; omega) (by have := nonce'.isLt; omega) h2.2)
  · exact Or.inr ⟨hs, hd⟩

/-- **C104** Only the order of the elements is lost: two attempts at one height whose seeds have digests that are rotations of each other by any
number of bytes have the same result, whatever the messages and nonces are. -/
theorem C104_rotation (P : Prims) (height : U64) (msg msg' : List Byte) (hm : msg.length = 32) (hm' : msg'.length = 32) (nonce nonce' : U64) (r : Nat)
    (h : let N := Spec.Autolykos.tableSize (2 ^ 26) height.toNat
      P.blake2b256 (Spec.Autolykos.seed P.blake2b256 N height.toNat msg' (Spec.beEncode 8 nonce'.toNat)) =
        (P.blake2b256 (Spec.Autolykos.seed P.blake2b256 N height.toNat msg (Spec.beEncode 8 nonce.toNat))).rotate r) :
    newErgo.compute P msg' height nonce' = newErgo.compute P msg height nonce := by
  rw [C54_compute P msg hm, C54_compute P msg' hm']
  unfold Spec.Autolykos.digest Spec.Autolykos.sum Spec.Autolykos.index
  rw [h]
  refine congrArg (fun s => Except.ok (some (P.blake2b256 (Spec.Autolykos.minimalBytes s)))) ?_
  exact windows_rotate (fun w => Spec.beValue (Spec.Autolykos.element P.blake2b256 height.toNat (w % Spec.Autolykos.tableSize (2 ^ 26) height.toNat)))
    _ (P.blake2b256_length _) r

/-- a function in the place of Blake2b-256 whose digests are rotations of one string, by the last byte of the input -/
def rotating : Prims := { Prims.zero with
  blake2b256 := fun x => ((List.range 32).map (BitVec.ofNat 8)).rotate (x.getLastD 0).toNat
  blake2b256_length := fun x => by simp }

/-- for it the hypothesis of the rotation is met by all nonces below 256, and not only by equal digests -/
example (height : U64) (msg : List Byte) (hm : msg.length = 32) (b : Byte) : ∃ s s', rotating.blake2b256 s' = (rotating.blake2b256 s).rotate b.toNat ∧
    (b = 1 → rotating.blake2b256 s' ≠ rotating.blake2b256 s) ∧
    s = Spec.Autolykos.seed rotating.blake2b256 (Spec.Autolykos.tableSize (2 ^ 26) height.toNat) height.toNat msg (Spec.beEncode 8 0) ∧
    s' = Spec.Autolykos.seed rotating.blake2b256 (Spec.Autolykos.tableSize (2 ^ 26) height.toNat) height.toNat msg (Spec.beEncode 8 b.toNat) ∧
    newErgo.compute rotating msg height (b.setWidth 64) = newErgo.compute rotating msg height 0 := by
  have hl : ∀ (l : List Byte) (v : Nat), (l ++ (msg ++ Spec.beEncode 8 v)).getLastD 0 = BitVec.ofNat 8 v := by
    intro l v
    rw [← List.append_assoc, Spec.beEncode, Spec.leEncode, List.reverse_cons, ← List.append_assoc]
    simp
  have hr : ∀ v, rotating.blake2b256 (Spec.Autolykos.seed rotating.blake2b256 (Spec.Autolykos.tableSize (2 ^ 26) height.toNat) height.toNat msg (Spec.beEncode 8 v)) =
      ((List.range 32).map (BitVec.ofNat 8)).rotate (BitVec.ofNat 8 v).toNat := by
    intro v
    rw [Spec.Autolykos.seed]
    exact congrArg (fun y : Byte => ((List.range 32).map (BitVec.ofNat 8)).rotate y.toNat) (hl _ v)
  have hb : (BitVec.ofNat 8 b.toNat).toNat = b.toNat := by simp
  refine ⟨_, _, ?_, ?_, rfl, rfl, ?_⟩
  · rw [hr, hr, hb]
    rfl
  · rintro rfl
    rw [hr, hr]
    decide
  · refine C104_rotation rotating height msg msg hm hm 0 _ b.toNat ?_
    dsimp only
    rw [hr, hr, show (b.setWidth 64).toNat = b.toNat by simp; omega, hb]
    rfl

/-- the hypotheses of C104 have instances at every height -/
example (height : U64) : ∃ n : U32, calcN newErgo.nBase height = .ok n := ⟨_, (C53_size height).choose_spec.1⟩

/-- the modulus matters: with `2 ^ 32 - 1` elements
the digests of all zeros and of all ones give the same indexes -/
example : let h : List Byte := List.replicate 32 0
    let h' : List Byte := List.replicate 32 255
    h ≠ h' ∧ ∀ j < 32, Spec.beValue (((h ++ h).drop j).take 4) % (2 ^ 32 - 1) = Spec.beValue (((h' ++ h').drop j).take 4) % (2 ^ 32 - 1) := by
  decide +kernel

/-- one byte changed in the digest changes an index at the largest table -/
example : let h : List Byte := List.replicate 32 7
    let h' : List Byte := h.set 9 8
    Spec.beValue (((h ++ h).drop 6).take 4) % 2143944600 ≠ Spec.beValue (((h' ++ h').drop 6).take 4) % 2143944600 := by
  decide +kernel

end Verif.Props
