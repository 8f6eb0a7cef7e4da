import Verif.Proof.Isolation
import Verif.Model.InMem.Autolykos
import Verif.Model.InMem.Small

/-! # Autolykos 2, HeavyHash, Eaglesong and Cuckoo Cycle write to their own arrays only -/

set_option autoImplicit false

namespace Verif

open Go

variable {n : Ty → Nat}

namespace Convutil.InMem

theorem spares_uint32ArrayToBytes (arr : Slice .word) (o : ByteOrder) : Spares n (uint32ArrayToBytes arr o) fun s => n .byte ≤ s.arr := by
  unfold uint32ArrayToBytes
  spares

theorem spares_bytesToUint32Array (buf : Slice .byte) (o : ByteOrder) : Spares n (bytesToUint32Array buf o) fun s => n .word ≤ s.arr := by
  unfold bytesToUint32Array
  spares

theorem spares_uint32ToBytes (v : U32) (o : ByteOrder) : Spares n (uint32ToBytes v o) fun s => n .byte ≤ s.arr := by
  unfold uint32ToBytes
  spares

theorem spares_uint64ToBytes (v : U64) (o : ByteOrder) : Spares n (uint64ToBytes v o) fun s => n .byte ≤ s.arr := by
  unfold uint64ToBytes
  spares

end Convutil.InMem

open Convutil.InMem

macro_rules | `(tactic| spares_rule) => `(tactic| first
  | exact spares_uint32ArrayToBytes _ _ | exact spares_bytesToUint32Array _ _ | exact spares_uint32ToBytes _ _ | exact spares_uint64ToBytes _ _)

theorem Crypto.InMem.spares_blake2b256 (P : Prims) (data : Slice .byte) : Spares n (Crypto.InMem.blake2b256 P data) fun s => n .byte ≤ s.arr := by
  unfold Crypto.InMem.blake2b256
  spares

theorem Autolykos.InMem.spares_concatBytes (a b : Slice .byte) : Spares n (Autolykos.InMem.concatBytes a b) fun s => n .byte ≤ s.arr := by
  unfold Autolykos.InMem.concatBytes
  spares

theorem Autolykos.InMem.spares_generateM (k : Nat) : Spares n (Autolykos.InMem.generateM k) fun s => n .byte ≤ s.arr := by
  unfold Autolykos.InMem.generateM
  spares

theorem Autolykos.InMem.spares_setBytes (b : Slice .byte) : Spares n (Autolykos.InMem.setBytes b) fun s => n .big ≤ s.arr := by
  unfold Autolykos.InMem.setBytes
  spares

open Crypto.InMem Autolykos.InMem

macro_rules | `(tactic| spares_rule) => `(tactic| first
  | exact spares_blake2b256 _ _ | exact spares_concatBytes _ _ | exact spares_generateM _ | exact spares_setBytes _)

theorem Autolykos.InMem.spares_genIndexes (P : Prims) (seed : Slice .byte) (k m : U32) :
    Spares n (Autolykos.InMem.genIndexes P seed k m) fun s => n .word ≤ s.arr := by
  unfold Autolykos.InMem.genIndexes
  spares

theorem Autolykos.InMem.spares_sumStep (P : Prims) (h m : Slice .byte) (indexes : Slice .word) {f2 : Slice .big} (hf : n .big ≤ f2.arr) (j : Nat) :
    Spares n (Autolykos.InMem.sumStep P h m indexes f2 j) fun _ => True := by
  unfold Autolykos.InMem.sumStep
  spares

macro_rules | `(tactic| spares_rule) => `(tactic| first
  | exact spares_genIndexes _ _ _ _ | exact spares_sumStep _ _ _ _ (by spares_side) _)

theorem Autolykos.InMem.spares_compute (P : Prims) (k nBase : U32) (msg : Slice .byte) (nonce height : U64) :
    Spares n (Autolykos.InMem.compute P k nBase msg nonce height) fun s => n .byte ≤ s.arr := by
  unfold Autolykos.InMem.compute
  spares


/-- what is known about an optional slice -/
def Fresh? {t : Ty} (n : Ty → Nat) (o : Option (Slice t)) : Prop := ∀ s, o = some s → n t ≤ s.arr

theorem Autolykos.InMem.spares_clientCompute (P : Prims) (c : Client) (msg : Slice .byte) (height nonce : U64) :
    Spares n (Autolykos.InMem.clientCompute P c msg height nonce) (Fresh? n) := by
  unfold Autolykos.InMem.clientCompute
  refine Spares.ite (Spares.pure ?_) ((Autolykos.InMem.spares_compute P _ _ msg nonce height).bind fun s hs => Spares.pure ?_)
  · intro s hs; cases hs
  · intro r hr
    obtain rfl := Option.some.inj hr
    exact hs

/-! ## HeavyHash -/

theorem Heavy.InMem.spares_cshake256 (P : Prims) (data : Slice .byte) (personal : List Byte) (size : Nat) :
    Spares n (Heavy.InMem.cshake256 P data personal size) fun s => n .byte ≤ s.arr := by
  unfold Heavy.InMem.cshake256
  spares

theorem Heavy.InMem.spares_vectorStep (header : Slice .byte) (i : Nat) (v : List U16) : Spares n (Heavy.InMem.vectorStep header i v) fun _ => True := by
  unfold Heavy.InMem.vectorStep
  spares

open Heavy.InMem in
macro_rules | `(tactic| spares_rule) => `(tactic| with_reducible first
  | exact Heavy.InMem.spares_cshake256 _ _ _ _ | exact Heavy.InMem.spares_vectorStep _ _ _)

theorem Heavy.InMem.spares_heavyHash {F : Type} (N : Num F) (P : Prims) (fuel : Nat) (hash : Slice .byte) (timestamp nonce : U64) :
    Spares n (Heavy.InMem.heavyHash N P fuel hash timestamp nonce) fun s => n .byte ≤ s.arr := by
  unfold Heavy.InMem.heavyHash
  spares

theorem Heavy.InMem.spares_compute {F : Type} (N : Num F) (P : Prims) (fuel : Nat) (hash : Slice .byte) (timestamp nonce : U64) :
    Spares n (Heavy.InMem.compute N P fuel hash timestamp nonce) (Fresh? n) := by
  unfold Heavy.InMem.compute
  refine Spares.ite (Spares.pure ?_) ((Heavy.InMem.spares_heavyHash N P fuel hash timestamp nonce).bind fun s hs => Spares.pure ?_)
  · intro s hs; cases hs
  · intro r hr
    obtain rfl := Option.some.inj hr
    exact hs

/-! ## Eaglesong -/

theorem Eaglesong.InMem.spares_roundStep {state : Slice .word} (hs : n .word ≤ state.arr) (i : Nat) :
    Spares n (Eaglesong.InMem.roundStep state i) fun _ => True := by
  unfold Eaglesong.InMem.roundStep
  spares

theorem Eaglesong.InMem.spares_permute (rounds : Nat) {state : Slice .word} (hs : n .word ≤ state.arr) :
    Spares n (Eaglesong.InMem.permute rounds state) fun _ => True := by
  unfold Eaglesong.InMem.permute
  exact Spares.each _ _ fun j => Eaglesong.InMem.spares_roundStep hs j

theorem Eaglesong.InMem.spares_byteStep (input : Slice .byte) (delim : Byte) (base k : Nat) (integer : U32) :
    Spares n (Eaglesong.InMem.byteStep input delim base k integer) fun _ => True := by
  unfold Eaglesong.InMem.byteStep
  spares

macro_rules | `(tactic| spares_rule) => `(tactic| with_reducible first
  | (refine Eaglesong.InMem.spares_permute _ ?_; spares_side) | exact Eaglesong.InMem.spares_byteStep _ _ _ _ _)

theorem Eaglesong.InMem.spares_blockStep (rounds rate : Nat) (delim : Byte) (input : Slice .byte) {state : Slice .word} (hs : n .word ≤ state.arr) (i : Nat) :
    Spares n (Eaglesong.InMem.blockStep rounds rate delim input state i) fun _ => True := by
  unfold Eaglesong.InMem.blockStep
  spares

theorem Eaglesong.InMem.spares_squeezeStep (rounds rate : Nat) {output : Slice .byte} (ho : n .byte ≤ output.arr) {state : Slice .word} (hs : n .word ≤ state.arr) (i : Nat) :
    Spares n (Eaglesong.InMem.squeezeStep rounds rate output state i) fun _ => True := by
  unfold Eaglesong.InMem.squeezeStep
  spares

macro_rules | `(tactic| spares_rule) => `(tactic| with_reducible first
  | (refine Eaglesong.InMem.spares_blockStep _ _ _ _ ?_ _; spares_side) | (refine Eaglesong.InMem.spares_squeezeStep _ _ ?_ ?_ _ <;> spares_side))

theorem Eaglesong.InMem.spares_eaglesong (rounds capacity rate : Int) (delim : Byte) (input : Slice .byte) :
    Spares n (Eaglesong.InMem.eaglesong rounds capacity rate delim input) fun s => n .byte ≤ s.arr := by
  have hp : ∀ p : Panic, Spares n (Mem.lift (panic p) : Mem (Slice .byte)) fun s => n .byte ≤ s.arr := fun p => Spares.lift.post fun _ h => by cases h
  unfold Eaglesong.InMem.eaglesong
  refine (Spares.make _ _).bind fun state hs => ?_
  refine Spares.ite (hp _) ?_
  refine (Spares.each _ _ fun j => Eaglesong.InMem.spares_blockStep _ _ _ _ hs j).bind fun _ _ => ?_
  refine Spares.ite (hp _) ?_
  refine (Spares.make _ _).bind fun output ho => ?_
  exact Spares.ite (hp _) ((Spares.each _ _ fun j => Eaglesong.InMem.spares_squeezeStep _ _ ho hs j).bind fun _ _ => Spares.pure ho)

/-! ## Cuckoo Cycle -/

namespace Cuckoo.InMem

theorem spares_checkEdge (c : Client) (edges : Slice .dword) (i : Nat) : Spares n (checkEdge c edges i) fun _ => True := by
  unfold checkEdge
  spares

macro_rules | `(tactic| spares_rule) => `(tactic| with_reducible exact Cuckoo.InMem.spares_checkEdge _ _ _)

theorem step_true {σ β : Type} {m : Mem (Step σ β)} (h : Spares n m fun _ => True) : Spares n m (Spares.ofStep (fun _ => True) fun _ => True) :=
  h.post fun a _ => by cases a <;> trivial

theorem spares_cuckooBody (c : Client) (keys : Siphash.Keys) (edges : Slice .dword) {uvs : Slice .dword} (hu : n .dword ≤ uvs.arr) (i : Nat) (s : U64 × U64) :
    Spares n (cuckooBody c keys edges uvs i s) fun _ => True := by
  unfold cuckooBody
  spares

theorem spares_cuckarooBody (c : Client) (keys : Siphash.Keys) (edges : Slice .dword) {uvs : Slice .dword} (hu : n .dword ≤ uvs.arr) (i : Nat) (s : U64 × U64) :
    Spares n (cuckarooBody c keys edges uvs i s) fun _ => True := by
  unfold cuckarooBody
  spares

theorem spares_innerStep (uvs : Slice .dword) (proofSize i : Nat) (s : Nat × Nat) : Spares n (innerStep uvs proofSize i s) fun _ => True := by
  unfold innerStep
  spares

theorem spares_outerStep (uvs : Slice .dword) (proofSize fuel : Nat) (s : Nat × Nat) : Spares n (outerStep uvs proofSize fuel s) fun _ => True := by
  unfold outerStep
  refine Spares.bind (Q := fun _ => True) (Spares.forever (fun _ => True) _ (fun a _ => step_true (spares_innerStep uvs proofSize s.1 a)) fuel _ trivial) fun x _ => ?_
  spares

theorem spares_walk (c : Client) (fuel : Nat) (uvs : Slice .dword) (xors : U64 × U64) : Spares n (walk c fuel uvs xors) fun _ => True := by
  unfold walk
  refine Spares.ite (Spares.pure trivial) ?_
  refine Spares.bind (Q := fun _ => True) (Spares.forever (fun _ => True) _ (fun a _ => step_true (spares_outerStep uvs _ fuel a)) fuel _ trivial) fun x _ => ?_
  spares

theorem spares_cuckoo (c : Client) (fuel : Nat) (keys : Siphash.Keys) (edges : Slice .dword) : Spares n (cuckoo c fuel keys edges) fun _ => True := by
  unfold cuckoo
  refine (Spares.make _ _).bind fun uvs hu => ?_
  refine (Spares.forRangeE (fun _ => True) (fun _ => True) _ _ _ trivial fun j a _ => step_true (spares_cuckooBody c keys edges hu j a)).bind fun x _ => ?_
  cases x with
  | ret e => exact Spares.pure trivial
  | cont s => exact spares_walk c fuel uvs s

theorem spares_cuckaroo (c : Client) (fuel : Nat) (keys : Siphash.Keys) (edges : Slice .dword) : Spares n (cuckaroo c fuel keys edges) fun _ => True := by
  unfold cuckaroo
  refine (Spares.make _ _).bind fun uvs hu => ?_
  refine (Spares.forRangeE (fun _ => True) (fun _ => True) _ _ _ trivial fun j a _ => step_true (spares_cuckarooBody c keys edges hu j a)).bind fun x _ => ?_
  cases x with
  | ret e => exact Spares.pure trivial
  | cont s => exact spares_walk c fuel uvs s

theorem spares_headerKeys (P : Prims) (header : Slice .byte) : Spares n (headerKeys P header) fun _ => True := by
  unfold headerKeys
  spares

theorem spares_verify (P : Prims) (c : Client) (fuel : Nat) (header : Slice .byte) (sols : Slice .dword) : Spares n (verify P c fuel header sols) fun _ => True := by
  unfold verify
  refine Spares.ite (Spares.pure trivial) ((spares_headerKeys P header).bind fun keys _ => ?_)
  cases c.variant with
  | cuckoo => exact spares_cuckoo c fuel keys sols
  | cuckaroo => exact spares_cuckaroo c fuel keys sols
  | _ => exact Spares.pure trivial

end Cuckoo.InMem

end Verif
