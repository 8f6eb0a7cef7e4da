import Verif.Proof.InMem.IsolationPair
import Verif.Props.Memory

/-! # Isolation: property C85

C83 says where the results of the functions of the API are, for the calls whose results the other theorems give. Here nothing is assumed about the
arguments: not their lengths, not that they are apart, not that the call is one whose result is known. No cell that existed
before the call is written, and the slices that it returns are new. This includes calls that panic, from which a caller may recover, and calls that do
not end: after any number of iterations of the loop that does not end. -/

set_option autoImplicit false

namespace Verif.Props

open Go

attribute [local irreducible] Tables.ethashCacheSizes Tables.ethashDatasetSizes Tables.firopowDatasetSizes Tables.octopusCacheSizes
  Tables.octopusDatasetSizes

/-- the result of a function with an error result, if there is one, is new -/
def NewOr {t : Ty} (h : Heap) (o : Option (Slice t)) : Prop := ∀ s, o = some s → New h s

/-- the same for two results -/
def NewTwo (h : Heap) (o : Option (Slice .byte × Slice .byte)) : Prop := ∀ r s, o = some (r, s) → New h r ∧ New h s

theorem two {m : Mem (Option (Slice .byte × Slice .byte))} (hm : Isolated m fun h o => ∀ p, o = some p → New h p.1 ∧ New h p.2) : Isolated m NewTwo :=
  ⟨fun h o h' e => ⟨(hm.1 h o h' e).1, fun r s hr => (hm.1 h o h' e).2 (r, s) hr⟩, hm.2⟩

section
variable (P : Prims)

/-- **C85** Autolykos2 `Compute`, for all parameters. -/
theorem C85_autolykos (c : Autolykos.Client) (msg : Slice .byte) (height nonce : U64) :
    Isolated (Autolykos.InMem.clientCompute P c msg height nonce) NewOr :=
  Spares.isolated fun _ => Autolykos.InMem.spares_clientCompute P c msg height nonce

/-- **C85** HeavyHash `Compute`, whatever the floating-point numbers are. -/
theorem C85_heavyhash {F : Type} (N : Heavy.Num F) (fuel : Nat) (hash : Slice .byte) (timestamp nonce : U64) :
    Isolated (Heavy.InMem.compute N P fuel hash timestamp nonce) NewOr :=
  Spares.isolated fun _ => Heavy.InMem.spares_compute N P fuel hash timestamp nonce

/-- **C85** Eaglesong `Compute`, for all parameters. -/
theorem C85_eaglesong (c : Eaglesong.Client) (input : Slice .byte) :
    Isolated (Eaglesong.InMem.eaglesong c.rounds c.capacity c.rate c.delim input) New :=
  Spares.isolated fun _ => Eaglesong.InMem.spares_eaglesong c.rounds c.capacity c.rate c.delim input

/-- **C85** Cuckoo Cycle and Cuckaroo `Verify`. -/
theorem C85_cuckoo (c : Cuckoo.Client) (fuel : Nat) (header : Slice .byte) (sols : Slice .dword) :
    Isolated (Cuckoo.InMem.verify P c fuel header sols) fun _ _ => True :=
  Spares.isolated fun _ => Cuckoo.InMem.spares_verify P c fuel header sols

/-- **C85** Equihash `Verify`. -/
theorem C85_equihash (n k : U32) (fuel : Nat) (personal : Slice .byte) (twist : Bool) (header soln : Slice .byte) :
    Isolated (Equihash.InMem.clientVerify P fuel n k personal twist header soln) fun _ _ => True :=
  Spares.isolated fun _ => Equihash.InMem.spares_verify P fuel n.toNat k.toNat personal header soln twist

/-- **C85** BeamHash III `Verify`: although the `big.Int`s of the nodes are overwritten, those of the package are not. -/
theorem C85_beam (fuel : Nat) (G : Beam.InMem.Globals) (personal header soln : Slice .byte) :
    Isolated (Beam.InMem.clientVerify P fuel G personal header soln) fun _ _ => True :=
  Spares.isolated fun _ => Beam.InMem.spares_clientVerify P fuel G personal header soln

end

/-! ## The DAG-based clients, for whatever slices `GetCache` gives -/

section
variable (P : Prims) (fuel : Nat) (d : Dag.Config) {getCache : Clients.InMem.GetCache} {F : U64 → Heap → Slice .word × Slice .word → Prop}
  (hg : ∀ e, Isolated (getCache e) (F e)) (hash : Slice .byte) (height nonce : U64)
include hg

/-- **C85** Ethash `Compute`. -/
theorem C85_ethash : Isolated (Clients.InMem.ethash P fuel d getCache hash height nonce) NewTwo :=
  two (Spares.isolated fun _ => Clients.InMem.spares_ethash P fuel d (fun e => Spares.of_isolated (hg e)) hash height nonce)

/-- **C85** KawPow `Compute`. -/
theorem C85_kawpow : Isolated (Clients.InMem.kawpow P fuel d getCache hash height nonce) NewTwo :=
  two (Spares.isolated fun _ => Clients.InMem.spares_kawpow P fuel d (fun e => Spares.of_isolated (hg e)) hash height nonce)

/-- **C85** FiroPow `Compute`. -/
theorem C85_firopow : Isolated (Clients.InMem.firopow P fuel d getCache hash height nonce) NewTwo :=
  two (Spares.isolated fun _ => Clients.InMem.spares_firopow P fuel d (fun e => Spares.of_isolated (hg e)) hash height nonce)

/-- **C85** Octopus `Compute`. -/
theorem C85_octopus : Isolated (Clients.InMem.octopus P fuel d getCache hash height nonce) NewOr :=
  Spares.isolated fun _ => Clients.InMem.spares_octopus P fuel d (fun e => Spares.of_isolated (hg e)) hash height nonce

end

/-- **C85** Generation of a cache without a storage directory: the cache is in new memory, and so is the L1 cache, or it is `nil`. -/
theorem C85_generate (P : Prims) (fuel : Nat) (d : Dag.Config) (epoch : U64) :
    Isolated (Dag.InMem.generate P fuel d epoch) fun h p => New h p.1 ∧ (p.2 = Dag.InMem.nilWords ∨ New h p.2) :=
  Spares.isolated fun _ => Dag.InMem.spares_generate P fuel d epoch

/-- **C85** Items of the dataset are in new memory, and the cache is not written. -/
theorem C85_item (P : Prims) (parents : U32) (cache : Slice .word) (index : U32) : Isolated (Dag.InMem.generateDatasetItem P parents cache index) New :=
  Spares.isolated fun _ => Dag.InMem.spares_generateDatasetItem P parents cache index

/-! ## Two calls

What the notion gives: a call does not change the outcome of what a later call reads, so results stay as they are. -/

/-- **C85** The result of one call survives any isolated call after it. -/
theorem C85_survives {α : Type} {m : Mem α} {F : Heap → α → Prop} (hm : Isolated m F) {t : Ty} {h h' : Heap} {a : α} (e : m h = .ok (a, h'))
    {s : Slice t} {xs : List t.Val} (k : Held h s xs) : Held h' s xs := C83_kept k (hm.1 h a h' e).1

/-! ## Concrete calls -/

/-- `Compute` with `k = 62`, where the model without memory panics: with a spare byte it returns -/
example : ∃ s h', Autolykos.InMem.genIndexes Prims.zero ⟨0, 0, 0, 0⟩ 62 1000 (spareOne 1) = .ok (s, h') ∧ Untouched (spareOne 1) h' ∧ New (spareOne 1) s := by
  have hx : (Prod.fst <$> Autolykos.InMem.genIndexes Prims.zero ⟨0, 0, 0, 0⟩ 62 1000 (spareOne 1)).isOk = true := by decide +kernel
  cases e : Autolykos.InMem.genIndexes Prims.zero ⟨0, 0, 0, 0⟩ 62 1000 (spareOne 1) with
  | error p => rw [e] at hx; cases hx
  | ok r => exact ⟨r.1, r.2, rfl, (Spares.isolated fun _ => Autolykos.InMem.spares_genIndexes Prims.zero ⟨0, 0, 0, 0⟩ 62 1000).1 _ _ _ e⟩

/-- a memory with one byte -/
def oneByte : Heap where
  store := fun t => match t with
    | .byte => [[5]]
    | _ => []
  spare := fun _ _ => []

/-- without the spare byte it panics, after it has made two arrays of bytes; the array of the caller is as it was -/
example : ∃ h', Autolykos.InMem.genIndexes Prims.zero ⟨0, 0, 1, 1⟩ 62 1000 oneByte = .error (.panic .slice, h') ∧ Untouched oneByte h' ∧
    (h'.store .byte).length = 3 := by
  have hx : (match Autolykos.InMem.genIndexes Prims.zero ⟨0, 0, 1, 1⟩ 62 1000 oneByte with
    | .error (p, h) => decide (p = .panic .slice) && decide ((h.store .byte).length = 3)
    | .ok _ => false) = true := by decide +kernel
  cases e : Autolykos.InMem.genIndexes Prims.zero ⟨0, 0, 1, 1⟩ 62 1000 oneByte with
  | ok r => rw [e] at hx; cases hx
  | error r =>
    obtain ⟨p, h⟩ := r
    rw [e] at hx
    obtain ⟨h1, h2⟩ := Bool.and_eq_true_iff.1 hx
    obtain rfl := of_decide_eq_true h1
    exact ⟨h, rfl, (Spares.isolated fun _ => Autolykos.InMem.spares_genIndexes Prims.zero ⟨0, 0, 1, 1⟩ 62 1000).2 _ _ _ e, of_decide_eq_true h2⟩

/-- two calls of Nervos' client with overlapping inputs: the first digest is still there after the second -/
example (input : List Byte) (hl : input.length < 2 ^ 59) : ∃ r h1 s h2,
    Eaglesong.InMem.eaglesong 43 32 256 6 ⟨1, 33, input.length, input.length + 2⟩ (somewhere input []) = .ok (r, h1) ∧
    Eaglesong.InMem.eaglesong 43 32 256 6 ⟨1, 33, input.length, input.length + 2⟩ h1 = .ok (s, h2) ∧
    Held h2 r (Spec.Eaglesong.digest 43 0x06 input) ∧ Held h2 s (Spec.Eaglesong.digest 43 0x06 input) := by
  obtain ⟨r, h1, e1, u1, _, k1⟩ := C83_eaglesong Eaglesong.newNervos (somewhere_held input []) _ (C57_compute input hl).1
  obtain ⟨s, h2, e2, _, _, k2⟩ := C83_eaglesong Eaglesong.newNervos (C83_kept (somewhere_held input []) u1) _ (C57_compute input hl).1
  exact ⟨r, h1, s, h2, e1, e2, C85_survives (C85_eaglesong Eaglesong.newNervos _) e2 k1, k2⟩

end Verif.Props
