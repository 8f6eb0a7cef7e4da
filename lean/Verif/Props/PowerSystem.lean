import Verif.Props.Power
import Verif.Props.System

/-! # Compute on a machine that loses power: property C88 -/

set_option autoImplicit false

namespace Verif.Props

open Go Dag Manager

attribute [local irreducible] Tables.ethashCacheSizes Tables.ethashDatasetSizes Tables.firopowDatasetSizes Tables.octopusCacheSizes
  Tables.octopusDatasetSizes

/-- The outcomes of `generate` in a process on a machine that has lost its power any number of times before, in a directory that is shared
with other processes. Files are kept whole or left so that they are rejected. -/
def poweredBody (P : Prims) (fuel : Nat) (dir : String) (d : Config) (c : Spec.Chain) (e : U64) (o : Go Loaded) : Prop :=
  usable c e.toNat → ∃ (disk : Files.Disk) (past : List Files.Disk) (s : Files.System) (t : Nat) (p : Files.Prog Files.Buffers), Tidy disk ∧
    Mendable P.keccak256 P.keccak512 dir disk.view ∧
    Files.Life P fuel (jobs dir) True (final P.keccak256 dir) Spec.Disk.Whole disk past s ∧ s.workers[t]? = some ⟨d, e, some p⟩ ∧
    ((∃ b, p = .ret b ∧ o = .ok ⟨b.cache.words s.disk, b.l1.words s.disk⟩) ∨ ∃ x, p = .stop x ∧ o = .error x)

/-- **C88** In every execution of a process with any number of concurrent calls on such a machine, what `Compute` gives with the cache that
`GetCache` returned to it is the published function of the chain. -/
theorem C88_compute (P : Prims) {dir : String} {d : Config} {c : Spec.Chain} (hdc : (d, c) ∈ clients dir) (hnc : NoClash P.keccak256)
    (fuel : Nat) (hf : 2 ^ 63 < fuel) {s : State} (h : Reach d.cachesCount (poweredBody P fuel dir d c) s)
    (t : Nat) (e : U64) (i : Nat) (ht : s.threads[t]? = some (.ended (some e) i)) (height : U64)
    (hh : e.toNat = height.toNat / c.epochLength) (he : served c e.toNat) (hash : List Byte) (hl : hash.length = 32) (nonce : U64) :
    ∃ r, (s.mgr.heap i).once = .done (some r) ∧ ComputesPublished P fuel d c r hash height nonce := by
  refine compute_of_bodies P hdc fuel hf ?_ h t e i ht height hh he hash hl nonce
  intro e o he ho
  obtain ⟨disk, past, s, t, p, ht, hs, hr, hw, h⟩ := ho he
  obtain ⟨h1, h2⟩ := C88_result P dir hnc fuel hf ht hs hr t d e p hw
  rcases h with ⟨b, hb, ho2⟩ | ⟨x, hx, _⟩
  · obtain ⟨c', w, hc', hw, h3, h4⟩ := h2 b hb
    have := client_chain hdc hc'
    subst this
    exact ⟨w, hw, by rw [ho2, h3, h4]⟩
  · exact absurd hx (h1 x)

/-- such outcomes exist: every outcome without losses of power is one -/
example (P : Prims) (fuel : Nat) (dir : String) (d : Config) (c : Spec.Chain) (e : U64) (o : Go Loaded)
    (h : sharedBody P fuel dir d c e o) : poweredBody P fuel dir d c e o := by
  intro he
  obtain ⟨disk, s, t, p, ht, hs, hr, hw, h⟩ := h he
  obtain ⟨past, hl, _⟩ := life_reach (fin := final P.keccak256 dir) (lose := Spec.Disk.Whole) .init List.mem_cons_self hr
  refine ⟨disk, past, s, t, p, ht, ?_, hl, hw, h⟩
  intro c' hc' e' he' w hw
  obtain ⟨h1, h2⟩ := hs c' hc' e' he' w hw
  refine ⟨fun x hx => Or.inl ?_, fun h0 x hx => Or.inl ?_⟩
  · rcases h1 with h1 | h1 <;> rw [hx] at h1 <;> injection h1
  · rcases h2 h0 with h1 | h1 <;> rw [hx] at h1 <;> injection h1

end Verif.Props
