import Verif.Props.Files
import Verif.Props.Manager

/-! # The manager of a process on a directory shared with other processes: properties C40 and C64 -/

set_option autoImplicit false

namespace Verif.Props

open Go Dag Manager

attribute [local irreducible] Tables.ethashCacheSizes Tables.ethashDatasetSizes Tables.firopowDatasetSizes Tables.octopusCacheSizes
  Tables.octopusDatasetSizes

/-- The outcomes of `generate` in a process that shares its directory: those of a goroutine in any execution of any number of processes, in
which other goroutines work, are killed and remove files at the same time, that started with right files. Nothing is said about epochs out
of the range of the tables. -/
def sharedBody (P : Prims) (fuel : Nat) (dir : String) (d : Config) (c : Spec.Chain) (e : U64) (o : Go Loaded) : Prop :=
  usable c e.toNat → ∃ (disk : Files.Disk) (s : Files.System) (t : Nat) (p : Files.Prog Files.Buffers), Tidy disk ∧ Sound P.keccak256 P.keccak512 dir disk.view ∧
    Files.Reach P fuel (jobs dir) True disk s ∧ s.workers[t]? = some ⟨d, e, some p⟩ ∧
    ((∃ b, p = .ret b ∧ o = .ok ⟨b.cache.words s.disk, b.l1.words s.disk⟩) ∨ ∃ x, p = .stop x ∧ o = .error x)

theorem client_chain {dir : String} {d : Config} {c c' : Spec.Chain} (h : (d, c) ∈ clients dir) (h' : (d, c') ∈ clients dir) : c' = c := by
  simp only [clients, List.mem_cons, List.not_mem_nil, or_false, Prod.mk.injEq] at h h'
  rcases h with ⟨rfl, rfl⟩ | ⟨rfl, rfl⟩ | ⟨rfl, rfl⟩ | ⟨rfl, rfl⟩ | ⟨rfl, rfl⟩ <;>
    rcases h' with ⟨h', rfl⟩ | ⟨h', rfl⟩ | ⟨h', rfl⟩ | ⟨h', rfl⟩ | ⟨h', rfl⟩ <;>
    first | rfl | exact absurd (congrArg Config.name h') (by simp [ethereum, ethereumClassic, ravencoin, firo, conflux])

theorem shared_published (P : Prims) {dir : String} {d : Config} {c : Spec.Chain} (hdc : (d, c) ∈ clients dir) (hnc : NoClash P.keccak256)
    (fuel : Nat) (hf : 2 ^ 63 < fuel) (e : U64) (he : usable c e.toNat) (o : Go Loaded) (ho : sharedBody P fuel dir d c e o) :
    ∃ w, Spec.IsCache P.keccak256 P.keccak512 c e.toNat w ∧ o = .ok ⟨w, Spec.l1Of P.keccak512 c w⟩ := by
  obtain ⟨disk, s, t, p, ht, hs, hr, hw, h⟩ := ho he
  obtain ⟨h1, h2⟩ := C44_result P dir hnc fuel hf ht hs hr t d e p hw
  rcases h with ⟨b, hb, ho2⟩ | ⟨x, hx, _⟩
  · obtain ⟨c', w, hc', hw, h3, h4⟩ := h2 b hb
    have := client_chain hdc hc'
    subst this
    exact ⟨w, hw, by rw [ho2, h3, h4]⟩
  · exact absurd hx (h1 x)

section
variable (P : Prims) {dir : String} {d : Config} {c : Spec.Chain} (hdc : (d, c) ∈ clients dir) (fuel : Nat) (hf : 2 ^ 63 < fuel)
  {body : U64 → Go Loaded → Prop} (hbody : ∀ e o, usable c e.toNat → body e o →
    ∃ w, Spec.IsCache P.keccak256 P.keccak512 c e.toNat w ∧ o = .ok ⟨w, Spec.l1Of P.keccak512 c w⟩)
  {s : State} (h : Reach d.cachesCount body s)
include hbody h

/-- a call that returned has the published cache of its epoch, if the bodies of `once.Do` give published caches -/
theorem cache_of_bodies (t : Nat) (e : U64) (i : Nat) (ht : s.threads[t]? = some (.ended (some e) i)) (he : usable c e.toNat) :
    ∃ w, Spec.IsCache P.keccak256 P.keccak512 c e.toNat w ∧
      (s.mgr.heap i).once = .done (some ⟨w, Spec.l1Of P.keccak512 c w⟩) := by
  obtain ⟨_, ⟨r, hr, ho⟩ | ⟨_, p, ho⟩⟩ := C40_returned h t e i ht
  · obtain ⟨w, hw, hg⟩ := hbody e _ he ho
    refine ⟨w, hw, ?_⟩
    rw [hr]
    injection hg with hg
    rw [hg]
  · obtain ⟨w, hw, hg⟩ := hbody e _ he ho
    cases hg

/-- what the algorithms give with a cache that `GetCache` returned for the height, published -/
def ComputesPublished (P : Prims) (fuel : Nat) (d : Config) (c : Spec.Chain) (r : Loaded) (hash : List Byte) (height nonce : U64) : Prop :=
  (∃ v, Clients.ethash P fuel d (fun _ => .ok r) hash height nonce = .ok (some v) ∧
    Spec.IsEthash P.keccak256 P.keccak512 c hash height.toNat nonce v) ∧
  (c.l1 ≠ 0 → ∃ v, Clients.kawpow P fuel d (fun _ => .ok r) hash height nonce = .ok (some v) ∧
    Spec.IsProgpow P.keccak256 P.keccak512 Spec.Progpow.kawpow c hash height.toNat nonce.toNat v) ∧
  (c.l1 ≠ 0 → ∃ v, Clients.firopow P fuel d (fun _ => .ok r) hash height nonce = .ok (some v) ∧
    Spec.IsProgpow P.keccak256 P.keccak512 Spec.Progpow.firopow c hash height.toNat nonce.toNat v) ∧
  (∃ v, Clients.octopus P fuel d (fun _ => .ok r) hash height nonce = .ok (some v) ∧
    Spec.IsOctopus P.keccak256 P.keccak512 c hash height.toNat nonce.toNat v)

include hdc hf in
/-- and what `Compute` gives with it is published -/
theorem compute_of_bodies (t : Nat) (e : U64) (i : Nat) (ht : s.threads[t]? = some (.ended (some e) i)) (height : U64)
    (hh : e.toNat = height.toNat / c.epochLength) (he : served c e.toNat) (hash : List Byte) (hl : hash.length = 32) (nonce : U64) :
    ∃ r, (s.mgr.heap i).once = .done (some r) ∧ ComputesPublished P fuel d c r hash height nonce := by
  obtain ⟨w, hw, hd⟩ := cache_of_bodies P hbody h t e i ht he.1
  have hg : ∀ e' : U64, e'.toNat = height.toNat / c.epochLength →
      Provides P c (fun _ => .ok ⟨w, Spec.l1Of P.keccak512 c w⟩) e' := by
    intro e' he'
    rw [← hh] at he'
    have := BitVec.eq_of_toNat_eq he'
    subst this
    exact ⟨w, hw, rfl⟩
  rw [hh] at he
  exact ⟨_, hd, C64_ethash_of P hdc height he fuel hf _ hg hash hl nonce, C64_kawpow_of P hdc height he fuel hf _ hg hash hl nonce,
    C64_firopow_of P hdc height he fuel hf _ hg hash hl nonce, C64_octopus_of P hdc height he fuel hf _ hg hash hl nonce⟩

end

section
variable (P : Prims) {dir : String} {d : Config} {c : Spec.Chain} (hdc : (d, c) ∈ clients dir) (hnc : NoClash P.keccak256) (fuel : Nat)
  (hf : 2 ^ 63 < fuel) {s : State} (h : Reach d.cachesCount (sharedBody P fuel dir d c) s)
include hdc hnc hf h

/-- **C40** Also when the directory is shared with other processes a call that returned has the published cache of its epoch. -/
theorem C40_shared (t : Nat) (e : U64) (i : Nat) (ht : s.threads[t]? = some (.ended (some e) i)) (he : usable c e.toNat) :
    ∃ w, Spec.IsCache P.keccak256 P.keccak512 c e.toNat w ∧
      (s.mgr.heap i).once = .done (some ⟨w, Spec.l1Of P.keccak512 c w⟩) :=
  cache_of_bodies P (fun e o he ho => shared_published P hdc hnc fuel hf e he o ho) h t e i ht he

/-- **C64** In every execution of a process with any number of concurrent calls, on a directory that it shares with any number of other
processes, what `Compute` gives with the cache that `GetCache` returned to it is the published function of the chain. -/
theorem C64_shared (t : Nat) (e : U64) (i : Nat) (ht : s.threads[t]? = some (.ended (some e) i)) (height : U64)
    (hh : e.toNat = height.toNat / c.epochLength) (he : served c e.toNat) (hash : List Byte) (hl : hash.length = 32) (nonce : U64) :
    ∃ r, (s.mgr.heap i).once = .done (some r) ∧ ComputesPublished P fuel d c r hash height nonce :=
  compute_of_bodies P hdc fuel hf (fun e o he ho => shared_published P hdc hnc fuel hf e he o ho) h t e i ht height hh he hash hl nonce

end

/-- such outcomes exist: in an empty directory `generate` of Ethereum's first epoch ends with the published cache -/
example (P : Prims) (dir : String) (hdir : dir ≠ "") (fuel : Nat) (hf : 2 ^ 63 < fuel) :
    ∃ w, Spec.IsCache P.keccak256 P.keccak512 .eth 0 w ∧ sharedBody P fuel dir (ethereum dir) .eth 0 (.ok ⟨w, []⟩) := by
  obtain ⟨s, f, w, hr, hs, hw, hf, _⟩ := C44_reached P dir hdir fuel hf
  refine ⟨w, hw, fun _ => ⟨_, s, 0, _, ?_, ?_, hr, hs, Or.inl ⟨_, rfl, ?_⟩⟩⟩
  · exact ⟨fun _ _ _ h => (by cases h), fun _ _ h => (by cases h)⟩
  · exact fun _ _ _ _ _ _ => ⟨Or.inl rfl, fun _ => Or.inl rfl⟩
  · rw [show (⟨w, []⟩ : Loaded) = ⟨(Files.Buffer.file f).words s.disk, (Files.Buffer.mem []).words s.disk⟩ by rw [hf]; rfl]

end Verif.Props
