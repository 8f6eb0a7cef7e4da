import Verif.Proof.Lru
import Verif.Proof.Crash
import Verif.Props.Clients

/-! # The cache manager: properties C40-C43, C65 and C66 -/

set_option autoImplicit false

namespace Verif.Props

open Go Dag Manager Spec.Lru

attribute [local irreducible] Tables.ethashCacheSizes Tables.ethashDatasetSizes Tables.firopowDatasetSizes Tables.octopusCacheSizes
  Tables.octopusDatasetSizes

section
variable {k : Int} {Body : U64 → Go Loaded → Prop} {s : State}

/-! ## C40: the right cache -/

/-- **C40** In every execution, a call that returned has a cache of the epoch it asked for, with contents that the body gives for this
epoch; without contents only if the body panicked. -/
theorem C40_returned (h : Reach k Body s) (t : Nat) (e : U64) (i : Nat) (ht : s.threads[t]? = some (.ended (some e) i)) :
    (s.mgr.heap i).epoch = e ∧ ((∃ r, (s.mgr.heap i).once = .done (some r) ∧ Body e (.ok r)) ∨
      ((s.mgr.heap i).once = .done none ∧ ∃ p, Body e (.error p))) := by
  have hi := inv_reach h
  obtain ⟨h1, h2⟩ := hi.refs t _ _ i ht rfl
  obtain ⟨x, hx⟩ := hi.ended t _ i ht
  have he := h2 e rfl
  refine ⟨he, ?_⟩
  cases x with
  | some r => exact Or.inl ⟨r, hx, he ▸ hi.body i h1 r hx⟩
  | none => exact Or.inr ⟨hx, he ▸ hi.failed i h1 hx⟩

/-- **C40** The map holds every cache under its own epoch, and every epoch at most once. -/
theorem C40_map (h : Reach k Body s) : (s.mgr.caches.map Prod.fst).Nodup ∧ ∀ x ∈ s.mgr.caches, (s.mgr.heap x.2).epoch = x.1 :=
  ⟨(inv_reach h).wf.keys, fun x hx => ((inv_reach h).wf.entry x hx).2⟩

/-! ## C41: the number of caches -/

/-- **C41** There are never more than `CachesCount` caches in the map. -/
theorem C41_bound (hk : 1 ≤ k) (h : Reach k Body s) : (s.mgr.caches.length : Int) ≤ k := by
  have := (inv_reach h).bound
  omega

/-- **C41** … and the section under the mutex never panics. -/
theorem C41_no_panic (hk : 1 ≤ k) (h : Reach k Body s) : s.stuck = false := (inv_reach h).free hk

/-- **C41** With `CachesCount ≤ 0` every call that gets the mutex dereferences nil, and no call ever returns. -/
theorem C41_nonpositive (hk : k ≤ 0) (h : Reach k Body s) :
    (∀ order now e, order.Perm s.mgr.caches → locked k order now e s.mgr = .error (.panic .nilDeref)) ∧
    ∀ (t : Nat) (e : U64) (i : Nat), s.threads[t]? ≠ some (.ended (some e) i) := by
  have hempty : ∀ {s : State}, Reach k Body s → s.mgr.caches = [] := by
    intro s h
    have := (inv_reach h).bound
    rw [← List.length_eq_zero_iff]
    omega
  have hl : ∀ {s : State}, Reach k Body s → ∀ order now e, order.Perm s.mgr.caches → locked k order now e s.mgr = .error (.panic .nilDeref) :=
    fun h order now e ho => locked_panics now e hk ho (hempty h)
  refine ⟨hl h, ?_⟩
  have hno : ∀ (t : Nat) th, s.threads[t]? = some th → th.ref = none := by
    induction h with
    | init => intro t th ht; simp [init] at ht
    | @step s s' hr hs ih =>
      cases hs with
      | call e hcr =>
        intro t th ht
        by_cases hlt : t < s.threads.length
        · refine ih t th ?_
          rw [← List.getElem?_append_left hlt]
          exact ht
        · have ht : (s.threads ++ [Thread.locking e])[t]? = some th := ht
          rw [List.getElem?_append_right (by omega)] at ht
          have := List.mem_singleton.mp (List.mem_of_getElem? ht)
          subst this
          rfl
      | lock t e order now m c spawn hcr hst ht ho hclk hok => rw [hl hr order now e ho] at hok; cases hok
      | lockPanic t e order now p hcr hst ht ho hclk hok =>
        intro t' th ht'
        rcases get_set ht' with ⟨_, rfl⟩ | ⟨_, h'⟩
        · rfl
        · exact ih t' th h'
      | start t role i hcr ht hid => exact absurd (ih t _ ht) (by simp [Thread.ref])
      | finish t role i r hcr ht hb => exact absurd (ih t _ ht) (by simp [Thread.ref])
      | finishPanic t role i p hcr ht hb => exact absurd (ih t _ ht) (by simp [Thread.ref])
      | skip t role i r hcr ht hd => exact absurd (ih t _ ht) (by simp [Thread.ref])
  intro t e i ht
  have := hno t _ ht
  simp [Thread.ref] at this

/-- **C41** … nor does any call get the mutex again after the panic. -/
theorem C41_stuck {s' : State} (hst : s.stuck = true) (hs : Step k Body s s') : s'.stuck = true ∧ s'.hist = s.hist ∧
    s'.mgr.caches = s.mgr.caches := by
  cases hs with
  | call e hcr => exact ⟨hst, rfl, rfl⟩
  | lock t e order now m c spawn hcr hst' ht ho hclk hok => rw [hst] at hst'; cases hst'
  | lockPanic t e order now p hcr hst' ht ho hclk hok => rw [hst] at hst'; cases hst'
  | start t role i hcr ht hid => exact ⟨hst, rfl, rfl⟩
  | finish t role i r hcr ht hb => exact ⟨hst, rfl, rfl⟩
  | finishPanic t role i p hcr ht hb => exact ⟨hst, rfl, rfl⟩
  | skip t role i r hcr ht hd => exact ⟨hst, rfl, rfl⟩

/-! ## C42: eviction -/

/-- **C42** An epoch that leaves the map does so because another one, which was not registered, is asked for while the map is full; it is
one whose last request is not later than that of any registered epoch, and no other epoch leaves. -/
theorem C42_evicted (h : Reach k Body s) {s' : State} (hs : Step k Body s s') (v : U64) (hv : v ∈ s.mgr.caches.map Prod.fst)
    (hv' : v ∉ s'.mgr.caches.map Prod.fst) :
    (∃ e now, s'.hist = (e, now) :: s.hist ∧ e ∉ s.mgr.caches.map Prod.fst ∧ e ∈ s'.mgr.caches.map Prod.fst) ∧
    k ≤ s.mgr.caches.length ∧
    (∃ tv, lastUse s.hist v = some tv ∧ ∀ y ∈ s.mgr.caches.map Prod.fst, ∃ ty, lastUse s.hist y = some ty ∧ tv ≤ ty) ∧
    ∀ y ∈ s.mgr.caches.map Prod.fst, y ≠ v → y ∈ s'.mgr.caches.map Prod.fst := by
  have hi := inv_reach h
  have hh := hist_reach h
  cases hs with
  | call e hcr => exact absurd hv hv'
  | lockPanic t e order now p hcr hst' ht ho hclk hok => exact absurd hv hv'
  | start t role i hcr ht hid => exact absurd hv hv'
  | finish t role i r hcr ht hb => exact absurd hv hv'
  | finishPanic t role i p hcr ht hb => exact absurd hv hv'
  | skip t role i r hcr ht hd => exact absurd hv hv'
  | lock t e order now m c spawn hcr hst' ht ho hclk hok =>
    have ha := locked_after hi.wf ho hok
    rcases ha.caches with ⟨h1, h2, _⟩ | ⟨hno, _, ⟨hlt, h2⟩ | ⟨hge, x, hx, hmin, h2⟩⟩
    · exact absurd hv (by rw [← h2]; exact hv')
    · exfalso
      refine hv' ?_
      show v ∈ m.caches.map Prod.fst
      rw [h2, List.map_cons]
      exact List.mem_cons_of_mem _ hv
    · have hkeep : ∀ y ∈ s.mgr.caches.map Prod.fst, y ≠ x.1 → y ∈ m.caches.map Prod.fst := by
        intro y hy hyx
        obtain ⟨z, hz, rfl⟩ := List.mem_map.mp hy
        rw [h2, List.map_cons]
        exact List.mem_cons_of_mem _ (List.mem_map.mpr ⟨z, List.mem_filter.mpr ⟨hz, by simpa using hyx⟩, rfl⟩)
      have hvx : v = x.1 := by
        by_contra hne
        exact hv' (hkeep v hv hne)
      subst hvx
      refine ⟨⟨e, now, rfl, ?_, ?_⟩, hge, ⟨_, hh.used x hx, ?_⟩, hkeep⟩
      · intro he
        obtain ⟨z, hz, hze⟩ := List.mem_map.mp he
        exact hno z hz hze
      · show e ∈ m.caches.map Prod.fst
        rw [h2, List.map_cons]
        exact List.mem_cons_self
      · intro y hy
        obtain ⟨z, hz, rfl⟩ := List.mem_map.mp hy
        exact ⟨_, hh.used z hz, hmin z hz⟩

/-- **C42** When no two requests have the same time, the registered epochs are exactly those of a least-recently-used cache with
`CachesCount` places. -/
theorem C42_lru (hk : 0 ≤ k) (h : Reach k Body s) (hs : s.hist.Pairwise fun a b => a.2 ≠ b.2) :
    (s.mgr.caches.map Prod.fst).Perm (resident k.toNat (s.hist.map Prod.fst)) := by
  refine lru_reach hk h ?_
  have := (hist_reach h).sorted.and hs
  exact this.imp fun hab => by omega

/-! ## C43: the body runs once -/

/-- **C43** No body is started twice, at most one goroutine is in the body of a cache, and whoever has returned from `once.Do` did so
after the end of the body. -/
theorem C43_once (h : Reach k Body s) : s.started.Nodup ∧
    (∀ (t t' : Nat) r r' i, s.threads[t]? = some (.filling r i) → s.threads[t']? = some (.filling r' i) → t = t') ∧
    (∀ (t : Nat) r i, s.threads[t]? = some (.ended r i) → i ∈ s.started ∧ ∃ x, (s.mgr.heap i).once = .done x) := by
  have hi := inv_reach h
  refine ⟨hi.nodup, hi.single, ?_⟩
  intro t r i ht
  obtain ⟨x, hx⟩ := hi.ended t r i ht
  refine ⟨?_, x, hx⟩
  by_contra hn
  have := (hi.started i (hi.refs t _ r i ht rfl).1).mpr hn
  rw [hx] at this
  cases this

/-- **C43** The contents of a cache do not change after the body has ended. -/
theorem C43_stable (h : Reach k Body s) {s' : State} (hs : Step k Body s s') (i : Nat) (hlt : i < s.mgr.fresh) (x : Option Loaded)
    (hx : (s.mgr.heap i).once = .done x) : (s'.mgr.heap i).once = .done x ∧ (s'.mgr.heap i).epoch = (s.mgr.heap i).epoch := by
  have hi := inv_reach h
  have hset : ∀ (j : Nat) o, (s.mgr.heap j).once ≠ .done x →
      ((s.mgr.setOnce j o).heap i).once = .done x ∧ ((s.mgr.setOnce j o).heap i).epoch = (s.mgr.heap i).epoch := by
    intro j o hj
    rw [(setOnce_heap s.mgr j o i).1, (setOnce_heap s.mgr j o i).2.2, if_neg]
    · exact ⟨hx, rfl⟩
    · rintro rfl
      exact hj hx
  cases hs with
  | call e hcr => exact ⟨hx, rfl⟩
  | lockPanic t e order now p hcr hst' ht ho hclk hok => exact ⟨hx, rfl⟩
  | skip t role i r hcr ht hd => exact ⟨hx, rfl⟩
  | start t role j hcr ht hid => exact hset j _ (by rw [hid]; simp)
  | finish t role j r hcr ht hb => exact hset j _ (by rw [hi.running t role j ht]; simp)
  | finishPanic t role j p hcr ht hb => exact hset j _ (by rw [hi.running t role j ht]; simp)
  | lock t e order now m c spawn hcr hst' ht ho hclk hok =>
    have hg := (locked_after hi.wf ho hok).grown
    exact ⟨by rw [hg.once i hlt]; exact hx, hg.epoch i hlt⟩

/-! ## C65: progress -/

/-- **C65** Every step but a new call uses up work, … -/
theorem C65_work {s' : State} (hs : Step k Body s s') : work s' < work s ∨ ∃ e, s'.threads = s.threads ++ [.locking e] := work_step hs

/-- **C65** … as long as some goroutine has not ended and the process has not crashed there is such a step (no deadlock), … -/
theorem C65_progress (hk : 1 ≤ k) (hB : ∀ e, ∃ o, Body e o) (h : Reach k Body s) (hc : s.crashed = false) (hw : 0 < work s) :
    ∃ s', Step k Body s s' ∧ work s' < work s := progress hk hB (inv_reach h) hc hw

/-- **C65** … and without work every call has returned or panicked. -/
theorem C65_done (hw : work s = 0) (th : Thread) (ht : th ∈ s.threads) : ∃ r, (∃ i, th = .ended r i) ∨ th = .panicked r := by
  have hz : th.work = 0 := by
    have : ∀ l : List Thread, (l.map Thread.work).sum = 0 → ∀ x ∈ l, x.work = 0 := by
      intro l
      induction l with
      | nil => intro _ x hx; cases hx
      | cons a l ih =>
        intro h x hx
        rw [List.map_cons, List.sum_cons] at h
        rcases List.mem_cons.mp hx with rfl | hx
        · omega
        · exact ih (by omega) x hx
    exact this s.threads hw th ht
  cases th with
  | locking e => simp [Thread.work] at hz
  | waiting r i => simp [Thread.work] at hz
  | filling r i => simp [Thread.work] at hz
  | ended r i => exact ⟨r, Or.inl ⟨i, rfl⟩⟩
  | panicked r => exact ⟨r, Or.inr rfl⟩

end

/-- one call for epoch 7 that has returned, with the generator for epoch 8 still to start: the hypotheses of C40-C43 are met -/
example : ∃ s, Reach 3 (fun _ o => o = .ok ⟨[], []⟩) s ∧ s.threads[0]? = some (.ended (some 7) 0) ∧ s.mgr.caches = [(7, 0)] ∧
    s.hist = [(7, 5)] ∧ (s.mgr.heap 1).epoch = 8 := by
  have h1 := Reach.step (k := 3) (Body := fun _ o => o = .ok ⟨[], []⟩) .init (.call _ 7 rfl)
  have h2 := h1.step (.lock _ 0 7 [] 5 _ 0 (some 1) rfl rfl rfl (List.Perm.refl _) (by decide) rfl)
  have h3 := h2.step (.start _ 0 (some 7) 0 rfl rfl rfl)
  have h4 := h3.step (.finish _ 0 (some 7) 0 ⟨[], []⟩ rfl rfl rfl)
  exact ⟨_, h4, rfl, rfl, rfl, rfl⟩

/-! ## The clients -/

/-- what the body of `once.Do` gives: `generate` in memory, or in a directory whose files are absent or right, with any outcomes of the
system calls -/
def genBody (P : Prims) (fuel : Nat) (dir : String) (d : Config) (e : U64) (o : Go Loaded) : Prop :=
  ∃ fs env, (dir ≠ "" → Sound P.keccak256 P.keccak512 dir fs) ∧ o = Prod.fst <$> generate P fuel d e fs env

theorem genBody_exists (P : Prims) (fuel : Nat) (dir : String) (d : Config) (e : U64) : ∃ o, genBody P fuel dir d e o :=
  ⟨_, fun _ => none, ⟨⟨false, false, false⟩, ⟨false, false, false⟩, ⟨false, 0, false, false, false, false, false, false, false, ⟨false, false, false⟩⟩,
    ⟨false, 0, false, false, false, false, false, false, false, ⟨false, false, false⟩⟩, fun _ => false⟩,
    fun _ _ _ _ _ _ _ => ⟨Or.inl rfl, fun _ => Or.inl rfl⟩, rfl⟩

section
variable (P : Prims) {dir : String} {d : Config} {c : Spec.Chain} (hdc : (d, c) ∈ clients dir) (fuel : Nat) (hf : 2 ^ 63 < fuel)
  {s : State} (h : Reach d.cachesCount (genBody P fuel dir d) s)
include hdc hf h

/-- **C40** With the shipped configurations a call that returned has the published cache of its epoch. -/
theorem C40_published (t : Nat) (e : U64) (i : Nat) (ht : s.threads[t]? = some (.ended (some e) i)) (he : usable c e.toNat) :
    ∃ w, Spec.IsCache P.keccak256 P.keccak512 c e.toNat w ∧
      (s.mgr.heap i).once = .done (some ⟨w, Spec.l1Of P.keccak512 c w⟩) := by
  obtain ⟨_, ⟨r, hr, fs, env, hs, ho⟩ | ⟨_, p, fs, env, hs, ho⟩⟩ := C40_returned h t e i ht
  · obtain ⟨w, hw, hg⟩ := provides_generate P dir d c hdc e he fuel hf fs hs env
    refine ⟨w, hw, ?_⟩
    rw [hr]
    have : (Except.ok r : Go Loaded) = .ok ⟨w, Spec.l1Of P.keccak512 c w⟩ := ho.trans hg
    injection this with this
    rw [this]
  · obtain ⟨w, hw, hg⟩ := provides_generate P dir d c hdc e he fuel hf fs hs env
    have := ho.trans hg
    cases this

/-- **C64** In every execution of a process with any number of concurrent calls, what `Compute` gives with the cache that `GetCache`
returned to it is the published function of the chain. -/
theorem C64_concurrent (t : Nat) (e : U64) (i : Nat) (ht : s.threads[t]? = some (.ended (some e) i)) (height : U64)
    (hh : e.toNat = height.toNat / c.epochLength) (he : served c e.toNat) (hash : List Byte) (hl : hash.length = 32) (nonce : U64) :
    ∃ r, (s.mgr.heap i).once = .done (some r) ∧
      (∃ v, Clients.ethash P fuel d (fun _ => .ok r) hash height nonce = .ok (some v) ∧
        Spec.IsEthash P.keccak256 P.keccak512 c hash height.toNat nonce v) ∧
      (c.l1 ≠ 0 → ∃ v, Clients.kawpow P fuel d (fun _ => .ok r) hash height nonce = .ok (some v) ∧
        Spec.IsProgpow P.keccak256 P.keccak512 Spec.Progpow.kawpow c hash height.toNat nonce.toNat v) ∧
      (c.l1 ≠ 0 → ∃ v, Clients.firopow P fuel d (fun _ => .ok r) hash height nonce = .ok (some v) ∧
        Spec.IsProgpow P.keccak256 P.keccak512 Spec.Progpow.firopow c hash height.toNat nonce.toNat v) ∧
      (∃ v, Clients.octopus P fuel d (fun _ => .ok r) hash height nonce = .ok (some v) ∧
        Spec.IsOctopus P.keccak256 P.keccak512 c hash height.toNat nonce.toNat v) := by
  obtain ⟨w, hw, hd⟩ := C40_published P hdc fuel hf h t e i ht he.1
  have hg : ∀ e' : U64, e'.toNat = height.toNat / c.epochLength →
      Provides P c (fun _ => .ok ⟨w, Spec.l1Of P.keccak512 c w⟩) e' := by
    intro e' he'
    rw [← hh] at he'
    have := BitVec.eq_of_toNat_eq he'
    subst this
    exact ⟨w, hw, rfl⟩
  rw [hh] at he
  exact ⟨_, hd, C64_ethash_of P hdc height he fuel hf _ hg hash hl nonce, C64_kawpow_of P hdc height he fuel hf _ hg hash hl nonce,
    C64_firopow_of P hdc height he fuel hf _ hg hash hl nonce, C64_octopus_of P hdc height he fuel hf _ hg hash hl nonce⟩

end

/-! ## C66: the end of the tables brings the process down -/

theorem cachesCount_pos {dir : String} {d : Config} {c : Spec.Chain} (hdc : (d, c) ∈ clients dir) : 1 ≤ d.cachesCount := by
  rw [(clients_match dir d c hdc).2.1.cachesCount]
  decide

/-- **C66** For the epochs 2045 to 2047 the body of `once.Do` panics, … -/
theorem C66_body (P : Prims) {dir : String} {d : Config} {c : Spec.Chain} (hdc : (d, c) ∈ clients dir) (fuel : Nat) (hf : 2 ^ 63 < fuel)
    (e : U64) (h1 : 2045 ≤ e.toNat) (h2 : e.toNat < 2048) (o : Go Loaded) (ho : genBody P fuel dir d e o) : o = .error (.panic .index) := by
  obtain ⟨fs, env, _, rfl⟩ := ho
  have := (C33_cacheSize_panics_iff dir d (clients_match dir d c hdc).1 e fuel hf).1.mpr ⟨h1, h2⟩
  rw [generate, this]
  rfl

/-- **C66** … so that a process that asks for epoch 2044, and for no later one, does not come to rest without crashing: a panic in the
generator that was started for epoch 2045 ends it. -/
theorem C66_crash (P : Prims) {dir : String} {d : Config} {c : Spec.Chain} (hdc : (d, c) ∈ clients dir) (fuel : Nat) (hf : 2 ^ 63 < fuel)
    {s : State} (h : Reach d.cachesCount (genBody P fuel dir d) s) (hcalls : CallsUpTo 2044 s) (hasked : 2044 ∈ s.hist.map Prod.fst)
    (hrest : ∀ s', Step d.cachesCount (genBody P fuel dir d) s s' → ∃ e, s'.threads = s.threads ++ [.locking e]) : s.crashed = true := by
  have hdoom : Doomed 2044 s := by
    clear hrest hasked
    induction h with
    | init => exact ⟨by simp [init, new], by simp [init, new], by simp [init], by simp [init, new]⟩
    | step hr hs ih =>
      refine doomed_step (by decide) (inv_reach hr) (ih (calls_step hs hcalls)) ?_ hs hcalls
      intro x hx
      exact List.mem_map.mpr ⟨_, lastUse_mem _ _ _ ((hist_reach hr).used x hx), rfl⟩
  by_contra hc
  have hc : s.crashed = false := by simpa using hc
  have hinv := inv_reach h
  have hw : work s = 0 := by
    by_contra hw
    obtain ⟨s', hs, hlt⟩ := C65_progress (cachesCount_pos hdc) (genBody_exists P fuel dir d) h hc (by omega)
    obtain ⟨e, he⟩ := hrest s' hs
    rw [work, work, he, List.map_append, List.sum_append] at hlt
    omega
  rcases hdoom.asked hasked with h1 | ⟨t, th, i, h1, h2, h3⟩
  · rw [hc] at h1; cases h1
  · obtain ⟨r, ⟨j, hj⟩ | hj⟩ := C65_done hw th (List.mem_of_getElem? h1)
    · subst hj
      injection h2 with h2
      injection h2 with h2 h4
      subst h2 h4
      have hlt := (hinv.refs t _ _ j h1 rfl).1
      obtain ⟨x, hx⟩ := hinv.ended t _ j h1
      cases x with
      | some x =>
        have := C66_body P hdc fuel hf _ (by rw [h3]; decide) (by rw [h3]; decide) _ (hinv.body j hlt x hx)
        cases this
      | none => exact absurd (hdoom.failed j hlt h3 hx) (by rw [hc]; decide)
    · subst hj
      cases h2

/-- the hypotheses are met after one call for epoch 2044 -/
example (P : Prims) (fuel : Nat) (dir : String) : ∃ s, Reach (ethereum dir).cachesCount (genBody P fuel dir (ethereum dir)) s ∧
    CallsUpTo 2044 s ∧ 2044 ∈ s.hist.map Prod.fst := by
  have h1 := Reach.step (k := (ethereum dir).cachesCount) (Body := genBody P fuel dir (ethereum dir)) .init (.call _ 2044 rfl)
  have h2 := h1.step (.lock _ 0 2044 [] 5 _ 0 (some 1) rfl rfl rfl (List.Perm.refl _) (by decide) rfl)
  refine ⟨_, h2, ?_, by simp⟩
  intro t th e ht he
  match t with
  | 0 =>
    injection ht with ht
    subst ht
    injection he with he
    subst he
    exact BitVec.le_refl _
  | 1 =>
    injection ht with ht
    subst ht
    cases he
  | t + 2 => simp [init] at ht

end Verif.Props
