import Verif.Proof.InMem.Process
import Verif.Props.Isolation
import Verif.Props.System

/-! # Caches in memory, and processes whose callers write to memory: property C86 -/

set_option autoImplicit false

namespace Verif.Props

open Go Dag
open Process (World Algo Inside peek)

attribute [local irreducible] Tables.ethashCacheSizes Tables.ethashDatasetSizes Tables.firopowDatasetSizes Tables.octopusCacheSizes
  Tables.octopusDatasetSizes

/-! ## Generation in place -/

/-- **C86** `generateCache` fills the slice that it is given, wherever it lies, with the published cache, and writes no other cell that existed. -/
theorem C86_cache (P : Prims) (rounds : Int) (n : Nat) (hn : 1 ≤ n) (h64 : n < 2 ^ 26) {h : Heap} {dest : Slice .word} {seed : Slice .byte}
    {ws : List U32} {sd : List Byte} (kd : Held h dest ws) (ks : Held h seed sd) (hl : dest.len = 16 * n) :
    ∃ h' words, Dag.InMem.generateCache P rounds dest seed h = .ok ((), h') ∧ UntouchedBut dest h h' ∧ Held h' dest words ∧
      Spec.Ethash.bytes words = (Spec.Ethash.mkcache P.keccak512 n sd rounds.toNat).flatten := by
  obtain ⟨words, e, _, hb⟩ := C37_generateCache P sd rounds n hn h64 ws (by rw [← hl, kd.len])
  obtain ⟨u, h', r, hu, k⟩ := Dag.InMem.patches_generateCache P rounds kd ks words e
  exact ⟨h', words, r, hu, k, hb⟩

/-- **C86** The same for the L1 cache; the cache, in another array, is only read. -/
theorem C86_l1 (P : Prims) (parents : U32) (n : Nat) {h : Heap} {dest cache : Slice .word} {ws cs : List U32} (kd : Held h dest ws)
    (kc : Held h cache cs) (hne : cache.arr ≠ dest.arr) (hl : dest.len = 16 * n) (h1 : 16 ≤ cs.length) (h2 : cs.length ≤ 2 ^ 32) :
    ∃ h', Dag.InMem.generateL1Cache P parents dest cache h = .ok ((), h') ∧ UntouchedBut dest h h' ∧
      Held h' dest ((List.range n).flatMap fun j => Spec.Ethash.words (Spec.Ethash.itemOf P.keccak512 cs parents.toNat (BitVec.ofNat 32 j))) := by
  obtain ⟨u, h', r, hu, k⟩ := Dag.InMem.patches_generateL1Cache P parents kd kc hne _ (C39_l1 P parents cs ws n (by rw [← hl, kd.len]) h1 h2)
  exact ⟨h', r, hu, k⟩

theorem client_dir {dir : String} {d : Config} {c : Spec.Chain} (h : (d, c) ∈ clients dir) : d.storageDir = dir := (clients_match dir d c h).2.2

/-- some directory and some outcomes of system calls -/
def noFiles : FS := fun _ => none

def noEnv : GenEnv := ⟨⟨false, false, false⟩, ⟨false, false, false⟩, ⟨false, 0, false, false, false, false, false, false, false, ⟨false, false, false⟩⟩,
  ⟨false, 0, false, false, false, false, false, false, false, ⟨false, false, false⟩⟩, fun _ => false⟩

/-- **C86** Without a storage directory the shipped configurations generate the published caches in new memory, and write to no other. -/
theorem C86_generate (P : Prims) {d : Config} {c : Spec.Chain} (hdc : (d, c) ∈ clients "") (fuel : Nat) (hf : 2 ^ 63 < fuel) (e : U64)
    (he : usable c e.toNat) (h : Heap) : ∃ w cache l1 h', Spec.IsCache P.keccak256 P.keccak512 c e.toNat w ∧
      Dag.InMem.generate P fuel d e h = .ok ((cache, l1), h') ∧ Untouched h h' ∧ New h cache ∧ Held h' cache w ∧ Held h' l1 (Spec.l1Of P.keccak512 c w) ∧
      (l1 = Dag.InMem.nilWords ∨ New h l1 ∧ l1.arr ≠ cache.arr) := by
  obtain ⟨w, fs', hw, hg⟩ := C47_generate P "" d c hdc e he fuel hf noFiles (fun hn => absurd rfl hn) noEnv
  obtain ⟨p, h', hr, f, k1, k2, n1, n2, n3⟩ := Dag.InMem.runs_generate P fuel d (client_dir hdc) e noFiles noEnv h _ hg
  refine ⟨w, p.1, p.2, h', hw, hr, untouched_iff.1 f, n1, k1, k2, ?_⟩
  cases hl : d.l1Enabled with
  | true => exact Or.inr ⟨(n2 hl).1, fun he => (n2 hl).2 he.symm⟩
  | false => exact Or.inl (n3 hl).1

/-! ## Processes -/

section
variable (P : Prims) {dir : String} {d : Config} {c : Spec.Chain} (hdc : (d, c) ∈ clients dir) (fuel : Nat) (hf : 2 ^ 63 < fuel)
  {Body : U64 → Go Loaded → Prop}
  (hB : dir ≠ "" → ∀ e o, usable c e.toNat → Body e o →
    ∃ w, Spec.IsCache P.keccak256 P.keccak512 c e.toNat w ∧ o = .ok ⟨w, Spec.l1Of P.keccak512 c w⟩)
  {w : World} (h : Process.Reach P fuel d Body w)
include hdc hf hB h

/-- **C86** In every execution, whatever the callers have done with their memory, the slices that `GetCache` returned hold the published cache of
the epoch, and not in memory of the callers. -/
theorem C86_kept (t : Nat) (e : U64) (i : Nat) (ht : w.proc.threads[t]? = some (.ended (some e) i)) (he : usable c e.toNat) :
    ∃ ws, Spec.IsCache P.keccak256 P.keccak512 c e.toNat ws ∧ Held w.mem (w.data i).1 ws ∧ Held w.mem (w.data i).2 (Spec.l1Of P.keccak512 c ws) ∧
      (¬ w.theirs .word (w.data i).1.arr ∨ (w.data i).1.len = 0) ∧ (¬ w.theirs .word (w.data i).2.arr ∨ (w.data i).2.len = 0) := by
  have hi := Process.inv_reach P fuel d Body h
  have hsd := client_dir hdc
  have hfresh : i < w.proc.mgr.fresh := ((Manager.inv_reach hi.proc).refs t _ _ i ht rfl).1
  have hgen : dir = "" → ∃ ws, Spec.IsCache P.keccak256 P.keccak512 c e.toNat ws ∧
      Prod.fst <$> generate P fuel d e noFiles noEnv = .ok ⟨ws, Spec.l1Of P.keccak512 c ws⟩ := fun hd =>
    provides_generate P dir d c hdc e he fuel hf noFiles (fun hn => absurd hd hn) noEnv
  have key : ∀ o, Process.outcome P fuel d Body e o →
      ∃ ws, Spec.IsCache P.keccak256 P.keccak512 c e.toNat ws ∧ o = .ok ⟨ws, Spec.l1Of P.keccak512 c ws⟩ := by
    intro o ho
    by_cases hd : dir = ""
    · obtain ⟨ws, h1, h2⟩ := hgen hd
      exact ⟨ws, h1, ho.1 (hsd.trans hd) _ _ _ h2⟩
    · exact hB hd e o he (ho.2 (by rw [hsd]; exact hd))
  obtain ⟨hep, ⟨r, hr, hb⟩ | ⟨_, p, hb⟩⟩ := C40_returned hi.proc t e i ht
  · obtain ⟨ws, h1, h2⟩ := key _ hb
    obtain rfl := Except.ok.inj h2
    obtain ⟨k1, k2, k3, k4⟩ := hi.held i hfresh _ hr fun hd => by
      obtain ⟨ws, _, h2⟩ := hgen (hsd.symm.trans hd)
      rw [hep]
      exact ⟨_, _, _, h2⟩
    exact ⟨ws, h1, k1, k2, k3, k4⟩
  · obtain ⟨ws, _, h2⟩ := key _ hb
    cases h2

/-- **C86** So `Compute` gives the published digests of the chain, in every execution and at any time, in new memory. -/
theorem C86_compute (t : Nat) (e : U64) (i : Nat) (ht : w.proc.threads[t]? = some (.ended (some e) i)) (height : U64)
    (hh : e.toNat = height.toNat / c.epochLength) (he : served c e.toNat) {hash : Slice .byte} {xs : List Byte} (kh : Held w.mem hash xs)
    (hl : xs.length = 32) (nonce : U64) :
    (∃ v, Spec.IsEthash P.keccak256 P.keccak512 c xs height.toNat nonce v ∧
      DeliversTwo (Clients.InMem.ethash P fuel d (fun _ => pure (w.data i)) hash height nonce) w.mem (some v)) ∧
    (c.l1 ≠ 0 → ∃ v, Spec.IsProgpow P.keccak256 P.keccak512 Spec.Progpow.kawpow c xs height.toNat nonce.toNat v ∧
      DeliversTwo (Clients.InMem.kawpow P fuel d (fun _ => pure (w.data i)) hash height nonce) w.mem (some v)) ∧
    (c.l1 ≠ 0 → ∃ v, Spec.IsProgpow P.keccak256 P.keccak512 Spec.Progpow.firopow c xs height.toNat nonce.toNat v ∧
      DeliversTwo (Clients.InMem.firopow P fuel d (fun _ => pure (w.data i)) hash height nonce) w.mem (some v)) ∧
    (∃ v, Spec.IsOctopus P.keccak256 P.keccak512 c xs height.toNat nonce.toNat v ∧
      DeliversOr (Clients.InMem.octopus P fuel d (fun _ => pure (w.data i)) hash height nonce) w.mem (some v)) := by
  obtain ⟨ws, hw, k1, k2, _, _⟩ := C86_kept P hdc fuel hf hB h t e i ht he.1
  have hg : ∀ e' : U64, e'.toNat = height.toNat / c.epochLength → Provides P c (fun _ => .ok ⟨ws, Spec.l1Of P.keccak512 c ws⟩) e' := by
    intro e' he'
    rw [← hh] at he'
    have := BitVec.eq_of_toNat_eq he'
    subst this
    exact ⟨ws, hw, rfl⟩
  have hG : Clients.InMem.Gets w.mem (fun _ => pure (w.data i)) fun _ => .ok ⟨ws, Spec.l1Of P.keccak512 c ws⟩ := by
    intro e' b hb
    obtain rfl := Except.ok.inj hb
    exact ⟨_, _, w.mem, rfl, fun _ _ _ hx => hx, k1, k2⟩
  rw [hh] at he
  refine ⟨?_, fun hl1 => ?_, fun hl1 => ?_, ?_⟩
  · obtain ⟨v, e1, hv⟩ := C64_ethash_of P hdc height he fuel hf _ hg xs hl nonce
    exact ⟨v, hv, C83_ethash P fuel d hG kh height nonce _ e1⟩
  · obtain ⟨v, e1, hv⟩ := C64_kawpow_of P hdc height he fuel hf _ hg xs hl nonce hl1
    exact ⟨v, hv, C83_kawpow P fuel d hG kh height nonce _ e1⟩
  · obtain ⟨v, e1, hv⟩ := C64_firopow_of P hdc height he fuel hf _ hg xs hl nonce hl1
    exact ⟨v, hv, C83_firopow P fuel d hG kh height nonce _ e1⟩
  · obtain ⟨v, e1, hv⟩ := C64_octopus_of P hdc height he fuel hf _ hg xs hl nonce
    exact ⟨v, hv, C83_octopus P fuel d hG kh height nonce _ e1⟩

end

/-- **C86** The package writes to no memory that existed: in every step except those of the program outside, whatever was in memory is still there. -/
theorem C86_silent (P : Prims) (fuel : Nat) (d : Config) (Body : U64 → Go Loaded → Prop) {w w' : World} (hs : Process.Step P fuel d Body w w') :
    Untouched w.mem w'.mem ∨ Process.Works w.theirs w.mem w'.mem := by
  cases hs with
  | manager s hm => exact Or.inl fun _ _ _ h => h
  | generated t role i p h hcr ht hsd hgen => exact Or.inl ((C85_generate P fuel d _).1 w.mem p h hgen).1
  | failed t role i p h hcr ht hsd hgen => exact Or.inl ((C85_generate P fuel d _).2 w.mem p h hgen)
  | loaded t role i r p h hcr ht hsd hb hu n1 n2 i1 i2 p1 p2 => exact Or.inl hu
  | broken t role i p h hcr ht hsd hb hu => exact Or.inl hu
  | aborted t e i a hash height nonce p h hcr ht he hrun =>
    exact Or.inl ((Spares.isolated fun n => Process.spares_algo (n := n) P fuel d (w.data i) hash height nonce a).2 w.mem p h hrun)
  | compute t e i a hash height nonce out h hcr ht he hrun =>
    exact Or.inl ((Spares.isolated fun n => Process.spares_algo (n := n) P fuel d (w.data i) hash height nonce a).1 w.mem out h hrun).1
  | works h hcr hw => exact Or.inr hw

/-- **C86** What a directory with right files gives, alone or shared with other processes, meets the condition on the bodies. -/
theorem C86_directory (P : Prims) {dir : String} {d : Config} {c : Spec.Chain} (hdc : (d, c) ∈ clients dir) (fuel : Nat) (hf : 2 ^ 63 < fuel) (e : U64)
    (o : Go Loaded) (he : usable c e.toNat) :
    (genBody P fuel dir d e o → ∃ w, Spec.IsCache P.keccak256 P.keccak512 c e.toNat w ∧ o = .ok ⟨w, Spec.l1Of P.keccak512 c w⟩) ∧
    (NoClash P.keccak256 → sharedBody P fuel dir d c e o →
      ∃ w, Spec.IsCache P.keccak256 P.keccak512 c e.toNat w ∧ o = .ok ⟨w, Spec.l1Of P.keccak512 c w⟩) := by
  refine ⟨?_, fun hnc ho => shared_published P hdc hnc fuel hf e he o ho⟩
  rintro ⟨fs, env, hs, rfl⟩
  exact provides_generate P dir d c hdc e he fuel hf fs hs env

/-! ## A concrete execution -/

/-- a process in which the program has memory with a 32-byte array, calls `GetCache` for epoch 0, and then overwrites the array -/
example (P : Prims) (fuel : Nat) (hf : 2 ^ 63 < fuel) (xs : List Byte) (hx : xs.length = 32) (nonce : U64) :
    ∃ w, Process.Reach P fuel (ethereum "") (fun _ _ => False) w ∧ w.proc.threads[0]? = some (.ended (some 0) 0) ∧
      ∃ v, Spec.IsEthash P.keccak256 P.keccak512 .eth xs 7 nonce v ∧
        DeliversTwo (Clients.InMem.ethash P fuel (ethereum "") (fun _ => pure (w.data 0)) ⟨0, 0, 32, 32⟩ 7 nonce) w.mem (some v) := by
  have hdc : (ethereum "", Spec.Chain.eth) ∈ clients "" := by simp [clients]
  have hs : served .eth ((0 : U64).toNat) := ⟨⟨Or.inl (by decide), by decide⟩, by decide, by decide⟩
  let mem : Heap := ⟨fun t => match t with | .byte => [List.replicate 32 0] | _ => [], fun _ _ => []⟩
  have h0 : Process.Reach P fuel (ethereum "") (fun _ _ => False) ⟨Manager.init, fun _ => (Dag.InMem.nilWords, Dag.InMem.nilWords), mem, fun t i => i < (mem.store t).length⟩ :=
    .init _ ⟨rfl, fun _ _ => Iff.rfl⟩
  have h1 := h0.step (.manager _ _ (.call _ 0 rfl))
  have h2 := h1.step (.manager _ _ (.lock _ 0 0 [] 5 _ 0 (some 1) rfl rfl rfl (List.Perm.refl _) (by decide) rfl))
  have h3 := h2.step (.manager _ _ (.start _ 0 (some 0) 0 rfl rfl rfl))
  obtain ⟨ws, cache, l1, h', hw, hg, hu, n1, k1, k2, _⟩ := C86_generate P hdc fuel hf 0 hs.1 mem
  have h4 := h3.step (.generated _ 0 (some 0) 0 (cache, l1) h' rfl rfl rfl hg)
  have hb : (h'.store .byte)[0]? = some (List.replicate 32 0) := hu .byte 0 _ rfl
  have hlt : 0 < (h'.store .byte).length := (List.getElem?_eq_some_iff.1 hb).1
  -- the program overwrites its array
  have hmod : Process.Works (fun t i => i < (mem.store t).length) h' (h'.poke .byte 0 0 xs) := by
    refine ⟨fun t i a ha => ?_⟩
    by_cases ht : t = .byte
    · subst ht
      rw [store_poke, List.getElem?_modify]
      by_cases hi : 0 = i
      · subst hi
        rw [hb] at ha
        obtain rfl := Option.some.inj ha
        rw [hb]
        refine ⟨_, rfl, ?_, fun hn => absurd (show 0 < 1 by decide) hn⟩
        simp [hx]
      · rw [ha]
        exact ⟨a, by simp [hi], rfl, fun _ => rfl⟩
    · rw [store_poke_ne _ _ _ _ _ _ ht]
      exact ⟨a, ha, rfl, fun _ => rfl⟩
  have h5 := h4.step (.works _ _ rfl hmod)
  have hh : Held (h'.poke .byte 0 0 xs) (⟨0, 0, 32, 32⟩ : Slice .byte) xs := by
    refine ⟨xs, ?_, Nat.le_refl _, ?_, ?_⟩
    · rw [store_poke, List.getElem?_modify, hb]
      simp [hx]
    · show 0 + 32 ≤ xs.length
      omega
    · rw [List.drop_zero]
      exact List.take_of_length_le (by show xs.length ≤ 32; omega)
  refine ⟨_, h5, rfl, (C86_compute P hdc fuel hf (fun hn => absurd rfl hn) h5 0 0 0 rfl 7 (by decide) hs hh hx nonce).1⟩

/-- a buffer behind the two magic words of a file, and two words after it -/
def mapped (k : Nat) (seed : List Byte) : Heap where
  store := fun t => match t with
    | .byte => [seed]
    | .word => [[0xbaddcafe, 0xfee1dead] ++ List.replicate (16 * k) 0 ++ [1, 2]]
    | _ => []
  spare := fun _ _ => []

example (P : Prims) (k : Nat) (hk : 1 ≤ k) (h64 : k < 2 ^ 26) (seed : List Byte) : ∃ h' words,
    Dag.InMem.generateCache P 3 ⟨0, 2, 16 * k, 16 * k⟩ ⟨0, 0, seed.length, seed.length⟩ (mapped k seed) = .ok ((), h') ∧
    (h'.store .word)[0]? = some ([0xbaddcafe, 0xfee1dead] ++ words ++ [1, 2]) ∧ Spec.Ethash.bytes words = (Spec.Ethash.mkcache P.keccak512 k seed 3).flatten := by
  have kd : Held (mapped k seed) (⟨0, 2, 16 * k, 16 * k⟩ : Slice .word) (List.replicate (16 * k) 0) := by
    refine ⟨_, rfl, Nat.le_refl _, ?_, ?_⟩
    · simp; omega
    · show ((([0xbaddcafe, 0xfee1dead] : List U32) ++ List.replicate (16 * k) 0 ++ [1, 2]).drop 2).take (16 * k) = _
      rw [List.append_assoc]
      exact List.take_left' List.length_replicate
  have ks : Held (mapped k seed) (⟨0, 0, seed.length, seed.length⟩ : Slice .byte) seed := ⟨seed, rfl, Nat.le_refl _, by simp, by simp⟩
  obtain ⟨h', words, e, hu, kw, hb⟩ := C86_cache P 3 k hk h64 kd ks rfl
  refine ⟨h', words, e, ?_, hb⟩
  obtain ⟨a, ha, hl, hj⟩ := hu .word 0 _ rfl
  obtain ⟨a', ha', _, _, hw⟩ := kw
  rw [ha] at ha'
  obtain rfl := Option.some.inj ha'
  have hlen : a.length = 16 * k + 4 := by rw [hl]; simp
  have hwl : words.length = 16 * k := by rw [← hw, List.length_take, List.length_drop]; show min (16 * k) (a.length - 2) = _; omega
  rw [ha]
  refine congrArg some (List.ext_getElem? fun j => ?_)
  by_cases h1 : j < 2
  · rw [hj j (by rintro ⟨_, _, h3, _⟩; exact absurd (show 2 ≤ j from h3) (by omega)), List.append_assoc, List.append_assoc, List.getElem?_append_left (by simpa using h1), List.getElem?_append_left (by simpa using h1)]
  · by_cases h2 : j < 2 + 16 * k
    · rw [List.append_assoc, List.getElem?_append_right (by simp; omega), List.getElem?_append_left (by simp; omega), ← hw]
      rw [List.getElem?_take_of_lt (by show j - 2 < 16 * k; omega), List.getElem?_drop]
      refine congrArg (a[·]?) ?_
      show j = 2 + (j - 2)
      omega
    · rw [hj j (by rintro ⟨_, _, _, h4⟩; exact h2 h4), List.getElem?_append_right (by simp; omega), List.getElem?_append_right (by simp; omega)]
      simp only [List.length_append, List.length_replicate, hwl]

/-- a process with a directory: `GetCache` for epoch 0 maps a file to memory that the process did not have -/
example (P : Prims) (fuel : Nat) (hf : 2 ^ 63 < fuel) (h : Heap) : ∃ ws w, Spec.IsCache P.keccak256 P.keccak512 .eth 0 ws ∧
    Process.Reach P fuel (ethereum "/d") (genBody P fuel "/d" (ethereum "/d")) w ∧ w.proc.threads[0]? = some (.ended (some 0) 0) ∧
    Held w.mem (w.data 0).1 ws := by
  have hdc : (ethereum "/d", Spec.Chain.eth) ∈ clients "/d" := by simp [clients]
  have he : usable .eth ((0 : U64).toNat) := ⟨Or.inl (by decide), by decide⟩
  obtain ⟨o, ho⟩ := genBody_exists P fuel "/d" (ethereum "/d") 0
  obtain ⟨ws, hw, rfl⟩ := (C86_directory P hdc fuel hf 0 o he).1 ho
  have h0 : Process.Reach P fuel (ethereum "/d") (genBody P fuel "/d" (ethereum "/d"))
      ⟨Manager.init, fun _ => (Dag.InMem.nilWords, Dag.InMem.nilWords), h, fun t i => i < (h.store t).length⟩ := .init _ ⟨rfl, fun _ _ => Iff.rfl⟩
  have h1 := h0.step (.manager _ _ (.call _ 0 rfl))
  have h2 := h1.step (.manager _ _ (.lock _ 0 0 [] 5 _ 0 (some 1) rfl rfl rfl (List.Perm.refl _) (Nat.zero_le _) rfl))
  have h3 := h2.step (.manager _ _ (.start _ 0 (some 0) 0 rfl rfl rfl))
  have hs : ((h.add .word ws).store .word)[(h.store .word).length]? = some ws := by rw [store_add]; simp
  have hz : ∃ a, ((h.add .word ws).store .word)[0]? = some a := by
    rw [store_add]
    cases hx : h.store .word with
    | nil => exact ⟨ws, rfl⟩
    | cons a l => exact ⟨a, rfl⟩
  obtain ⟨a0, ha0⟩ := hz
  have h4 := h3.step (.loaded _ 0 (some 0) 0 _ (⟨(h.store .word).length, 0, ws.length, ws.length⟩, Dag.InMem.nilWords) (h.add .word ws) rfl rfl (by decide) ho
    (untouched_iff.1 ((frame_add h .word ws).mono fun _ _ hx => hx)) (Nat.le_refl _) (Or.inr rfl)
    ⟨ws, hs, Nat.le_refl _, by simp⟩ ⟨a0, ha0, Nat.le_refl _, Nat.zero_le _⟩
    (by unfold peek; rw [hs]; simp) (by unfold peek; simp [Dag.InMem.nilWords, Spec.l1Of, Spec.Chain.eth]))
  obtain ⟨ws', hw', k, _⟩ := C86_kept P hdc fuel hf (fun _ e o he hb => (C86_directory P hdc fuel hf e o he).1 hb) h4 0 0 0 rfl he
  obtain rfl := hw.unique hw'
  exact ⟨ws, _, hw, h4, rfl, k⟩

end Verif.Props
