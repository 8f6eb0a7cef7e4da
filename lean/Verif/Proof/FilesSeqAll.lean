import Verif.Proof.FilesSeqProg
import Verif.Props.Binding

/-! # One process alone: `generate` as a program of system calls and as a sequential function -/

set_option autoImplicit false

namespace Verif.Files

open Go Dag Verif.Props

attribute [local irreducible] Tables.ethashCacheSizes Tables.ethashDatasetSizes Tables.firopowDatasetSizes Tables.octopusCacheSizes
  Tables.octopusDatasetSizes

/-! ## The generators keep the length of their buffers -/

theorem keccak512At_length {P : Prims} {buf data r : List Byte} {off : Nat} (h : keccak512At P buf off data = .ok r) : r.length = buf.length := by
  rw [keccak512At] at h
  by_cases hl : buf.length < off + 64
  · rw [if_pos hl] at h; cases h
  · rw [if_neg hl] at h
    have h := Except.ok.inj h
    rw [← h, List.length_append, List.length_append, P.keccak512_length, List.length_take, List.length_drop]
    omega

theorem generateCache_length (P : Prims) (rounds : Int) (seed : List Byte) (b w : List U32) (h : generateCache P rounds b seed = .ok w) :
    w.length = b.length := by
  obtain ⟨c, h1, h⟩ := bind_ok_inv h
  have h := Except.ok.inj h
  have hc : c.length = (byteView b).length := by
    rw [generateCacheBytes] at h1
    obtain ⟨c1, e1, h1⟩ := bind_ok_inv h1
    obtain ⟨c2, e2, h1⟩ := bind_ok_inv h1
    obtain ⟨st, e3, h1⟩ := bind_ok_inv h1
    have h1 := Except.ok.inj h1
    rw [← h1]
    refine loop_ok_inv (fun st : List Byte × List Byte => st.1.length = (byteView b).length) ?_ _ _ _ _ ?_ e3
    · intro i s s' hs hi
      refine loop_ok_inv (fun st : List Byte × List Byte => st.1.length = (byteView b).length) ?_ _ _ _ _ hs hi
      rintro j ⟨c, t⟩ s' hs hj
      obtain ⟨_, _, hj⟩ := bind_ok_inv hj
      obtain ⟨_, _, hj⟩ := bind_ok_inv hj
      obtain ⟨_, _, hj⟩ := bind_ok_inv hj
      obtain ⟨_, _, hj⟩ := bind_ok_inv hj
      obtain ⟨_, _, hj⟩ := bind_ok_inv hj
      obtain ⟨_, _, hj⟩ := bind_ok_inv hj
      obtain ⟨c', hc', hj⟩ := bind_ok_inv hj
      have hj := Except.ok.inj hj
      rw [← hj]
      exact (keccak512At_length hc').trans hs
    · refine loop_ok_inv (fun c : List Byte => c.length = (byteView b).length) ?_ _ _ _ _ (keccak512At_length e1) e2
      intro i s s' hs hi
      obtain ⟨_, _, hi⟩ := bind_ok_inv hi
      exact (keccak512At_length hi).trans hs
  rw [← h, wordView_length, hc, byteView_eq, bytesLE_length]
  omega

theorem generateL1Cache_length (P : Prims) (parents : U32) (cache b w : List U32) (h : generateL1Cache P parents b cache = .ok w) :
    w.length = b.length := by
  obtain ⟨c, h1, h⟩ := bind_ok_inv h
  have h := Except.ok.inj h
  have hc : c.length = (byteView b).length := by
    refine loop_ok_inv (fun c : List Byte => c.length = (byteView b).length) ?_ _ _ _ _ rfl h1
    intro i s s' hs hi
    obtain ⟨item, _, hi⟩ := bind_ok_inv hi
    rw [copyAt] at hi
    by_cases hl : i * hashBytes ≤ s.length
    · rw [if_pos hl] at hi
      have hi := Except.ok.inj hi
      rw [← hi, ← hs]
      simp only [List.length_append, List.length_take, List.length_drop]
      omega
    · rw [if_neg hl] at hi; cases hi
  rw [← h, wordView_length, hc, byteView_eq, bytesLE_length]
  omega

/-! ## Sequencing -/

theorem Sim.andThen {α β σ τ E E' : Type} [Nonempty E'] {d : Disk} {p : Prog α} {f : α → Prog β} {fn : E → Go σ} {k : σ → E' → Go τ}
    {out : Disk → α → σ} {post : Disk → α → Prop} {out' : Disk → β → τ} {post' : Disk → β → Prop}
    (h : Sim d p (fun s => ∃ o, fn o = s) out post)
    (hf : ∀ d1 a, post d1 a → Sim d1 (f a) (fun s => ∃ o, k (out d1 a) o = s) out' post') :
    Sim d (p >>= f) (fun s => ∃ o o', (fn o >>= fun x => k x o') = s) out' post' := by
  refine Sim.iff (Sim.bind (R' := fun x s => ∃ o, k x o = s) h hf) fun s => ?_
  constructor
  · rintro (⟨e, ⟨o, ho⟩, rfl⟩ | ⟨x, ⟨o, ho⟩, o', rfl⟩)
    · exact ⟨o, Classical.arbitrary E', by rw [ho]; rfl⟩
    · exact ⟨o, o', by rw [ho]; rfl⟩
  · rintro ⟨o, o', rfl⟩
    cases ho : fn o with
    | error e => exact Or.inl ⟨e, ⟨o, ho⟩, rfl⟩
    | ok x => exact Or.inr ⟨x, ⟨o, ho⟩, o', rfl⟩

theorem Sim.det {α σ E : Type} [Nonempty E] {d : Disk} {p : Prog α} {x : Go σ} {out : Disk → α → σ} {post : Disk → α → Prop}
    (h : Sim d p (fun s => s = x) out post) : Sim d p (fun s => ∃ _ : E, x = s) out post :=
  h.iff fun _ => ⟨fun h => ⟨Classical.arbitrary E, h.symm⟩, fun ⟨_, h⟩ => h.symm⟩

instance : Nonempty WriteEnv := ⟨calm 0⟩
instance : Nonempty MapEnv := ⟨⟨false, false, false⟩⟩

/-! ## Buffers -/

/-- a buffer that is a mapped file is the file of that name -/
def Buffer.At (d : Disk) (path : String) (b : Buffer) : Prop := ∀ f, b = .file f → d.names path = some f

/-- the words of a buffer with the directory -/
def loaded (d : Disk) (b : Buffer) : List U32 × FS := (b.words d, d.view)

theorem sim_load (d : Disk) (b : Buffer) : Sim d (load b) (fun s => s = .ok (b.words d)) (fun _ w => w) (fun d' _ => d' = d) := by
  cases b with
  | mem w => exact Sim.ret (out := fun _ w => w) rfl
  | file f => exact sim_read (Sim.ret (out := fun _ w => w) rfl)

/-- what remains true of the directory when a buffer for `path` has been provided -/
structure KeptB (d : Disk) (path : String) (d' : Disk) (b : Buffer) : Prop where
  neat : Neat d'
  at_path : b.At d' path
  others : ∀ q g, d.names q = some g → q ≠ path → (∀ n, q ≠ tempPath path n) → d'.names q = some g ∧ d'.data g = d.data g

/-- another buffer is still what it was -/
theorem KeptB.buffer {d d' : Disk} {path q : String} {b c : Buffer} (h : KeptB d path d' b) (hq : q ≠ path) (ht : ∀ n, q ≠ tempPath path n)
    (hc : c.At d q) : c.At d' q ∧ c.words d' = c.words d := by
  cases c with
  | mem w => exact ⟨fun f hf => (by cases hf), rfl⟩
  | file g =>
    obtain ⟨h1, h2⟩ := h.others q g (hc g rfl) hq ht
    exact ⟨fun f hf => by cases hf; exact h1, congrArg dataOf h2⟩

section provide
variable {P : Prims} {cfg : Config} {d : Disk} (hd : Neat d) {path : String}
include hd

theorem sim_provide {size : U64} {generator : List U32 → Prog (List U32)} {g : List U32 → Go (List U32)} {x : Go (List U32)} {q : Prog (List U32)}
    (hgen : ∀ d1 b, (∀ q g, d.names q = some g → q ≠ path → (∀ n, q ≠ tempPath path n) → d1.data g = d.data g) →
      Sim d1 (generator b) (fun s => s = g b) (fun _ w => w) (fun d' _ => d' = d1))
    (hq : ∀ d1, (∀ q g, d.names q = some g → q ≠ path → (∀ n, q ≠ tempPath path n) → d1.data g = d.data g) →
      Sim d1 q (fun s => s = x) (fun _ w => w) (fun d' _ => d' = d1))
    (hlen : ∀ b w, g b = .ok w → w.length = b.length) :
    Sim d (memoryMapAndGenerate path size cfg.cachesLockMmap generator >>= fun df => match df with
        | some f => Prog.ret (.file f)
        | none => do
          let words ← q
          .ret (.mem words))
      (fun s => ∃ o, (do
        let (df, fs) ← Dag.memoryMapAndGenerate d.view path size cfg.cachesLockMmap g o
        match df with
        | some data => return (data, fs)
        | none => do
          let w ← x
          return (w, fs)) = s) loaded (KeptB d path) := by
  refine Sim.iff (Sim.andThen (E' := Unit) (k := fun (r : Option (List U32) × FS) _ => match r.1 with
    | some data => pure (data, r.2)
    | none => do
      let w ← x
      return (w, r.2)) (sim_memoryMapAndGenerate hd hgen hlen) ?_) fun s => ⟨fun ⟨o, _, h⟩ => ⟨o, h⟩, fun ⟨o, h⟩ => ⟨o, (), h⟩⟩
  intro d1 df hk
  cases df with
  | some f =>
    refine Sim.det (Sim.ret (out := loaded) ⟨hk.neat, fun g hg => ?_, hk.others⟩)
    cases hg
    exact hk.at_path f rfl
  | none =>
    have hs := Sim.bind (f := fun words => Prog.ret (Buffer.mem words)) (out' := loaded) (post' := KeptB d path)
      (R' := fun w s => s = .ok (w, d1.view)) (hq d1 fun q g h1 h2 h3 => (hk.others q g h1 h2 h3).2) (by
        rintro d2 w rfl
        exact Sim.ret (out := loaded) ⟨hk.neat, fun g hg => (by cases hg), hk.others⟩)
    refine Sim.iff hs fun s => ?_
    show _ ↔ ∃ _ : Unit, (x >>= fun w => pure (w, d1.view)) = s
    cases x with
    | error e =>
      constructor
      · rintro (⟨e', h1, rfl⟩ | ⟨w, h1, _⟩)
        · cases h1; exact ⟨(), rfl⟩
        · cases h1
      · rintro ⟨_, rfl⟩
        exact Or.inl ⟨e, rfl, rfl⟩
    | ok w =>
      constructor
      · rintro (⟨e', h1, rfl⟩ | ⟨w', h1, rfl⟩)
        · cases h1
        · cases h1; exact ⟨(), rfl⟩
      · rintro ⟨_, rfl⟩
        exact Or.inr ⟨w, rfl, rfl⟩

theorem sim_provideCache {size : U64} {seed : List Byte} : Sim d (provideCache P cfg size seed path)
    (fun s => ∃ o, Dag.provideCache P cfg size seed path d.view o = s) loaded (KeptB d path) := by
  have hl : ∀ d1 (x : Go (List U32)), Sim d1 (lift x) (fun s => s = x) (fun _ w => w) (fun d' _ => d' = d1) := by
    intro d1 x
    refine ((Sim.lift (d := d1) (out := fun _ w => w) x).weaken fun d' a h => h.1).iff fun s => ?_
    cases x <;> exact Iff.rfl
  exact sim_provide hd (fun d1 b _ => hl d1 _) (fun d1 _ => hl d1 _) fun b w => generateCache_length P _ _ b w

theorem sim_provideL1 {cache : Buffer} {q : String} (hc : cache.At d q) (hq : q ≠ path) (ht : ∀ n, q ≠ tempPath path n) :
    Sim d (provideL1 P cfg cache path)
    (fun s => ∃ o, Dag.provideL1 P cfg (cache.words d) path d.view o = s) loaded (KeptB d path) := by
  have hw : ∀ d1, (∀ q g, d.names q = some g → q ≠ path → (∀ n, q ≠ tempPath path n) → d1.data g = d.data g) → cache.words d1 = cache.words d := by
    intro d1 hd1
    cases cache with
    | mem w => rfl
    | file f => exact congrArg dataOf (hd1 q f (hc f rfl) hq ht)
  have hl : ∀ d1 (k : List U32 → Go (List U32)),
      (∀ q g, d.names q = some g → q ≠ path → (∀ n, q ≠ tempPath path n) → d1.data g = d.data g) →
      Sim d1 (load cache >>= fun cache => lift (k cache)) (fun s => s = k (cache.words d)) (fun _ w => w) (fun d' _ => d' = d1) := by
    intro d1 k hd1
    refine Sim.iff (Sim.bind (R' := fun w s => s = k w) (sim_load d1 cache) (f := fun cache => lift (k cache)) (out' := fun _ w => w)
      (post' := fun d' _ => d' = d1) ?_) fun s => ?_
    · rintro d2 w rfl
      refine ((Sim.lift (d := d2) (out := fun _ w => w) (k w)).weaken fun d' a h => h.1).iff fun s => ?_
      cases k w <;> exact Iff.rfl
    · rw [hw d1 hd1]
      constructor
      · rintro (⟨e, h, _⟩ | ⟨x, h, h'⟩)
        · cases h
        · cases h; exact h'
      · intro h
        exact Or.inr ⟨_, rfl, h⟩
  have h := sim_provide (cfg := cfg) (size := cfg.l1CacheSize) hd (generator := fun buffer => load cache >>= fun cache => lift (generateL1Cache P cfg.datasetParents buffer cache))
    (g := fun buffer => generateL1Cache P cfg.datasetParents buffer (cache.words d)) (x := memoryL1 P cfg (cache.words d))
    (q := load cache >>= fun cache => lift (memoryL1 P cfg cache)) (fun d1 b h1 => hl d1 _ h1) (fun d1 h1 => hl d1 _ h1)
    fun b w => generateL1Cache_length P _ _ b w
  rw [provideL1]
  simp only [bind_assoc] at h
  exact h

end provide

/-! ## The removal of old files -/

/-- the names that cache.go:102-110 removes from the `i`-th iteration on -/
def oldPaths (P : Prims) (cfg : Config) (start : Int) : Nat → Nat → Go (List String)
  | _, 0 => .ok []
  | i, n + 1 => do
    let seed ← seedHash P cfg ((BitVec.ofInt 64 (start - i) : U64) * cfg.epochLength + 1)
    let seed ← slc seed 0 8
    let rest ← oldPaths P cfg start (i + 1) n
    return cacheStorageLocation cfg seed :: l1StorageLocation cfg seed :: rest

/-- the files other than those of a list for which `S` holds -/
def without (S : String → Bool) (ps : List String) (fs : FS) : FS := fun q => if q ∈ ps ∧ S q = true then none else fs q

theorem without_cons (S : String → Bool) (p : String) (ps : List String) (fs : FS) :
    without S (p :: ps) fs = without S ps (if S p then fs.remove p else fs) := by
  funext q
  simp only [without, List.mem_cons]
  by_cases hS : S q = true
  · by_cases hps : q ∈ ps
    · rw [if_pos ⟨Or.inr hps, hS⟩, if_pos ⟨hps, hS⟩]
    · by_cases hp : q = p
      · subst hp
        rw [if_pos ⟨Or.inl rfl, hS⟩, if_neg (fun h => hps h.1), if_pos hS, FS.remove_same]
      · rw [if_neg (by tauto), if_neg (by tauto)]
        by_cases hSp : S p = true
        · rw [if_pos hSp, FS.remove_other _ _ _ hp]
        · rw [if_neg hSp]
  · rw [if_neg (by tauto), if_neg (by tauto)]
    by_cases hSp : S p = true
    · rw [if_pos hSp, FS.remove_other _ _ _ (by rintro rfl; exact hS hSp)]
    · rw [if_neg hSp]

theorem cleanup_paths (P : Prims) (cfg : Config) (fails : String → Bool) (start : Int) (n i : Nat) (fs : FS) :
    loop n i fs (cleanupStep P cfg fails start) = (oldPaths P cfg start i n).map fun ps => without (fun q => !fails q) ps fs := by
  induction n generalizing i fs with
  | zero =>
    refine congrArg Except.ok ?_
    funext q
    simp [without]
  | succ n ih =>
    rw [loop, cleanupStep, oldPaths]
    simp only
    cases seedHash P cfg ((BitVec.ofInt 64 (start - i) : U64) * cfg.epochLength + 1) with
    | error e => rfl
    | ok sd =>
      simp only [ok_bind]
      cases slc sd 0 8 with
      | error e => rfl
      | ok key =>
        simp only [ok_bind]
        refine (ih (i + 1) _).trans ?_
        cases oldPaths P cfg start (i + 1) n with
        | error e => rfl
        | ok rest =>
          refine congrArg Except.ok ?_
          show without _ rest _ = without _ (_ :: _ :: rest) fs
          rw [without_cons, without_cons]
          have hr : ∀ p f, removeFile fails f p = if (!fails p) = true then f.remove p else f := by
            intro p f
            rw [removeFile]
            cases fails p <;> rfl
          rw [hr, hr]

theorem sim_cleanupLoop (P : Prims) (cfg : Config) (start : Int) (n i : Nat) (d : Disk) :
    Sim d (cleanupLoop P cfg start i n) (fun s => ∃ S, (oldPaths P cfg start i n).map (fun ps => without S ps d.view) = s)
      (fun d' _ => d'.view) (fun d' _ => d'.data = d.data) := by
  induction n generalizing i d with
  | zero =>
    refine (Sim.ret (out := fun d' _ => d'.view) (post := fun d' _ => d'.data = d.data) rfl).iff fun s => ?_
    have hw : ∀ S, without S [] d.view = d.view := by intro S; funext q; simp [without]
    simp only [oldPaths, Except.map, hw, exists_const]
    exact eq_comm
  | succ n ih =>
    rw [cleanupLoop, oldPaths]
    cases seedHash P cfg ((BitVec.ofInt 64 (start - i) : U64) * cfg.epochLength + 1) with
    | error e => exact Sim.stop.det
    | ok sd =>
      simp only [ok_bind, show (lift (.ok sd) : Prog (List Byte)) = .ret sd from rfl, bind_eq_ret]
      cases slc sd 0 8 with
      | error e => exact Sim.stop.det
      | ok key =>
        simp only [ok_bind]
        obtain ⟨p1, hp1⟩ : ∃ p, p = cacheStorageLocation cfg key := ⟨_, rfl⟩
        obtain ⟨p2, hp2⟩ : ∃ p, p = l1StorageLocation cfg key := ⟨_, rfl⟩
        show Sim d (remove (cacheStorageLocation cfg key) >>= fun _ => remove (l1StorageLocation cfg key) >>= fun _ =>
          cleanupLoop P cfg start (i + 1) n) _ _ _
        rw [← hp1, ← hp2]
        refine Sim.iff (sim_remove (F := fun _ => remove p2 >>= fun _ => cleanupLoop P cfg start (i + 1) n)
          (sim_remove (F := fun _ => cleanupLoop P cfg start (i + 1) n) (ih (i + 1) _) (ih (i + 1) _))
          (sim_remove (F := fun _ => cleanupLoop P cfg start (i + 1) n) (ih (i + 1) _) (ih (i + 1) _))) fun s => ?_
        simp only [view_unbind]
        cases oldPaths P cfg start (i + 1) n with
        | error e =>
          constructor
          · rintro ((⟨S, rfl⟩ | ⟨S, rfl⟩) | (⟨S, rfl⟩ | ⟨S, rfl⟩)) <;> exact ⟨S, rfl⟩
          · rintro ⟨S, rfl⟩
            exact Or.inl (Or.inl ⟨S, rfl⟩)
        | ok rest =>
          have key : ∀ (b1 b2 : Bool) (S : String → Bool), ∃ S', without S' (p1 :: p2 :: rest) d.view =
              without S rest (if b2 then (if b1 then d.view.remove p1 else d.view).remove p2 else if b1 then d.view.remove p1 else d.view) := by
            intro b1 b2 S
            refine ⟨fun q => (b1 && q == p1) || (b2 && q == p2) || (S q && rest.contains q), ?_⟩
            funext q
            simp only [without, List.mem_cons, Bool.or_eq_true, Bool.and_eq_true, beq_iff_eq, List.contains_iff_mem]
            by_cases hr : q ∈ rest ∧ S q = true
            · rw [if_pos hr, if_pos ⟨Or.inr (Or.inr hr.1), Or.inr ⟨hr.2, hr.1⟩⟩]
            · rw [if_neg hr]
              by_cases h2 : b2 = true ∧ q = p2
              · rw [if_pos ⟨Or.inr (Or.inl h2.2), Or.inl (Or.inr h2)⟩, if_pos h2.1, h2.2, FS.remove_same]
              · have e2 : ∀ f : FS, (if b2 = true then f.remove p2 else f) q = f q := by
                  intro f
                  by_cases hb : b2 = true
                  · rw [if_pos hb, FS.remove_other _ _ _ fun h => h2 ⟨hb, h⟩]
                  · rw [if_neg hb]
                rw [e2]
                by_cases h1 : b1 = true ∧ q = p1
                · rw [if_pos ⟨Or.inl h1.2, Or.inl (Or.inl h1)⟩, if_pos h1.1, h1.2, FS.remove_same]
                · rw [if_neg (by tauto)]
                  by_cases hb : b1 = true
                  · rw [if_pos hb, FS.remove_other _ _ _ fun h => h1 ⟨hb, h⟩]
                  · rw [if_neg hb]
          constructor
          · rintro ((⟨S, rfl⟩ | ⟨S, rfl⟩) | (⟨S, rfl⟩ | ⟨S, rfl⟩))
            · obtain ⟨S', h⟩ := key true true S
              exact ⟨S', congrArg Except.ok h⟩
            · obtain ⟨S', h⟩ := key true false S
              exact ⟨S', congrArg Except.ok h⟩
            · obtain ⟨S', h⟩ := key false true S
              exact ⟨S', congrArg Except.ok h⟩
            · obtain ⟨S', h⟩ := key false false S
              exact ⟨S', congrArg Except.ok h⟩
          · rintro ⟨S, rfl⟩
            have h := (without_cons S p1 (p2 :: rest) d.view).trans (without_cons S p2 rest _)
            by_cases h1 : S p1 = true
            · rw [if_pos h1] at h
              by_cases h2 : S p2 = true
              · rw [if_pos h2] at h
                exact Or.inl (Or.inl ⟨S, (congrArg Except.ok h).symm⟩)
              · rw [if_neg h2] at h
                exact Or.inl (Or.inr ⟨S, (congrArg Except.ok h).symm⟩)
            · rw [if_neg h1] at h
              by_cases h2 : S p2 = true
              · rw [if_pos h2] at h
                exact Or.inr (Or.inl ⟨S, (congrArg Except.ok h).symm⟩)
              · rw [if_neg h2] at h
                exact Or.inr (Or.inr ⟨S, (congrArg Except.ok h).symm⟩)

theorem sim_cleanup (P : Prims) (cfg : Config) (epoch : U64) (d : Disk) :
    Sim d (cleanup P cfg epoch) (fun s => ∃ fails, Dag.cleanup P cfg epoch fails d.view = s)
      (fun d' _ => d'.view) (fun d' _ => d'.data = d.data) := by
  refine (sim_cleanupLoop P cfg _ _ 0 d).iff fun s => ?_
  simp only [Dag.cleanup, forRange, cleanup_paths, Nat.sub_zero]
  constructor
  · rintro ⟨S, rfl⟩
    exact ⟨fun q => !S q, by simp⟩
  · rintro ⟨fails, rfl⟩
    exact ⟨fun q => !fails q, rfl⟩

/-! ## generate -/

/-- a mapped cache as a buffer -/
def optBuffer (x : Option Nat) : Option Buffer := x.map .file

/-- the words of an optional buffer -/
def optWords (d : Disk) (x : Option Buffer) : Option (List U32) := x.map (Buffer.words d)

/-- the words of both buffers with the directory -/
def final (d : Disk) (b : Buffers) : Loaded × FS := (⟨b.cache.words d, b.l1.words d⟩, d.view)

section generate
variable {P : Prims} {cfg : Config} {d : Disk} {epoch size : U64} {seed : List Byte} {key : List Byte}

theorem sim_ensureCache (hd : Neat d) {old : Option Nat} {path : String} (ho : ∀ f, old = some f → d.names path = some f) :
    Sim d (ensureCache P cfg size seed path old)
    (fun s => ∃ o, Dag.ensureCache P cfg size seed path (seen d old) d.view o = s) loaded (KeptB d path) := by
  cases old with
  | none => exact sim_provideCache hd
  | some f =>
    refine Sim.det (Sim.ret (out := loaded) ⟨hd, fun g hg => ?_, fun q g hq _ _ => ⟨hq, rfl⟩⟩)
    cases hg
    exact ho f rfl

theorem sim_ensureL1 (hd : Neat d) {old : Option Buffer} {path : String} (ho : ∀ b, old = some b → b.At d path) {cache : Buffer} {q : String}
    (hc : cache.At d q) (hq : q ≠ path) (ht : ∀ n, q ≠ tempPath path n) :
    Sim d (ensureL1 P cfg cache path old)
    (fun s => ∃ o, Dag.ensureL1 P cfg (cache.words d) path (optWords d old) d.view o = s) loaded (KeptB d path) := by
  cases old with
  | none => exact sim_provideL1 hd hc hq ht
  | some b => exact Sim.det (Sim.ret (out := loaded) ⟨hd, ho b rfl, fun q g hq _ _ => ⟨hq, rfl⟩⟩)

theorem sim_tryL1 {path : String} : Sim d (tryL1 cfg path) (fun s => ∃ o, Dag.tryL1 cfg d.view path o = s) optWords
    (fun d' x => d' = d ∧ ∀ b, x = some b → b.At d path) := by
  rw [tryL1]
  simp only [Dag.tryL1]
  by_cases hE : cfg.l1Enabled = true
  · simp only [hE, if_true]
    refine Sim.iff (Sim.andThen (E' := Unit) (k := fun x _ => pure x) (f := fun f => Prog.ret (f.map Buffer.file)) sim_memoryMap ?_) fun s => ?_
    · rintro d1 x ⟨rfl, hx⟩
      refine Sim.iff (Sim.det (E := Unit) (Sim.ret (out := optWords) ⟨rfl, ?_⟩)) fun s => ?_
      · rintro b hb f rfl
        cases x with
        | none => cases hb
        | some g => cases hb; exact hx _ rfl
      · cases x <;> exact Iff.rfl
    · simp only [bind_pure, exists_const]
  · simp only [hE]
    exact Sim.det (Sim.ret (out := optWords) ⟨rfl, fun b hb f hf => by cases hb; cases hf⟩)

theorem words_data {d d' : Disk} (h : d'.data = d.data) (b : Buffer) : b.words d' = b.words d := by
  cases b with
  | mem w => rfl
  | file f => exact congrArg dataOf (congrFun h f)

theorem sim_produce (hd : Neat d) {oldCache : Option Nat} (hoc : ∀ f, oldCache = some f → d.names (cacheStorageLocation cfg key) = some f)
    {oldL1 : Option Buffer} (hol : ∀ b, oldL1 = some b → b.At d (l1StorageLocation cfg key)) :
    Sim d (produce P cfg epoch size seed (cacheStorageLocation cfg key) (l1StorageLocation cfg key) oldCache oldL1)
    (fun s => ∃ (o1 : WriteEnv) (o2 : WriteEnv × (String → Bool)), (do
      let (cache, fs) ← Dag.ensureCache P cfg size seed (cacheStorageLocation cfg key) (seen d oldCache) d.view o1
      let (l1, fs) ← Dag.ensureL1 P cfg cache (l1StorageLocation cfg key) (optWords d oldL1) fs o2.1
      let fs ← Dag.cleanup P cfg epoch o2.2 fs
      return (⟨cache, l1⟩, fs)) = s) final (fun _ _ => True) := by
  have hne : ∀ n, l1StorageLocation cfg key ≠ tempPath (cacheStorageLocation cfg key) n := fun n h => tempCache_ne_l1Path cfg cfg rfl key key n h.symm
  have hne' : ∀ n, cacheStorageLocation cfg key ≠ tempPath (l1StorageLocation cfg key) n := fun n h => tempL1_ne_cachePath cfg cfg rfl key key n h.symm
  have hp : l1StorageLocation cfg key ≠ cacheStorageLocation cfg key := fun h => cachePath_ne_l1Path cfg cfg rfl key key h.symm
  have hp' : cacheStorageLocation cfg key ≠ l1StorageLocation cfg key := cachePath_ne_l1Path cfg cfg rfl key key
  refine Sim.andThen (E' := WriteEnv × (String → Bool)) (k := fun (x : List U32 × FS) (o2 : WriteEnv × (String → Bool)) => do
      let (l1, fs) ← Dag.ensureL1 P cfg x.1 (l1StorageLocation cfg key) (optWords d oldL1) x.2 o2.1
      let fs ← Dag.cleanup P cfg epoch o2.2 fs
      return ((⟨x.1, l1⟩ : Loaded), fs)) (sim_ensureCache hd hoc) ?_
  intro d1 cache hk
  have hol1 : ∀ b, oldL1 = some b → b.At d1 (l1StorageLocation cfg key) := fun b hb => (hk.buffer hp hne (hol b hb)).1
  have hw : optWords d oldL1 = optWords d1 oldL1 := by
    cases oldL1 with
    | none => rfl
    | some b => exact congrArg some (hk.buffer hp hne (hol b rfl)).2.symm
  rw [hw]
  refine Sim.iff (Sim.andThen (E' := String → Bool) (k := fun (x : List U32 × FS) (o : String → Bool) => do
      let fs ← Dag.cleanup P cfg epoch o x.2
      return ((⟨cache.words d1, x.1⟩ : Loaded), fs)) (sim_ensureL1 hk.neat hol1 hk.at_path hp' hne') ?_) fun s => ?_
  · intro d2 l1 hk2
    have hc := (hk2.buffer hp' hne' hk.at_path).2
    refine Sim.iff (Sim.andThen (E' := Unit) (k := fun (fs : FS) _ => pure ((⟨cache.words d1, l1.words d2⟩ : Loaded), fs))
      (f := fun _ => Prog.ret (⟨cache, l1⟩ : Buffers)) (sim_cleanup P cfg epoch d2) ?_) fun s => ?_
    · intro d3 _ h3
      refine Sim.iff (Sim.det (E := Unit) (Sim.ret (out := final) trivial)) fun s => ?_
      rw [final, words_data h3, words_data h3, hc]
      rfl
    · simp only [exists_const]
      rfl
  · constructor
    · rintro ⟨o, o', h⟩
      exact ⟨(o, o'), h⟩
    · rintro ⟨⟨o, o'⟩, h⟩
      exact ⟨o, o', h⟩

theorem sim_complete (hd : Neat d) {oldCache : Option Nat} (hoc : ∀ f, oldCache = some f → d.names (cacheStorageLocation cfg key) = some f)
    {oldL1 : Option Buffer} (hol : ∀ b, oldL1 = some b → b.At d (l1StorageLocation cfg key)) :
    Sim d (complete P cfg epoch size seed (cacheStorageLocation cfg key) (l1StorageLocation cfg key) oldCache oldL1)
    (fun s => ∃ (o : WriteEnv × WriteEnv × (String → Bool)), (match seen d oldCache, optWords d oldL1 with
      | some cache, some l1 => return (⟨cache, l1⟩, d.view)
      | _, _ => do
        let (cache, fs) ← Dag.ensureCache P cfg size seed (cacheStorageLocation cfg key) (seen d oldCache) d.view o.1
        let (l1, fs) ← Dag.ensureL1 P cfg cache (l1StorageLocation cfg key) (optWords d oldL1) fs o.2.1
        let fs ← Dag.cleanup P cfg epoch o.2.2 fs
        return (⟨cache, l1⟩, fs) : Go (Loaded × FS)) = s) final (fun _ _ => True) := by
  have hpr := sim_produce (P := P) (cfg := cfg) (epoch := epoch) (size := size) (seed := seed) hd hoc hol
  have hpr := hpr.iff (R' := fun s => ∃ (o : WriteEnv × WriteEnv × (String → Bool)), (do
        let (cache, fs) ← Dag.ensureCache P cfg size seed (cacheStorageLocation cfg key) (seen d oldCache) d.view o.1
        let (l1, fs) ← Dag.ensureL1 P cfg cache (l1StorageLocation cfg key) (optWords d oldL1) fs o.2.1
        let fs ← Dag.cleanup P cfg epoch o.2.2 fs
        return (⟨cache, l1⟩, fs) : Go (Loaded × FS)) = s) fun s =>
    ⟨fun ⟨o1, o2, h⟩ => ⟨(o1, o2), h⟩, fun ⟨o, h⟩ => ⟨o.1, o.2, h⟩⟩
  cases oldCache with
  | none => exact hpr
  | some c =>
    cases oldL1 with
    | none => exact hpr
    | some l => exact Sim.det (Sim.ret (out := final) trivial)

theorem sim_generateOnDisk (hd : Neat d) : Sim d (generateOnDisk P cfg epoch size seed)
    (fun s => ∃ o, Dag.generateOnDisk P cfg epoch size seed d.view o = s) final (fun _ _ => True) := by
  rw [generateOnDisk]
  simp only [Dag.generateOnDisk]
  cases slc seed 0 8 with
  | error e => exact (Sim.stop (out := final)).iff fun s => ⟨fun h => ⟨⟨⟨false, false, false⟩, ⟨false, false, false⟩, calm 0, calm 0, fun _ => false⟩, h.symm⟩, fun ⟨_, h⟩ => h.symm⟩
  | ok key =>
    show Sim d (memoryMap (cacheStorageLocation cfg key) cfg.cachesLockMmap >>= fun oldCache => tryL1 cfg (l1StorageLocation cfg key) >>= fun oldL1 =>
      complete P cfg epoch size seed (cacheStorageLocation cfg key) (l1StorageLocation cfg key) oldCache oldL1) _ _ _
    have h := Sim.andThen (E' := MapEnv × WriteEnv × WriteEnv × (String → Bool)) (f := fun oldCache => tryL1 cfg (l1StorageLocation cfg key) >>= fun oldL1 =>
        complete P cfg epoch size seed (cacheStorageLocation cfg key) (l1StorageLocation cfg key) oldCache oldL1)
      (k := fun (oldCache : Option (List U32)) o => do
        let oldL1 ← Dag.tryL1 cfg d.view (l1StorageLocation cfg key) o.1
        match oldCache, oldL1 with
        | some cache, some l1 => return (⟨cache, l1⟩, d.view)
        | _, _ => do
          let (cache, fs) ← Dag.ensureCache P cfg size seed (cacheStorageLocation cfg key) oldCache d.view o.2.1
          let (l1, fs) ← Dag.ensureL1 P cfg cache (l1StorageLocation cfg key) oldL1 fs o.2.2.1
          let fs ← Dag.cleanup P cfg epoch o.2.2.2 fs
          return (⟨cache, l1⟩, fs)) (out' := final) (post' := fun _ _ => True)
      (sim_memoryMap (d := d) (path := cacheStorageLocation cfg key) (lck := cfg.cachesLockMmap)) (by
        rintro d1 oldCache ⟨rfl, hoc⟩
        refine Sim.iff (Sim.andThen (f := fun oldL1 => complete P cfg epoch size seed (cacheStorageLocation cfg key) (l1StorageLocation cfg key) oldCache oldL1)
          (k := fun (oldL1 : Option (List U32)) (o : WriteEnv × WriteEnv × (String → Bool)) => match seen d1 oldCache, oldL1 with
            | some cache, some l1 => return (⟨cache, l1⟩, d1.view)
            | _, _ => do
              let (cache, fs) ← Dag.ensureCache P cfg size seed (cacheStorageLocation cfg key) (seen d1 oldCache) d1.view o.1
              let (l1, fs) ← Dag.ensureL1 P cfg cache (l1StorageLocation cfg key) oldL1 fs o.2.1
              let fs ← Dag.cleanup P cfg epoch o.2.2 fs
              return (⟨cache, l1⟩, fs)) (out' := final) (post' := fun _ _ => True) sim_tryL1 (by
            rintro d2 oldL1 ⟨rfl, hol⟩
            exact sim_complete hd hoc hol)) fun s => ⟨fun ⟨o1, o2, h⟩ => ⟨(o1, o2), h⟩, fun ⟨o, h⟩ => ⟨o.1, o.2, h⟩⟩)
    refine h.iff fun s => ?_
    constructor
    · rintro ⟨o1, o2, h⟩
      exact ⟨⟨o1, o2.1, o2.2.1, o2.2.2.1, o2.2.2.2⟩, h⟩
    · rintro ⟨o, h⟩
      exact ⟨o.cacheRead, (o.l1Read, o.cacheWrite, o.l1Write, o.removeFails), h⟩

theorem sim_generate (fuel : Nat) (hd : Neat d) : Sim d (generate P fuel cfg epoch)
    (fun s => ∃ o, Dag.generate P fuel cfg epoch d.view o = s) final (fun _ _ => True) := by
  have o0 : GenEnv := ⟨⟨false, false, false⟩, ⟨false, false, false⟩, calm 0, calm 0, fun _ => false⟩
  have : Nonempty GenEnv := ⟨o0⟩
  rw [generate]
  simp only [Dag.generate]
  cases cacheSize fuel cfg epoch with
  | error e => exact Sim.det Sim.stop
  | ok size =>
    show Sim d (lift (seedHash P cfg (epoch * cfg.epochLength + 1)) >>= _) _ _ _
    simp only [ok_bind]
    cases seedHash P cfg (epoch * cfg.epochLength + 1) with
    | error e => exact Sim.det Sim.stop
    | ok seed =>
      simp only [ok_bind, show (lift (.ok seed) : Prog (List Byte)) = .ret seed from rfl, bind_eq_ret]
      by_cases hs : cfg.storageDir = ""
      · simp only [hs, if_true]
        cases generateInMemory P cfg size seed with
        | error e => exact Sim.det Sim.stop
        | ok l => exact Sim.det (Sim.ret (out := final) trivial)
      · simp only [hs, if_false]
        exact sim_generateOnDisk hd

end generate

end Verif.Files
