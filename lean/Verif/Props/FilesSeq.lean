import Verif.Proof.FilesSeqAll
import Verif.Props.Files

/-! # A process alone on its directory: property C74

`Runs disk p disk' p'` are calls of one goroutine in a row, with nobody else at work; `.ret b` and `.stop s` are the ends of a program. -/

set_option autoImplicit false

namespace Verif.Props

open Go Dag Files

attribute [local irreducible] Tables.ethashCacheSizes Tables.ethashDatasetSizes Tables.firopowDatasetSizes Tables.octopusCacheSizes
  Tables.octopusDatasetSizes

section exact
variable (P : Prims) (fuel : Nat) (cfg : Config) (e : U64) {disk : Disk} (hd : Tidy disk)
include hd

theorem generate_sim : Sim disk (Files.generate P fuel cfg e) (fun s => ∃ o, Dag.generate P fuel cfg e disk.view o = s) final (fun _ _ => True) :=
  sim_generate fuel ⟨hd.inj, hd.lt⟩

/-- **C74** For every configuration, epoch and contents of the directory: the words and the directory that a complete run of the system
calls of `generate` can give when nobody else works on the directory are exactly those of the sequential function, over all outcomes of
the calls. -/
theorem C74_exact (l : Loaded) (fs : FS) :
    (∃ disk' b, Runs disk (Files.generate P fuel cfg e) disk' (.ret b) ∧ b.cache.words disk' = l.cache ∧ b.l1.words disk' = l.l1 ∧ disk'.view = fs) ↔
    ∃ o, Dag.generate P fuel cfg e disk.view o = .ok (l, fs) := by
  constructor
  · rintro ⟨disk', b, h, h1, h2, rfl⟩
    obtain ⟨⟨o, ho⟩, _⟩ := (generate_sim P fuel cfg e hd).fwd disk' (.ok b) h
    refine ⟨o, ho.trans ?_⟩
    show Except.ok (final disk' b) = _
    rw [final, h1, h2]
  · rintro ⟨o, ho⟩
    obtain ⟨disk', r, h, h1, _⟩ := (generate_sim P fuel cfg e hd).bwd _ ⟨o, ho⟩
    cases r with
    | error s => cases h1
    | ok b =>
      have h1 := Prod.mk.inj (Except.ok.inj h1)
      exact ⟨disk', b, h, by rw [h1.1], by rw [h1.1], h1.2.symm⟩

/-- **C74** … and the panics are the same. -/
theorem C74_stops (s : Stop) : (∃ disk', Runs disk (Files.generate P fuel cfg e) disk' (.stop s)) ↔
    ∃ o, Dag.generate P fuel cfg e disk.view o = .error s := by
  constructor
  · rintro ⟨disk', h⟩
    obtain ⟨⟨o, ho⟩, _⟩ := (generate_sim P fuel cfg e hd).fwd disk' (.error s) h
    exact ⟨o, ho⟩
  · rintro ⟨o, ho⟩
    obtain ⟨disk', r, h, h1, _⟩ := (generate_sim P fuel cfg e hd).bwd _ ⟨o, ho⟩
    cases r with
    | error s' => cases h1; exact ⟨disk', h⟩
    | ok b => cases h1

end exact

/-- **C74** A client's process that is alone on a directory whose files are absent or right: it does not panic, whichever calls fail, and
when it ends its buffers hold the published caches. No assumption is made about the random numbers or the hash functions. -/
theorem C74_client (P : Prims) (dir : String) (d : Config) (c : Spec.Chain) (h : (d, c) ∈ clients dir) (e : U64)
    (he : usable c e.toNat) (fuel : Nat) (hf : 2 ^ 63 < fuel) {disk : Disk} (hd : Tidy disk)
    (hs : dir ≠ "" → Sound P.keccak256 P.keccak512 dir disk.view) :
    (∀ disk' s, ¬ Runs disk (Files.generate P fuel d e) disk' (.stop s)) ∧
    ∀ disk' b, Runs disk (Files.generate P fuel d e) disk' (.ret b) →
      Spec.IsCache P.keccak256 P.keccak512 c e.toNat (b.cache.words disk') ∧ b.l1.words disk' = Spec.l1Of P.keccak512 c (b.cache.words disk') := by
  constructor
  · intro disk' s hr
    obtain ⟨o, ho⟩ := (C74_stops P fuel d e hd s).mp ⟨disk', hr⟩
    obtain ⟨w, fs', _, h2⟩ := C47_generate P dir d c h e he fuel hf disk.view hs o
    rw [h2] at ho
    cases ho
  · intro disk' b hr
    obtain ⟨o, ho⟩ := (C74_exact P fuel d e hd ⟨b.cache.words disk', b.l1.words disk'⟩ disk'.view).mp ⟨disk', b, hr, rfl, rfl, rfl⟩
    obtain ⟨w, fs', h1, h2⟩ := C47_generate P dir d c h e he fuel hf disk.view hs o
    rw [h2] at ho
    have h3 := Loaded.mk.inj (Prod.mk.inj (Except.ok.inj ho)).1
    rw [← h3.1, ← h3.2]
    exact ⟨h1, rfl⟩

/-- the hypotheses are met, and there are complete runs: one for each outcome of the calls -/
example (P : Prims) (dir : String) (d : Config) (c : Spec.Chain) (h : (d, c) ∈ clients dir) (e : U64) (he : usable c e.toNat) (fuel : Nat)
    (hf : 2 ^ 63 < fuel) : Tidy emptyDisk ∧ (∀ o : GenEnv, ∃ disk' b, Runs emptyDisk (Files.generate P fuel d e) disk' (.ret b) ∧
      ∃ l, Dag.generate P fuel d e (fun _ => none) o = .ok (l, disk'.view)) := by
  have ht : Tidy emptyDisk := ⟨fun _ _ _ h => (by cases h), fun _ _ h => (by cases h)⟩
  refine ⟨ht, fun o => ?_⟩
  obtain ⟨w, fs', _, h2⟩ := C47_generate P dir d c h e he fuel hf (fun _ => none) (fun _ _ _ _ _ _ _ => ⟨Or.inl rfl, fun _ => Or.inl rfl⟩) o
  obtain ⟨disk', b, h3, _, _, h4⟩ := (C74_exact P fuel d e ht _ _).mpr ⟨o, h2⟩
  exact ⟨disk', b, h3, _, by rw [h2, h4]⟩

/-- the two ends of a run that differ in the outcome of one call: the temporary file of a write that could not be mapped stays when it cannot
be removed either -/
example (fs : FS) (path : String) (g : List U32 → Go (List U32)) (b : Bool) :
    Dag.memoryMapAndGenerate fs path 4 false g { calm 7 with mapFails := true, removeFails := b } =
      .ok (none, if b then fs.write (tempPath path 7) (List.replicate 12 0) else fs.remove (tempPath path 7)) := by
  cases b <;> rfl

end Verif.Props
