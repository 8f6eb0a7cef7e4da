import Verif.Props.Dag

/-! # The file that gen-lookup writes: property C73 -/

set_option autoImplicit false

attribute [local irreducible] Verif.Tables.ethashCacheSizes Verif.Tables.ethashDatasetSizes Verif.Tables.firopowDatasetSizes
  Verif.Tables.octopusCacheSizes Verif.Tables.octopusDatasetSizes

namespace Verif.Props

open Go Dag GenLookup Spec.GoLiteral

theorem upTo_append (c : Char) (a b : List Char) (h : c ∉ a) : upTo c (a ++ c :: b) = some (a, b) := by
  induction a with
  | nil => simp [upTo]
  | cons x xs ih =>
    simp only [List.mem_cons, not_or] at h
    rw [List.cons_append, upTo, if_neg (Ne.symm h.1), ih h.2]
    rfl

theorem strip_append (p t : List Char) : strip p (p ++ t) = some t := by
  rw [strip, if_pos (by simp), List.drop_left]

/-- what is read as entries ends with its only brace -/
theorem entries_brace (text : List Char) : ∀ cur l, entries cur text = some l → ∃ t, text = t ++ ['}'] ∧ '}' ∉ t := by
  induction text with
  | nil => intro cur l h; simp [entries] at h
  | cons c cs ih =>
    intro cur l h
    have step : ∀ cur' l', c ≠ '}' → entries cur' cs = some l' → ∃ t, c :: cs = t ++ ['}'] ∧ '}' ∉ t := by
      intro cur' l' hc h'
      obtain ⟨t, rfl, ht⟩ := ih cur' l' h'
      exact ⟨c :: t, rfl, by simp only [List.mem_cons, not_or]; exact ⟨Ne.symm hc, ht⟩⟩
    rw [entries.eq_def] at h
    simp only at h
    by_cases h1 : c.isDigit = true
    · rw [if_pos h1] at h
      exact step _ _ (by rintro rfl; revert h1; decide) h
    · rw [if_neg h1] at h
      by_cases h2 : c = ','
      · rw [if_pos h2] at h
        cases cur with
        | none => simp at h
        | some n =>
          obtain ⟨l', hl, _⟩ := Option.map_eq_some_iff.mp h
          exact step _ _ (by rw [h2]; decide) hl
      · rw [if_neg h2] at h
        by_cases h3 : c = ' ' ∨ c = '\t' ∨ c = '\n'
        · rw [if_pos h3] at h
          cases cur with
          | some n => simp at h
          | none => exact step _ _ (by rintro rfl; revert h3; decide) h
        · rw [if_neg h3] at h
          by_cases h4 : c = '}' ∧ cs = []
          · exact ⟨[], by rw [h4.1, h4.2]; rfl, by simp⟩
          · rw [if_neg h4] at h
            simp at h

theorem readNext_append (text rest : List Char) (l : List Nat) (h : readTable text = some l) : readNext (text ++ rest) = some (l, rest) := by
  have h' := h
  rw [readTable] at h'
  by_cases hp : "[]uint64{".toList.isPrefixOf text = true
  · rw [if_pos hp] at h'
    obtain ⟨t, ht, hb⟩ := entries_brace _ _ _ h'
    have e : text = ("[]uint64{".toList ++ t) ++ ['}'] := by
      rw [List.append_assoc, ← ht]
      obtain ⟨s, hs⟩ := List.isPrefixOf_iff_prefix.mp hp
      rw [← hs]
      exact congrArg _ (List.drop_left (l₁ := "[]uint64{".toList)).symm
    have hn : '}' ∉ "[]uint64{".toList ++ t := by
      rw [List.mem_append, not_or]
      exact ⟨by decide, hb⟩
    rw [readNext, e, List.append_assoc]
    show (upTo '}' (("[]uint64{".toList ++ t) ++ '}' :: rest) >>= _) = _
    rw [upTo_append _ _ _ hn]
    show (readTable (("[]uint64{".toList ++ t) ++ ['}']) >>= _) = _
    rw [← e, h]
    rfl
  · rw [if_neg hp] at h'
    simp at h'

theorem readFile_ok (name c d : List Char) (lc ld : List Nat) (hn : '\n' ∉ name) (hc : readTable c = some lc) (hd : readTable d = some ld) :
    readFile (fileText name c d) = some (name, lc, ld) := by
  have h1 : "\n\nvar cacheSizes = ".toList = '\n' :: "\nvar cacheSizes = ".toList := by decide +kernel
  have hg : ∀ p q r : List Char, p ++ name ++ ('\n' :: q) ++ c ++ r ++ d ++ ['\n'] = p ++ (name ++ '\n' :: (q ++ (c ++ (r ++ (d ++ ['\n']))))) := by
    intro p q r
    simp only [List.append_assoc, List.cons_append]
  have e : fileText name c d = "package ".toList ++ (name ++ '\n' :: ("\nvar cacheSizes = ".toList ++
      (c ++ ("\n\nvar datasetSizes = ".toList ++ (d ++ ['\n']))))) := by
    rw [← hg, ← h1]
    unfold fileText
    rfl
  unfold readFile
  rw [e, strip_append, Option.bind_eq_bind, Option.bind_some, upTo_append _ _ _ hn, Option.bind_eq_bind, Option.bind_some]
  simp only
  rw [strip_append, Option.bind_eq_bind, Option.bind_some, readNext_append _ _ _ hc, Option.bind_some]
  simp only
  rw [strip_append, Option.bind_some, readNext_append _ _ _ hd, Option.bind_some]
  simp only [if_true]

/-- **C73** For all flags: if the sizes are `c` and `d`, the file `<package>_lookup.go` in the working directory, read as Go source, declares
the package and the first `epochs - epochs % 5` of them. -/
theorem C73_file (fuel : Nat) (f : Flags) (hp : f.package ≠ []) (hnl : '\n' ∉ f.package) (he : 0 ≤ f.epochs) (c d : List U64)
    (hc : genCacheLookupTable fuel f.cacheInitBytes f.cacheGrowthBytes f.epochs.toNat = .ok c)
    (hd : genDatasetLookupTable fuel f.mixBytes f.datasetInitBytes f.datasetGrowthBytes f.epochs.toNat = .ok d) (dir : List Char) :
    ∃ text, GenLookup.main fuel f (some dir) true = .ok (some (dir ++ "/".toList ++ f.package ++ "_lookup.go".toList, text)) ∧
      readFile text = some (f.package, (c.take (c.length / 5 * 5)).map BitVec.toNat, (d.take (d.length / 5 * 5)).map BitVec.toNat) := by
  obtain ⟨tc, ec, hc'⟩ := C35_format c 5 (by omega)
  obtain ⟨td, ed, hd'⟩ := C35_format d 5 (by omega)
  refine ⟨fileText f.package tc td, ?_, readFile_ok _ _ _ _ _ hnl hc' hd'⟩
  have ec' : formatLookupTable c 5 = .ok tc := ec
  have ed' : formatLookupTable d 5 = .ok td := ed
  have h0 : f.package.length ≠ 0 := fun h => hp (List.length_eq_zero_iff.mp h)
  have ho : output fuel f.package f.mixBytes f.cacheInitBytes f.cacheGrowthBytes f.datasetInitBytes f.datasetGrowthBytes f.epochs.toNat =
      .ok (fileText f.package tc td) := by
    rw [output, hc, ok_bind, hd, ok_bind, ec', ok_bind, ed']
    rfl
  simp only [GenLookup.main]
  rw [if_neg h0, if_neg (by omega), ho]
  rfl

/-- **C73** No file is written without a package name, when the working directory is not known or when writing fails; a negative number of
epochs panics. -/
theorem C73_nothing (fuel : Nat) (f : Flags) (wd : Option (List Char)) (writes : Bool) :
    (f.package = [] → GenLookup.main fuel f wd writes = .ok none) ∧
    (f.package ≠ [] → f.epochs < 0 → GenLookup.main fuel f wd writes = .error (.panic .explicit)) ∧
    (∀ r, GenLookup.main fuel f wd writes = .ok (some r) → f.package ≠ [] ∧ 0 ≤ f.epochs ∧ writes = true ∧ ∃ dir, wd = some dir) := by
  refine ⟨fun h => ?_, fun h he => ?_, fun r h => ?_⟩
  · simp only [GenLookup.main]
    rw [if_pos (by rw [h]; rfl)]
    rfl
  · have h0 : f.package.length ≠ 0 := fun h' => h (List.length_eq_zero_iff.mp h')
    simp only [GenLookup.main]
    rw [if_neg h0, if_pos he]
    rfl
  · simp only [GenLookup.main] at h
    by_cases h0 : f.package.length = 0
    · rw [if_pos h0] at h
      cases h
    rw [if_neg h0] at h
    by_cases he : f.epochs < 0
    · rw [if_pos he] at h
      cases h
    rw [if_neg he] at h
    refine ⟨fun h' => h0 (by rw [h']; rfl), by omega, ?_⟩
    obtain ⟨t, _⟩ | ⟨t, ht⟩ : (∃ e, output fuel f.package f.mixBytes f.cacheInitBytes f.cacheGrowthBytes f.datasetInitBytes
        f.datasetGrowthBytes f.epochs.toNat = .error e) ∨ ∃ t, output fuel f.package f.mixBytes f.cacheInitBytes f.cacheGrowthBytes
        f.datasetInitBytes f.datasetGrowthBytes f.epochs.toNat = .ok t := by
      cases output fuel f.package f.mixBytes f.cacheInitBytes f.cacheGrowthBytes f.datasetInitBytes f.datasetGrowthBytes f.epochs.toNat with
      | error e => exact Or.inl ⟨e, rfl⟩
      | ok t => exact Or.inr ⟨t, rfl⟩
    · rename_i e
      rw [e] at h
      cases h
    · rw [ht] at h
      cases wd with
      | none => cases h
      | some dir =>
        cases writes with
        | false => cases h
        | true => exact ⟨rfl, dir, rfl⟩

/-- line 1 of /repo/ethash/client.go -/
def ethashFlags : Flags where
  package := "ethash".toList
  mixBytes := 128
  cacheInitBytes := 16777216
  cacheGrowthBytes := 131072
  datasetInitBytes := 1073741824
  datasetGrowthBytes := 8388608

/-- line 1 of /repo/kawpow/client.go -/
def kawpowFlags : Flags where
  package := "kawpow".toList
  mixBytes := 128
  cacheInitBytes := 16777216
  cacheGrowthBytes := 131072
  datasetInitBytes := 1073741824
  datasetGrowthBytes := 8388608

/-- line 1 of /repo/firopow/client.go -/
def firopowFlags : Flags where
  package := "firopow".toList
  mixBytes := 128
  cacheInitBytes := 16777216
  cacheGrowthBytes := 131072
  datasetInitBytes := 1610612736
  datasetGrowthBytes := 8388608

/-- line 1 of /repo/octopus/client.go -/
def octopusFlags : Flags where
  package := "octopus".toList
  mixBytes := 256
  cacheInitBytes := 16777216
  cacheGrowthBytes := 65536
  datasetInitBytes := 4294967296
  datasetGrowthBytes := 16777216

/-- the `go:generate` lines and the tables of the package -/
def generateLines : List (Flags × List Nat × List Nat) :=
  [(ethashFlags, Tables.ethashCacheSizes, Tables.ethashDatasetSizes), (kawpowFlags, Tables.ethashCacheSizes, Tables.ethashDatasetSizes),
    (firopowFlags, Tables.ethashCacheSizes, Tables.firopowDatasetSizes), (octopusFlags, Tables.octopusCacheSizes, Tables.octopusDatasetSizes)]

theorem generateLines_tables : ∀ x ∈ generateLines,
    (x.2.1, 64, x.1.cacheInitBytes.toNat, x.1.cacheGrowthBytes.toNat) ∈ tables ∧
    (x.2.2, x.1.mixBytes.toNat, x.1.datasetInitBytes.toNat, x.1.datasetGrowthBytes.toNat) ∈ tables ∧ x.1.mixBytes.toNat ≠ 64 ∧
    x.1.package ≠ [] ∧ '\n' ∉ x.1.package ∧ x.1.epochs = 2048 := by
  intro x hx
  simp only [generateLines, List.mem_cons, List.not_mem_nil, or_false] at hx
  have m : ∀ (i : Nat) (x : List Nat × Nat × Nat × Nat), tables[i]? = some x → x ∈ tables := fun i x h => List.mem_of_getElem? h
  rcases hx with rfl | rfl | rfl | rfl
  · exact ⟨m 0 _ rfl, m 1 _ rfl, by decide, by decide, by decide, rfl⟩
  · exact ⟨m 0 _ rfl, m 1 _ rfl, by decide, by decide, by decide, rfl⟩
  · exact ⟨m 0 _ rfl, m 2 _ rfl, by decide, by decide, by decide, rfl⟩
  · exact ⟨m 3 _ rfl, m 4 _ rfl, by decide, by decide, by decide, rfl⟩

/-- **C73** `go generate` writes files that, read as Go source, declare exactly the tables that the repository contains. -/
theorem C73_shipped (f : Flags) (tc td : List Nat) (h : (f, tc, td) ∈ generateLines) (fuel : Nat) (hf : 2 ^ 63 < fuel) (dir : List Char) :
    ∃ text, GenLookup.main fuel f (some dir) true = .ok (some (dir ++ "/".toList ++ f.package ++ "_lookup.go".toList, text)) ∧
      readFile text = some (f.package, tc, td) := by
  obtain ⟨h1, h2, h3, h4, h5, h6⟩ := generateLines_tables _ h
  obtain ⟨c, xc, ec, lc, ex, rx⟩ := C35_regenerate_cache _ _ _ h1 fuel hf
  obtain ⟨d, yd, ed, ld, ey, ry⟩ := C35_regenerate_dataset _ _ _ _ h3 h2 fuel hf
  have h7 : f.epochs = 2048 := h6
  obtain ⟨text, et, ht⟩ := C73_file fuel f h4 h5 (by omega) c d (by rw [h7]; exact ec) (by rw [h7]; exact ed) dir
  refine ⟨text, et, ?_⟩
  obtain ⟨x', ex', rx'⟩ := C35_format c 5 (by omega)
  obtain ⟨y', ey', ry'⟩ := C35_format d 5 (by omega)
  have e1 : x' = xc := Except.ok.inj (ex'.symm.trans ex)
  have e2 : y' = yd := Except.ok.inj (ey'.symm.trans ey)
  rw [e1, rx] at rx'
  rw [e2, ry] at ry'
  rw [ht, ← Option.some.inj rx', ← Option.some.inj ry']

-- `C73_shipped`
example (fuel : Nat) (hf : 2 ^ 63 < fuel) : ∃ text,
    GenLookup.main fuel octopusFlags (some "/repo/octopus".toList) true =
      .ok (some ("/repo/octopus".toList ++ "/".toList ++ "octopus".toList ++ "_lookup.go".toList, text)) ∧
      readFile text = some ("octopus".toList, Tables.octopusCacheSizes, Tables.octopusDatasetSizes) :=
  C73_shipped octopusFlags _ _ (List.mem_cons_of_mem _ (List.mem_cons_of_mem _ (List.mem_cons_of_mem _ List.mem_cons_self))) fuel hf _

-- `C73_file` for other flags: of the sizes of the first 7 epochs five are written
example (fuel : Nat) (dir : List Char) (c d : List U64)
    (hc : genCacheLookupTable fuel 16777216 131072 7 = .ok c) (hd : genDatasetLookupTable fuel 128 1073741824 8388608 7 = .ok d) :
    ∃ text, GenLookup.main fuel { ethashFlags with epochs := 7, package := "x".toList } (some dir) true =
      .ok (some (dir ++ "/".toList ++ "x".toList ++ "_lookup.go".toList, text)) ∧
      readFile text = some ("x".toList, (c.take (c.length / 5 * 5)).map BitVec.toNat, (d.take (d.length / 5 * 5)).map BitVec.toNat) :=
  C73_file fuel { ethashFlags with epochs := 7, package := "x".toList } (by decide) (by decide) (by decide) c d hc hd dir

-- `C73_nothing`
example : GenLookup.main 1 {} (some "/".toList) true = .ok none := (C73_nothing 1 {} _ _).1 rfl
example : GenLookup.main 1 { package := "x".toList, epochs := -1 } none true = .error (.panic .explicit) :=
  (C73_nothing 1 _ _ _).2.1 (by decide) (by decide)

end Verif.Props
