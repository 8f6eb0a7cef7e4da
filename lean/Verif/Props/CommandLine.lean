import Verif.Proof.CommandLine
import Verif.Props.DagParams
import Verif.Props.GenLookup

/-! # The command line of gen-lookup: property C98 -/

set_option autoImplicit false

attribute [local irreducible] Verif.Tables.ethashCacheSizes Verif.Tables.ethashDatasetSizes Verif.Tables.firopowDatasetSizes
  Verif.Tables.octopusCacheSizes Verif.Tables.octopusDatasetSizes

namespace Verif.Props

open Go Dag GenLookup Flag Spec.GoLiteral Spec.CommandLine Spec.DagParams

/-- the arguments of settings -/
def line (l : List (Setting × Form)) : List (List Char) := l.flatMap fun x => x.1.written x.2

/-- the parameters after settings -/
def params (l : List (Setting × Form)) : Params := (l.map Prod.fst).foldl Params.apply defaults

theorem parse_line (l : List (Setting × Form)) (hl : ∀ x ∈ l, x.1.Fits) (rest : List (List Char)) :
    parse formal (line l ++ rest) {} = parse formal rest (toFlags (params l)) :=
  parse_settings l hl rest defaults

theorem parse_ends (tail : List (List Char)) (h : Ends tail) (x : Flags) : ∃ left, parse formal tail x = .ok x left := by
  have plain : ∀ a : List Char, (a = ['-'] ∨ a.head? ≠ some '-') → classify a = .plain := by
    intro a h
    unfold classify
    split
    · simp at h
    · simp at h
    · simp at h
    · rfl
  cases h with
  | nothing => exact ⟨[], by rw [parse]⟩
  | dashes rest =>
    cases rest with
    | nil => exact ⟨[], rfl⟩
    | cons b as => exact ⟨_, rfl⟩
  | plain a rest h =>
    cases rest with
    | nil => exact ⟨_, by rw [parse, plain a h]⟩
    | cons b as => exact ⟨_, by rw [parse, plain a h]⟩

theorem program_line (l : List (Setting × Form)) (hl : ∀ x ∈ l, x.1.Fits) (tail : List (List Char)) (ht : Ends tail) (fuel : Nat)
    (wd : Option (List Char)) (writes : Bool) :
    program fuel (line l ++ tail) wd writes = GenLookup.main fuel (toFlags (params l)) wd writes >>= fun r => match r with
      | none => .ok (.exits 1)
      | some (path, text) => .ok (.wrote path text) := by
  obtain ⟨left, e⟩ := parse_ends tail ht (toFlags (params l))
  rw [program, parse_line l hl, e]
  dsimp only
  congr 1

theorem params_fit (l : List (Setting × Form)) (hl : ∀ x ∈ l, x.1.Fits) : (params l).epochs < 2 ^ 63 ∧ (params l).mixBytes < 2 ^ 64 ∧
    (params l).cacheInit < 2 ^ 64 ∧ (params l).cacheGrowth < 2 ^ 64 ∧ (params l).datasetInit < 2 ^ 64 ∧ (params l).datasetGrowth < 2 ^ 64 := by
  have key : ∀ l : List (Setting × Form), (∀ x ∈ l, x.1.Fits) → ∀ p : Params,
      (p.epochs < 2 ^ 63 ∧ p.mixBytes < 2 ^ 64 ∧ p.cacheInit < 2 ^ 64 ∧ p.cacheGrowth < 2 ^ 64 ∧ p.datasetInit < 2 ^ 64 ∧ p.datasetGrowth < 2 ^ 64) →
      ∀ q, q = (l.map Prod.fst).foldl Params.apply p →
      (q.epochs < 2 ^ 63 ∧ q.mixBytes < 2 ^ 64 ∧ q.cacheInit < 2 ^ 64 ∧ q.cacheGrowth < 2 ^ 64 ∧ q.datasetInit < 2 ^ 64 ∧ q.datasetGrowth < 2 ^ 64) := by
    intro l
    induction l with
    | nil => intro _ p hp q hq; rw [hq]; exact hp
    | cons x l ih =>
      intro hl p hp q hq
      refine ih (fun y hy => hl y (by simp [hy])) (p.apply x.1) ?_ q hq
      have hx := hl x (by simp)
      obtain ⟨h1, h2, h3, h4, h5, h6⟩ := hp
      obtain ⟨s, f⟩ := x
      cases s with
      | package v => exact ⟨h1, h2, h3, h4, h5, h6⟩
      | epochs n => exact ⟨hx.2, h2, h3, h4, h5, h6⟩
      | mixBytes n => exact ⟨h1, hx, h3, h4, h5, h6⟩
      | cacheInit n => exact ⟨h1, h2, hx, h4, h5, h6⟩
      | cacheGrowth n => exact ⟨h1, h2, h3, hx, h5, h6⟩
      | datasetInit n => exact ⟨h1, h2, h3, h4, hx, h6⟩
      | datasetGrowth n => exact ⟨h1, h2, h3, h4, h5, hx⟩
  exact key l hl defaults (by decide) _ rfl

/-- the cache sizes that the generator computes -/
theorem cacheTable_any (fuel : Nat) (hf : 2 ^ 63 < fuel) (init growth : U64) (n : Nat) (hn : n < 2 ^ 64) : ∃ c : List U64,
    genCacheLookupTable fuel init growth n = .ok c ∧ c.length = n ∧
    ∀ i (h : i < c.length), IsFirst 64 (init.toNat + growth.toNat * i) c[i].toNat := by
  obtain ⟨d, hd⟩ : ∃ d : Config, d = { cacheInitBytes := init, cacheGrowthBytes := growth } := ⟨_, rfl⟩
  have hsz : ∀ e : U64, ∃ s, cacheSize fuel d e = .ok s ∧ IsFirst 64 (init.toNat + growth.toNat * e.toNat) s.toNat := by
    intro e
    cases hc : cacheSize fuel d e with
    | error x =>
      obtain ⟨-, t, ht, -⟩ := (C95_cacheSize_panics d e x fuel hf).mp hc
      rw [hd] at ht
      cases ht
    | ok s =>
      have h := (C95_cacheSize d e s fuel hf).mp hc
      rw [hd] at h
      exact ⟨s, rfl, h⟩
  choose v hv hv2 using hsz
  refine ⟨(List.range n).map fun i => v (BitVec.ofNat 64 i), ?_, by simp, ?_⟩
  · simp only [genCacheLookupTable]
    rw [← hd]
    exact GenLookup.table_loop (fun i => cacheSize fuel d (BitVec.ofNat 64 i)) _ (fun _ _ => rfl) n _ (fun i _ => hv _)
  · intro i h
    have hi : i < n := by simpa using h
    have hi' : (BitVec.ofNat 64 i).toNat = i := by rw [BitVec.toNat_ofNat, Nat.mod_eq_of_lt (by omega)]
    have := hv2 (BitVec.ofNat 64 i)
    rw [hi'] at this
    simpa using this

/-- the dataset sizes that it computes, if it does -/
theorem datasetTable_any (fuel : Nat) (hf : 2 ^ 63 < fuel) (mix init growth : U64) (n : Nat) (hn : n < 2 ^ 64)
    (h : n = 0 ∨ (mix ≠ 0 ∧ mix.toNat < 2 ^ 63)) : ∃ c : List U64,
    genDatasetLookupTable fuel mix init growth n = .ok c ∧ c.length = n ∧
    ∀ i (h : i < c.length), IsFirst mix.toNat (init.toNat + growth.toNat * i) c[i].toNat := by
  by_cases h0 : n = 0
  · subst h0
    exact ⟨[], rfl, rfl, by simp⟩
  obtain ⟨hm, hm'⟩ := h.resolve_left h0
  obtain ⟨d, hd⟩ : ∃ d : Config, d = { mixBytes := mix, datasetInitBytes := init, datasetGrowthBytes := growth } := ⟨_, rfl⟩
  have hsz : ∀ e : U64, ∃ s, datasetSize fuel d e = .ok s ∧ IsFirst mix.toNat (init.toNat + growth.toNat * e.toNat) s.toNat := by
    intro e
    obtain ⟨s, hs⟩ := C95_datasetSize_returns d e (by intro t ht; rw [hd] at ht; cases ht) (by rw [hd]; exact hm) (by rw [hd]; exact hm') fuel hf
    have h := (C95_datasetSize d e s fuel hf).mp hs
    rw [hd] at h
    exact ⟨s, hs, h⟩
  choose v hv hv2 using hsz
  refine ⟨(List.range n).map fun i => v (BitVec.ofNat 64 i), ?_, by simp, ?_⟩
  · simp only [genDatasetLookupTable]
    rw [← hd]
    exact GenLookup.table_loop (fun i => datasetSize fuel d (BitVec.ofNat 64 i)) _ (fun _ _ => rfl) n _ (fun i _ => hv _)
  · intro i h
    have hi : i < n := by simpa using h
    have hi' : (BitVec.ofNat 64 i).toNat = i := by rw [BitVec.toNat_ofNat, Nat.mod_eq_of_lt (by omega)]
    have := hv2 (BitVec.ofNat 64 i)
    rw [hi'] at this
    simpa using this

theorem datasetTable_fails (fuel : Nat) (mix init growth : U64) (n : Nat) (hn : 0 < n) (x : Stop)
    (h : ∀ e : U64, datasetSize fuel { mixBytes := mix, datasetInitBytes := init, datasetGrowthBytes := growth } e = .error x) :
    genDatasetLookupTable fuel mix init growth n = .error x := by
  simp only [genDatasetLookupTable]
  refine forRange_err_at (fun i _ => i = 0) n 0 hn _ x rfl (fun i _ hi _ => by omega) fun _ _ => ?_
  rw [datasetEntry, h]
  rfl

/-! ## What the program does -/

variable (fuel : Nat) (hf : 2 ^ 63 < fuel) (l : List (Setting × Form)) (hl : ∀ x ∈ l, x.1.Fits) (tail : List (List Char)) (ht : Ends tail)

include hf hl ht in
/-- **C98** For every command line of settings, in any order and notation, of which the last of each kind counts: with a package name the
file is written whose tables are the sizes of all full rows of five epochs, unless there is an epoch and MixBytes is 0 or at least 2^63. -/
theorem C98_writes (p : Params) (hp : p = params l) (hn : p.package ≠ []) (hnl : '\n' ∉ p.package) (he : 0 ≤ p.epochs)
    (hm : p.epochs = 0 ∨ (0 < p.mixBytes ∧ p.mixBytes < 2 ^ 63)) (dir : List Char) :
    ∃ text c d, program fuel (line l ++ tail) (some dir) true = .ok (.wrote (dir ++ "/".toList ++ p.package ++ "_lookup.go".toList) text) ∧
      readFile text = some (p.package, c, d) ∧ (c.length : Int) = p.epochs / 5 * 5 ∧ (d.length : Int) = p.epochs / 5 * 5 ∧
      (∀ i s, c[i]? = some s → IsFirst 64 (p.cacheInit + p.cacheGrowth * i) s) ∧
      (∀ i s, d[i]? = some s → IsFirst p.mixBytes (p.datasetInit + p.datasetGrowth * i) s) := by
  obtain ⟨g1, g2, g3, g4, g5, g6⟩ := params_fit l hl
  rw [← hp] at g1 g2 g3 g4 g5 g6
  have n64 : ∀ n, n < 2 ^ 64 → (BitVec.ofNat 64 n).toNat = n := fun n h => by rw [BitVec.toNat_ofNat, Nat.mod_eq_of_lt h]
  obtain ⟨c, c1, c2, c3⟩ := cacheTable_any fuel hf (BitVec.ofNat 64 p.cacheInit) (BitVec.ofNat 64 p.cacheGrowth) p.epochs.toNat (by omega)
  obtain ⟨d, d1, d2, d3⟩ := datasetTable_any fuel hf (BitVec.ofNat 64 p.mixBytes) (BitVec.ofNat 64 p.datasetInit) (BitVec.ofNat 64 p.datasetGrowth)
    p.epochs.toNat (by omega) (by
      rcases hm with h | ⟨h1, h2⟩
      · exact .inl (by rw [h]; rfl)
      · refine .inr ⟨fun h => ?_, by rw [n64 _ g2]; exact h2⟩
        have := congrArg BitVec.toNat h
        rw [n64 _ g2] at this
        rw [this] at h1
        exact absurd h1 (by decide))
  rw [n64 _ g3, n64 _ g4] at c3
  rw [n64 _ g2, n64 _ g5, n64 _ g6] at d3
  obtain ⟨text, t1, t2⟩ := C73_file fuel (toFlags p) hn hnl he c d c1 d1 dir
  refine ⟨text, _, _, ?_, t2, ?_, ?_, ?_, ?_⟩
  · rw [program_line l hl tail ht, ← hp, t1]
    rfl
  · simp only [List.length_map, List.length_take]; omega
  · simp only [List.length_map, List.length_take]; omega
  · intro i s hs
    rw [List.getElem?_map, Option.map_eq_some_iff] at hs
    obtain ⟨y, hy, rfl⟩ := hs
    have hy' := (List.getElem?_eq_some_iff.mp hy).choose
    have hy'' : _ = some y := hy
    rw [List.getElem?_take, if_pos (by simp only [List.length_take] at hy'; omega)] at hy''
    obtain ⟨hi, rfl⟩ := List.getElem?_eq_some_iff.mp hy''
    exact c3 i hi
  · intro i s hs
    rw [List.getElem?_map, Option.map_eq_some_iff] at hs
    obtain ⟨y, hy, rfl⟩ := hs
    have hy' := (List.getElem?_eq_some_iff.mp hy).choose
    have hy'' : _ = some y := hy
    rw [List.getElem?_take, if_pos (by simp only [List.length_take] at hy'; omega)] at hy''
    obtain ⟨hi, rfl⟩ := List.getElem?_eq_some_iff.mp hy''
    exact d3 i hi

include hl ht in
/-- **C98** Without a package name it exits with code 1, … -/
theorem C98_no_package (hn : (params l).package = []) (wd : Option (List Char)) (writes : Bool) :
    program fuel (line l ++ tail) wd writes = .ok (.exits 1) := by
  rw [program_line l hl tail ht, (C73_nothing fuel (toFlags (params l)) wd writes).1 hn]
  rfl

include hl ht in
/-- **C98** … with a negative number of epochs it panics, … -/
theorem C98_negative (hn : (params l).package ≠ []) (he : (params l).epochs < 0) (wd : Option (List Char)) (writes : Bool) :
    program fuel (line l ++ tail) wd writes = .error (.panic .explicit) := by
  rw [program_line l hl tail ht, (C73_nothing fuel (toFlags (params l)) wd writes).2.1 hn he]
  rfl

theorem main_dataset_fails (f : Flags) (hn : f.package ≠ []) (he : 0 ≤ f.epochs) (c : List U64)
    (hc : genCacheLookupTable fuel f.cacheInitBytes f.cacheGrowthBytes f.epochs.toNat = .ok c) (x : Stop)
    (hd : genDatasetLookupTable fuel f.mixBytes f.datasetInitBytes f.datasetGrowthBytes f.epochs.toNat = .error x) (wd : Option (List Char)) (writes : Bool) :
    GenLookup.main fuel f wd writes = .error x := by
  have h0 : ¬ f.package.length = 0 := fun h => hn (List.length_eq_zero_iff.mp h)
  rw [GenLookup.main, if_neg h0, ]
  show (if f.epochs < 0 then _ else _) = _
  rw [if_neg (by omega)]
  simp only [output]
  rw [hc, ok_bind, hd]
  rfl

include hf hl ht in
/-- **C98** … with a MixBytes of 0 (and an epoch) it divides by zero, … -/
theorem C98_mix_zero (hn : (params l).package ≠ []) (he : 0 < (params l).epochs) (hm : (params l).mixBytes = 0) (wd : Option (List Char)) (writes : Bool) :
    program fuel (line l ++ tail) wd writes = .error (.panic .divZero) := by
  obtain ⟨g1, -⟩ := params_fit l hl
  obtain ⟨c, c1, -⟩ := cacheTable_any fuel hf (toFlags (params l)).cacheInitBytes (toFlags (params l)).cacheGrowthBytes (params l).epochs.toNat (by omega)
  rw [program_line l hl tail ht, main_dataset_fails fuel (toFlags (params l)) hn (Int.le_of_lt he) c c1 (.panic .divZero)]
  · rfl
  · refine datasetTable_fails fuel _ _ _ _ (show 0 < (params l).epochs.toNat by omega) _ fun e => ?_
    exact C95_datasetSize_zero _ e (fun t ht => by cases ht) (show BitVec.ofNat 64 (params l).mixBytes = 0 by rw [hm]; rfl) fuel (by omega)

include hf hl ht in
/-- **C98** … and with a MixBytes of at least 2^63 (and an epoch) it never ends. -/
theorem C98_mix_huge (hn : (params l).package ≠ []) (he : 0 < (params l).epochs) (hm : 2 ^ 63 ≤ (params l).mixBytes) (wd : Option (List Char)) (writes : Bool) :
    program fuel (line l ++ tail) wd writes = .error .fuel := by
  obtain ⟨g1, g2, -⟩ := params_fit l hl
  obtain ⟨c, c1, -⟩ := cacheTable_any fuel hf (toFlags (params l)).cacheInitBytes (toFlags (params l)).cacheGrowthBytes (params l).epochs.toNat (by omega)
  rw [program_line l hl tail ht, main_dataset_fails fuel (toFlags (params l)) hn (Int.le_of_lt he) c c1 .fuel]
  · rfl
  · refine datasetTable_fails fuel _ _ _ _ (show 0 < (params l).epochs.toNat by omega) _ fun e => ?_
    refine C95_datasetSize_hangs _ e (fun t ht => by cases ht) ?_ fuel
    show 2 ^ 63 ≤ (BitVec.ofNat 64 (params l).mixBytes).toNat
    rw [BitVec.toNat_ofNat, Nat.mod_eq_of_lt g2]
    exact hm

/-! ## What it does not accept -/

theorem program_exit (args : List (List Char)) (wd : Option (List Char)) (writes : Bool) (code : Nat) (h : parse formal args {} = .exit code) :
    program fuel args wd writes = .ok (.exits code) := by
  rw [program, h]

include hl in
/-- **C98** A number that the type of its flag cannot hold ends the program with code 2, whatever follows. -/
theorem C98_unfit (s : Setting) (hs : ¬ s.Fits) (form : Form) (rest : List (List Char)) (wd : Option (List Char)) (writes : Bool) :
    program fuel (line l ++ (s.written form ++ rest)) wd writes = .ok (.exits 2) := by
  obtain ⟨set, h1, h2⟩ := unset_setting s hs (toFlags (params l))
  refine program_exit fuel _ wd writes 2 ?_
  rw [parse_line l hl, parse_written s form rest _ set h1, h2]
  rfl

include hl in
/-- **C98** So does a flag at the end of the command line that has no value, … -/
theorem C98_missing (s : Setting) (two : Bool) (wd : Option (List Char)) (writes : Bool) :
    program fuel (line l ++ [(if two then "--".toList else "-".toList) ++ s.name]) wd writes = .ok (.exits 2) := by
  obtain ⟨c, t, e, h1, h2⟩ := name_ok s
  obtain ⟨set, h3⟩ : ∃ set, formal s.name = some set := by cases s <;> exact ⟨_, rfl⟩
  refine program_exit fuel _ wd writes 2 ?_
  rw [parse_line l hl, e]
  show parse formal [dashed two (c :: t)] _ = _
  rw [parse, classify_name two c t h1 h2]
  dsimp only
  rw [← e, h3]

include hl in
/-- **C98** … and a flag that does not exist, whatever follows, except that `help` and `h` exit with 0. -/
theorem C98_undefined (two : Bool) (name : List Char) (h0 : name ≠ []) (h1 : name.head? ≠ some '-') (h2 : '=' ∉ name)
    (h3 : ∀ s : Setting, s.name ≠ name) (rest : List (List Char)) (wd : Option (List Char)) (writes : Bool) :
    program fuel (line l ++ ((if two then "--".toList else "-".toList) ++ name) :: rest) wd writes =
      .ok (.exits (if name = "help".toList ∨ name = "h".toList then 0 else 2)) := by
  obtain ⟨c, t, rfl⟩ : ∃ c t, name = c :: t := by
    cases name with
    | nil => exact absurd rfl h0
    | cons c t => exact ⟨c, t, rfl⟩
  have hf : formal (c :: t) = none := by
    have n_package : c :: t ≠ "package".toList := Ne.symm (h3 (.package []))
    have n_epochs : c :: t ≠ "epochs".toList := Ne.symm (h3 (.epochs 0))
    have n_mixBytes : c :: t ≠ "mixBytes".toList := Ne.symm (h3 (.mixBytes 0))
    have n_cacheInit : c :: t ≠ "cacheInit".toList := Ne.symm (h3 (.cacheInit 0))
    have n_cacheGrowth : c :: t ≠ "cacheGrowth".toList := Ne.symm (h3 (.cacheGrowth 0))
    have n_datasetInit : c :: t ≠ "datasetInit".toList := Ne.symm (h3 (.datasetInit 0))
    have n_datasetGrowth : c :: t ≠ "datasetGrowth".toList := Ne.symm (h3 (.datasetGrowth 0))
    rw [formal, if_neg n_package, if_neg n_epochs, if_neg n_mixBytes, if_neg n_cacheInit, if_neg n_cacheGrowth, if_neg n_datasetInit, if_neg n_datasetGrowth]
  have hc : c ≠ '-' := fun h => h1 (by rw [h]; rfl)
  refine program_exit fuel _ wd writes _ ?_
  rw [parse_line l hl]
  show parse formal (dashed two (c :: t) :: rest) _ = _
  have key : parse formal (dashed two (c :: t) :: rest) (toFlags (params l)) = undefined (c :: t) := by
    cases rest with
    | nil =>
      rw [parse, classify_name two c t hc h2]
      dsimp only
      rw [hf]
    | cons b as =>
      rw [parse, classify_name two c t hc h2]
      dsimp only
      rw [hf]
  rw [key, undefined]
  by_cases h : c :: t = "help".toList ∨ c :: t = "h".toList
  · rw [if_pos h, if_pos h]
  · rw [if_neg h, if_neg h]

include hl in
/-- **C98** Numbers with a leading zero are octal: `-mixBytes 0200` is `-mixBytes 128`, … -/
theorem C98_octal (ds : List Nat) (hd : ∀ d ∈ ds, d < 8) (h64 : value 8 ds < 2 ^ 64) (rest : List (List Char)) (wd : Option (List Char)) (writes : Bool) :
    program fuel (line l ++ ["-mixBytes".toList, '0' :: ds.map Nat.digitChar] ++ rest) wd writes =
      program fuel (line l ++ ["-mixBytes".toList, decimal (value 8 ds)] ++ rest) wd writes := by
  have e1 : parseUint ('0' :: ds.map Nat.digitChar) = some (value 8 ds) := by
    rw [parseUint_of _ 8 ds (by simp) (split_zero ds fun d hd' => Nat.lt_trans (hd d hd') (by omega)) (by omega) (by omega) hd, if_pos h64]
  have e2 : parseUint (decimal (value 8 ds)) = some (value 8 ds) := by rw [parseUint_decimal, if_pos h64]
  have key : ∀ v : List Char, parse formal (line l ++ ["-mixBytes".toList, v] ++ rest) {} =
      andThen ((parseUint v).map fun n => { toFlags (params l) with mixBytes := BitVec.ofNat 64 n }) (parse formal rest) := by
    intro v
    rw [List.append_assoc, parse_line l hl]
    exact parse_next formal "-mixBytes".toList v rest (toFlags (params l)) "mixBytes".toList _ rfl rfl
  simp only [program]
  rw [key, key, e1, e2]

include hl in
/-- **C98** … and with a digit 8 or 9 they are rejected. -/
theorem C98_octal_rejects (ds : List Nat) (hd : ∀ d ∈ ds, d < 10) (h : ∃ d ∈ ds, 8 ≤ d) (rest : List (List Char)) (wd : Option (List Char)) (writes : Bool) :
    program fuel (line l ++ ["-mixBytes".toList, '0' :: ds.map Nat.digitChar] ++ rest) wd writes = .ok (.exits 2) := by
  have e1 : parseUint ('0' :: ds.map Nat.digitChar) = none := by
    rw [parseUint, if_neg (by simp), split_zero ds hd]
    dsimp only
    rw [digits_big 8 ds hd h]
  refine program_exit fuel _ wd writes 2 ?_
  rw [List.append_assoc, parse_line l hl]
  refine (parse_next formal "-mixBytes".toList _ rest (toFlags (params l)) "mixBytes".toList _ rfl rfl).trans ?_
  simp only [setUint64]
  rw [e1]
  rfl

/-! ## The lines of the repository -/

/-- the `go:generate` lines (line 1 of /repo/ethash/client.go, kawpow/client.go, firopow/client.go and octopus/client.go), the package and the
tables that it contains -/
def generateText : List (List Char × List Char × List Nat × List Nat) :=
  [("//go:generate ../.bin/gen-lookup -package ethash -mixBytes 128 -cacheInit 16777216 -cacheGrowth 131072 -datasetInit 1073741824 -datasetGrowth 8388608".toList,
      "ethash".toList, Tables.ethashCacheSizes, Tables.ethashDatasetSizes),
    ("//go:generate ../.bin/gen-lookup -package kawpow -mixBytes 128 -cacheInit 16777216 -cacheGrowth 131072 -datasetInit 1073741824 -datasetGrowth 8388608".toList,
      "kawpow".toList, Tables.ethashCacheSizes, Tables.ethashDatasetSizes),
    ("//go:generate ../.bin/gen-lookup -package firopow -mixBytes 128 -cacheInit 16777216 -cacheGrowth 131072 -datasetInit 1610612736 -datasetGrowth 8388608".toList,
      "firopow".toList, Tables.ethashCacheSizes, Tables.firopowDatasetSizes),
    ("//go:generate ../.bin/gen-lookup -package octopus -mixBytes 256 -cacheInit 16777216 -cacheGrowth 65536 -datasetInit 4294967296 -datasetGrowth 16777216".toList,
      "octopus".toList, Tables.octopusCacheSizes, Tables.octopusDatasetSizes)]

set_option maxRecDepth 20000 in
include hf in
/-- **C98** The words of the `go:generate` lines behind the name of the program, as its command line, make it write the tables of the repository. -/
theorem C98_generate (text name : List Char) (tc td : List Nat) (h : (text, name, tc, td) ∈ generateText) (dir : List Char) :
    ∃ file, program fuel ((words text).drop 2) (some dir) true = .ok (.wrote (dir ++ "/".toList ++ name ++ "_lookup.go".toList) file) ∧
      readFile file = some (name, tc, td) := by
  have key : ∀ (f : Flags) (left : List (List Char)), parse formal ((words text).drop 2) {} = .ok f left → (f, tc, td) ∈ generateLines → f.package = name →
      ∃ file, program fuel ((words text).drop 2) (some dir) true = .ok (.wrote (dir ++ "/".toList ++ name ++ "_lookup.go".toList) file) ∧
        readFile file = some (name, tc, td) := by
    intro f left hp hm hn
    obtain ⟨file, h1, h2⟩ := C73_shipped f tc td hm fuel hf dir
    refine ⟨file, ?_, hn ▸ h2⟩
    rw [program, hp]
    dsimp only
    rw [h1, ← hn]
    rfl
  simp only [generateText, List.mem_cons, List.not_mem_nil, or_false, Prod.mk.injEq] at h
  rcases h with ⟨e1, e2, e3, e4⟩ | ⟨e1, e2, e3, e4⟩ | ⟨e1, e2, e3, e4⟩ | ⟨e1, e2, e3, e4⟩
  · exact key ethashFlags [] (by rw [e1]; rfl) (by rw [e3, e4]; simp [generateLines]) (by rw [e2]; rfl)
  · exact key kawpowFlags [] (by rw [e1]; rfl) (by rw [e3, e4]; simp [generateLines]) (by rw [e2]; rfl)
  · exact key firopowFlags [] (by rw [e1]; rfl) (by rw [e3, e4]; simp [generateLines]) (by rw [e2]; rfl)
  · exact key octopusFlags [] (by rw [e1]; rfl) (by rw [e3, e4]; simp [generateLines]) (by rw [e2]; rfl)

/-! ## Cases -/

/-- `-package p --epochs=7 -mixBytes=256 --mixBytes 128 -cacheInit 1024` -/
def someLine : List (Setting × Form) :=
  [(.package "p".toList, ⟨false, false⟩), (.epochs 7, ⟨true, true⟩), (.mixBytes 256, ⟨false, true⟩), (.mixBytes 128, ⟨true, false⟩),
    (.cacheInit 1024, ⟨false, false⟩)]

theorem someLine_fits : ∀ x ∈ someLine, x.1.Fits := by
  intro x hx
  simp only [someLine, List.mem_cons, List.not_mem_nil, or_false] at hx
  rcases hx with rfl | rfl | rfl | rfl | rfl
  · trivial
  · exact ⟨by decide, by decide⟩
  · exact (by decide : (256 : Nat) < 2 ^ 64)
  · exact (by decide : (128 : Nat) < 2 ^ 64)
  · exact (by decide : (1024 : Nat) < 2 ^ 64)

example : line someLine = ["-package".toList, "p".toList, "--epochs=7".toList, "-mixBytes=256".toList, "--mixBytes".toList, "128".toList,
    "-cacheInit".toList, "1024".toList] := by decide

example : (params someLine).mixBytes = 128 ∧ (params someLine).epochs = 7 ∧ (params someLine).datasetInit = 0 := by decide

-- `C98_writes`: five of the seven epochs are written
example (hf : 2 ^ 63 < fuel) (dir : List Char) : ∃ text c d,
    program fuel (line someLine ++ ["more".toList, "-epochs".toList]) (some dir) true = .ok (.wrote (dir ++ "/p_lookup.go".toList) text) ∧
    readFile text = some ("p".toList, c, d) ∧ c.length = 5 ∧ (∀ s, c[3]? = some s → IsFirst 64 1024 s) := by
  obtain ⟨text, c, d, h1, h2, h3, -, h4, -⟩ := C98_writes fuel hf someLine someLine_fits ["more".toList, "-epochs".toList] (.plain _ _ (.inr (by decide)))
    (params someLine) rfl (by decide) (by decide) (by decide) (.inr (by decide)) dir
  refine ⟨text, c, d, ?_, h2, ?_, fun s hs => h4 3 s hs⟩
  · rw [h1, List.append_assoc, List.append_assoc]
    rfl
  · have : (params someLine).epochs / 5 * 5 = 5 := by decide
    rw [this] at h3
    omega

-- `C98_no_package`, `C98_negative`, `C98_mix_zero` and `C98_mix_huge`
example (dir : List Char) : program fuel ["-epochs".toList, "7".toList] (some dir) true = .ok (.exits 1) :=
  C98_no_package fuel [(.epochs 7, ⟨false, false⟩)] (by intro x hx; rw [List.mem_singleton.mp hx]; exact ⟨by decide, by decide⟩) [] .nothing rfl _ _

example (dir : List Char) : program fuel ["-package".toList, "p".toList, "-epochs".toList, "-7".toList] (some dir) true = .error (.panic .explicit) := by
  have e : ["-package".toList, "p".toList, "-epochs".toList, "-7".toList] =
      line [(.package "p".toList, ⟨false, false⟩), (.epochs (-7), ⟨false, false⟩)] ++ [] := by decide
  rw [e]
  exact C98_negative fuel [(.package "p".toList, ⟨false, false⟩), (.epochs (-7), ⟨false, false⟩)]
    (by
      intro x hx
      simp only [List.mem_cons, List.not_mem_nil, or_false] at hx
      rcases hx with rfl | rfl
      · trivial
      · exact ⟨by decide, by decide⟩) [] .nothing (by decide) (by decide) _ _

example (hf : 2 ^ 63 < fuel) (dir : List Char) : program fuel ["-package=p".toList, "-mixBytes=0".toList] (some dir) true = .error (.panic .divZero) :=
  C98_mix_zero fuel hf [(.package "p".toList, ⟨false, true⟩), (.mixBytes 0, ⟨false, true⟩)]
    (by
      intro x hx
      simp only [List.mem_cons, List.not_mem_nil, or_false] at hx
      rcases hx with rfl | rfl
      · trivial
      · exact (by decide : (0 : Nat) < 2 ^ 64)) [] .nothing (by decide) (by decide) rfl _ _

example (hf : 2 ^ 63 < fuel) (dir : List Char) :
    program fuel ["-package=p".toList, "-mixBytes=9223372036854775808".toList] (some dir) true = .error .fuel := by
  have e : ["-package=p".toList, "-mixBytes=9223372036854775808".toList] =
      line [(.package "p".toList, ⟨false, true⟩), (.mixBytes (2 ^ 63), ⟨false, true⟩)] ++ [] := by decide
  rw [e]
  exact C98_mix_huge fuel hf [(.package "p".toList, ⟨false, true⟩), (.mixBytes (2 ^ 63), ⟨false, true⟩)]
    (by
      intro x hx
      simp only [List.mem_cons, List.not_mem_nil, or_false] at hx
      rcases hx with rfl | rfl
      · trivial
      · exact (by decide : (2 ^ 63 : Nat) < 2 ^ 64)) [] .nothing (by decide) (by decide) (by decide) _ _

-- `C98_unfit`, `C98_missing` and `C98_undefined`
example : program fuel ["-mixBytes".toList, "18446744073709551616".toList, "-package".toList, "p".toList] none false = .ok (.exits 2) :=
  C98_unfit fuel [] (by simp) (.mixBytes (2 ^ 64)) (fun h => absurd (show 2 ^ 64 < 2 ^ 64 from h) (by decide)) ⟨false, false⟩ ["-package".toList, "p".toList] none false

example : program fuel ["--package".toList] none false = .ok (.exits 2) := C98_missing fuel [] (by simp) (.package []) true none false

theorem not_epoch : ∀ s : Setting, s.name ≠ "epoch".toList
  | .package _ => (by decide : "package".toList ≠ "epoch".toList)
  | .epochs _ => (by decide : "epochs".toList ≠ "epoch".toList)
  | .mixBytes _ => (by decide : "mixBytes".toList ≠ "epoch".toList)
  | .cacheInit _ => (by decide : "cacheInit".toList ≠ "epoch".toList)
  | .cacheGrowth _ => (by decide : "cacheGrowth".toList ≠ "epoch".toList)
  | .datasetInit _ => (by decide : "datasetInit".toList ≠ "epoch".toList)
  | .datasetGrowth _ => (by decide : "datasetGrowth".toList ≠ "epoch".toList)

theorem not_help : ∀ s : Setting, s.name ≠ "help".toList
  | .package _ => (by decide : "package".toList ≠ "help".toList)
  | .epochs _ => (by decide : "epochs".toList ≠ "help".toList)
  | .mixBytes _ => (by decide : "mixBytes".toList ≠ "help".toList)
  | .cacheInit _ => (by decide : "cacheInit".toList ≠ "help".toList)
  | .cacheGrowth _ => (by decide : "cacheGrowth".toList ≠ "help".toList)
  | .datasetInit _ => (by decide : "datasetInit".toList ≠ "help".toList)
  | .datasetGrowth _ => (by decide : "datasetGrowth".toList ≠ "help".toList)

example : program fuel (line someLine ++ ["-epoch".toList, "8".toList]) none false = .ok (.exits 2) := by
  have h := C98_undefined fuel someLine someLine_fits false "epoch".toList (by decide) (by decide) (by decide) not_epoch ["8".toList] none false
  rw [if_neg (by decide : ¬ ("epoch".toList = "help".toList ∨ "epoch".toList = "h".toList))] at h
  rw [show "-epoch".toList = (if false then "--".toList else "-".toList) ++ "epoch".toList from by decide]
  exact h

example : program fuel (line someLine ++ ["--help".toList]) none false = .ok (.exits 0) := by
  have h := C98_undefined fuel someLine someLine_fits true "help".toList (by decide) (by decide) (by decide) not_help [] none false
  rw [if_pos (by decide : "help".toList = "help".toList ∨ "help".toList = "h".toList)] at h
  rw [show "--help".toList = (if true then "--".toList else "-".toList) ++ "help".toList from by decide]
  exact h

-- `C98_octal` and `C98_octal_rejects`
example : program fuel (line someLine ++ ["-mixBytes".toList, "0200".toList] ++ []) none false =
    program fuel (line someLine ++ ["-mixBytes".toList, "128".toList] ++ []) none false :=
  C98_octal fuel someLine someLine_fits [2, 0, 0] (by decide) (by decide) [] none false

example : program fuel (line someLine ++ ["-mixBytes".toList, "0128".toList] ++ []) none false = .ok (.exits 2) :=
  C98_octal_rejects fuel someLine someLine_fits [1, 2, 8] (by decide) ⟨8, by decide, by decide⟩ [] none false

end Verif.Props
