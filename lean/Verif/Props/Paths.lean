import Verif.Proof.Paths
import Verif.Props.Disk

/-! # C82: the paths of the cache files -/

set_option autoImplicit false

namespace Verif.Props

open Dag Dag.Paths Spec.Paths

attribute [local irreducible] Tables.ethashCacheSizes Tables.ethashDatasetSizes Tables.firopowDatasetSizes Tables.octopusCacheSizes Tables.octopusDatasetSizes

/-- cleaning keeps the place -/
theorem C82_clean (p : List Char) : place (clean p) = place p := place_clean p

/-- two paths of the same place are cleaned to the same text, others to different ones -/
theorem C82_unique (p q : List Char) : clean p = clean q ↔ place p = place q := clean_inj p q

/-- `./a//b/../c/` and `a/c` name the same place, two levels down -/
example : clean "./a//b/../c/".toList = "a/c".toList ∧ place "a/c".toList = ⟨false, 0, ["a".toList, "c".toList]⟩ := by decide +kernel

/-- a file of a directory is one level below it -/
theorem C82_join (d w : List Char) (hd : d ≠ []) (hw : FileName w) :
    place (join [d, w]) = { place d with down := (place d).down ++ [w] } := by
  rw [join_two d w hd, place_clean, place_child d w hd hw]

/-- two files have the same path exactly if their directories are the same place and their names are equal -/
theorem C82_same_path (d d' w w' : List Char) (hd : d ≠ []) (hd' : d' ≠ []) (hw : FileName w) (hw' : FileName w') :
    join [d, w] = join [d', w'] ↔ place d = place d' ∧ w = w' := by
  rw [join_two d w hd, join_two d' w' hd', clean_inj, place_child d w hd hw, place_child d' w' hd' hw']
  constructor
  · intro h
    obtain ⟨h1, h2, h3⟩ := Place.mk.inj h
    obtain ⟨h4, h5⟩ := List.append_inj' h3 rfl
    refine ⟨?_, by simpa using h5⟩
    generalize place d = p at *
    generalize place d' = q at *
    cases p
    cases q
    simp_all
  · rintro ⟨h, rfl⟩
    rw [h]

/-- the directory made before writing is the one of the file, and a temporary file is beside the file -/
theorem C82_directory (d w : List Char) (hd : d ≠ []) (hw : FileName w) (n : Nat) :
    dirOf (join [d, w]) = clean d ∧
    place (Paths.tempPath (join [d, w]) n) = { place d with down := (place d).down ++ [Paths.tempPath w n] } := by
  have hv := valid_place d
  have hj : join [d, w] = front (place d) ++ w := by
    rw [join_two d w hd, clean_eq, place_child d w hd hw]
    exact render_child hv hw.1
  rw [hj]
  refine ⟨by rw [dirOf_child hv hw.2.1, clean_eq], ?_⟩
  have ht := fileName_temp hw n
  rw [show Paths.tempPath (front (place d) ++ w) n = front (place d) ++ Paths.tempPath w n from by simp [Paths.tempPath],
    ← render_child hv ht.1, ← place_child d _ hd ht]
  have := place_clean (d ++ '/' :: Paths.tempPath w n)
  rw [clean_eq, place_child d _ hd ht] at this
  rw [place_child d _ hd ht]
  exact this

/-- a file in `/var//cache/` and its directory -/
example : join ["/var//cache/".toList, "l1-x".toList] = "/var/cache/l1-x".toList ∧
    dirOf "/var/cache/l1-x".toList = "/var/cache".toList ∧ FileName "l1-x".toList := by
  refine ⟨by decide +kernel, by decide +kernel, ?_⟩
  unfold FileName
  decide +kernel

/-! ## The files of a configuration -/

theorem fileName_of {k : List Char} (a b c : List Char) (hk : 3 ≤ k.length) (h0 : '/' ∉ k) (h1 : '/' ∉ a) (h2 : '/' ∉ b) (h3 : '/' ∉ c) :
    FileName (k ++ a ++ b ++ c) := by
  refine ⟨?_, ?_, ?_, ?_⟩
  · intro h
    have := congrArg List.length h
    simp only [List.length_append, List.length_nil] at this
    omega
  · simp only [List.mem_append, not_or]
    exact ⟨⟨⟨h0, h1⟩, h2⟩, h3⟩
  · intro h
    have := congrArg List.length h
    simp only [List.length_append, List.length_cons, List.length_nil] at this
    omega
  · intro h
    have := congrArg List.length h
    simp only [List.length_append, List.length_cons, List.length_nil] at this
    omega

theorem hex_slash (b : List Byte) : '/' ∉ (hexString b).toList := by
  rw [hex_eq]
  unfold Spec.hex
  intro h
  obtain ⟨x, _, hx⟩ := List.mem_flatMap.1 h
  have hd : ∀ n < 16, '/' ≠ ['0', '1', '2', '3', '4', '5', '6', '7', '8', '9', 'a', 'b', 'c', 'd', 'e', 'f'].getD n '0' := by decide
  have := x.isLt
  simp only [List.mem_cons, List.not_mem_nil, or_false] at hx
  rcases hx with hx | hx
  · exact hd _ (by omega) hx
  · exact hd _ (by omega) hx

/-- a name without slashes gives names of files -/
theorem C82_names (d : Config) (hn : '/' ∉ d.name.toList) (seed : List Byte) : FileName (cacheName d seed) ∧ FileName (l1Name d seed) := by
  have e1 : cacheName d seed = "cache-".toList ++ d.name.toList ++ ("-R" ++ toString d.revision ++ "-").toList ++ (hexString seed).toList := by
    unfold cacheName
    simp only [String.toList_append, List.append_assoc]
  have e2 : l1Name d seed = "l1-".toList ++ d.name.toList ++ ("-R" ++ toString d.revision ++ "-").toList ++ (hexString seed).toList := by
    unfold l1Name
    simp only [String.toList_append, List.append_assoc]
  have h2 : '/' ∉ ("-R" ++ toString d.revision ++ "-").toList := by
    simp only [String.toList_append, List.mem_append, not_or]
    exact ⟨⟨by decide +kernel, intDigits_slash _⟩, by decide +kernel⟩
  rw [e1, e2]
  exact ⟨fileName_of _ _ _ (by decide +kernel) (by decide +kernel) hn h2 (hex_slash _),
    fileName_of _ _ _ (by decide +kernel) (by decide +kernel) hn h2 (hex_slash _)⟩

/-- the names of a configuration's files, final and temporary -/
inductive Named (d : Config) : List Char → Prop
  | cache (seed : List Byte) : Named d (cacheName d seed)
  | l1 (seed : List Byte) : Named d (l1Name d seed)
  | temp (w : List Char) (n : Nat) : Named d w → Named d (Paths.tempPath w n)

theorem named_file {d : Config} (hn : '/' ∉ d.name.toList) {w : List Char} (h : Named d w) : FileName w := by
  induction h with
  | cache seed => exact (C82_names d hn seed).1
  | l1 seed => exact (C82_names d hn seed).2
  | temp w n _ ih => exact fileName_temp ih n

/-- the text which stands for a file in the model of the disk -/
theorem location_cache (d : Config) (seed : List Byte) : (cacheStorageLocation d seed).toList = d.storageDir.toList ++ '/' :: cacheName d seed := by
  unfold cacheStorageLocation cacheName
  simp only [String.toList_append, List.append_assoc]
  rfl

theorem location_l1 (d : Config) (seed : List Byte) : (l1StorageLocation d seed).toList = d.storageDir.toList ++ '/' :: l1Name d seed := by
  unfold l1StorageLocation l1Name
  simp only [String.toList_append, List.append_assoc]
  rfl

theorem location_temp (q : String) (n : Nat) : (Dag.tempPath q n).toList = Paths.tempPath q.toList n := by
  unfold Dag.tempPath Paths.tempPath
  simp only [String.toList_append, List.append_assoc]
  rfl

/-- Texts of the model of the disk (`Verif.Model.Disk`) for one directory name one file exactly if they are equal, whatever the
spelling of the directory. -/
theorem C82_faithful (d d' : Config) (hs : d.storageDir ≠ "") (hs' : d'.storageDir = d.storageDir) (hn : '/' ∉ d.name.toList)
    (hn' : '/' ∉ d'.name.toList) (w w' : List Char) (hw : Named d w) (hw' : Named d' w') :
    (place (d.storageDir.toList ++ '/' :: w) = place (d'.storageDir.toList ++ '/' :: w') ↔
      d.storageDir.toList ++ '/' :: w = d'.storageDir.toList ++ '/' :: w') ∧
    (join [d.storageDir.toList, w] = join [d'.storageDir.toList, w'] ↔ d.storageDir.toList ++ '/' :: w = d'.storageDir.toList ++ '/' :: w') := by
  have hd : d.storageDir.toList ≠ [] := fun h => hs (String.toList_inj.mp (by rw [h]; rfl))
  rw [hs']
  have hf := named_file hn hw
  have hf' := named_file hn' hw'
  have key := C82_same_path d.storageDir.toList d.storageDir.toList w w' hd hd hf hf'
  have e : (d.storageDir.toList ++ '/' :: w = d.storageDir.toList ++ '/' :: w') ↔ w = w' := by
    constructor
    · intro h
      simpa using h
    · rintro rfl
      rfl
  rw [e]
  refine ⟨?_, ?_⟩
  · rw [← clean_inj, ← join_two _ _ hd, ← join_two _ _ hd, key]
    simp
  · rw [key]
    simp

/-- If the directory is written in its shortest form, the texts of the model of the disk are the paths themselves. -/
theorem C82_exact (d : Config) (hn : '/' ∉ d.name.toList) (hc : clean d.storageDir.toList = d.storageDir.toList)
    (h1 : d.storageDir ≠ ".") (h2 : d.storageDir ≠ "/") (seed : List Byte) :
    cachePath d seed = (cacheStorageLocation d seed).toList ∧ l1Path d seed = (l1StorageLocation d seed).toList := by
  obtain ⟨D, hD⟩ : ∃ D, D = d.storageDir.toList := ⟨_, rfl⟩
  have hp : ∀ w, FileName w → join [D, w] = D ++ '/' :: w := by
    intro w hw
    have hne : D ≠ [] := by
      intro h
      rw [← hD, h] at hc
      exact absurd hc (by decide)
    have hv := valid_place D
    rw [join_two D w hne, clean_eq, place_child D w hne hw]
    have hr := render_child hv hw.1
    refine hr.trans ?_
    rw [← hD, clean_eq] at hc
    unfold front
    have h0 : (place D).words ≠ [] := by
      intro h0
      unfold render at hc
      rw [h0] at hc
      cases hro : (place D).rooted
      · rw [hro] at hc
        exact h1 (String.toList_inj.mp (by rw [← hD, ← hc]; rfl))
      · rw [hro] at hc
        exact h2 (String.toList_inj.mp (by rw [← hD, ← hc]; rfl))
    rw [if_neg h0, hc]
    simp
  rw [location_cache, location_l1, ← hD]
  unfold cachePath l1Path
  rw [← hD]
  exact ⟨hp _ (C82_names d hn seed).1, hp _ (C82_names d hn seed).2⟩

/-- the hypotheses hold for the usual directory of a Linux user -/
example : clean "/home/u/.powcache".toList = "/home/u/.powcache".toList ∧ "/home/u/.powcache" ≠ "." ∧ "/home/u/.powcache" ≠ "/" := by
  decide +kernel

/-! ## The default directory -/

/-- The default directory is one level below the home directory, or below the current one if no home is known, and written in its shortest
form. On Windows the argument is ignored. -/
theorem C82_default (home : List Char) (user : Option (List Char)) (name : List Char) (hn : FileName name) :
    place (defaultDir join false home user name) =
      { place (user.getD home) with down := (place (user.getD home)).down ++ [name] } ∧
    clean (defaultDir join false home user name) = defaultDir join false home user name ∧
    ∀ (joinOs : List (List Char) → List Char) (name' : List Char), defaultDir joinOs true home user name = defaultDir joinOs true home user name' := by
  have e : defaultDir join false home user name = clean (if user.getD home = [] then name else user.getD home ++ '/' :: name) := by
    have : ∀ h : List Char, join [h, name] = clean (if h = [] then name else h ++ '/' :: name) := by
      intro h
      by_cases h0 : h = []
      · subst h0
        rw [if_pos rfl]
        unfold join
        rw [if_pos rfl]
        unfold join
        rw [if_neg hn.1]
        rfl
      · rw [if_neg h0, join_two _ _ h0]
    cases user with
    | none => exact this home
    | some u => exact this u
  refine ⟨?_, ?_, fun _ _ => rfl⟩
  · rw [e, place_clean]
    by_cases h0 : user.getD home = []
    · rw [if_pos h0, h0]
      have := foldl_down [name] (by simpa using hn) ⟨false, 0, []⟩
      unfold place
      rw [elements_plain hn.2.1]
      have hh : (name.head? == some '/') = false := by
        cases name with
        | nil => rfl
        | cons c cs =>
          have : c ≠ '/' := fun h => hn.2.1 (by rw [h]; simp)
          simp [this]
      rw [hh]
      exact this
    · rw [if_neg h0]
      exact place_child _ _ h0 hn
  · rw [e]
    rw [clean_inj, place_clean]

/-- the file names of the five clients, in the default directory on systems with slashes, are the texts of the model of the disk -/
theorem C82_clients (home : List Char) (user : Option (List Char)) (d : Config) (c : Spec.Chain)
    (h : (d, c) ∈ clients (String.ofList (defaultDir join false home user ".powcache".toList))) (seed : List Byte) :
    cachePath d seed = (cacheStorageLocation d seed).toList ∧ l1Path d seed = (l1StorageLocation d seed).toList := by
  have hf : FileName ".powcache".toList := by unfold FileName; decide +kernel
  obtain ⟨h1, h2, _⟩ := C82_default home user _ hf
  obtain ⟨D, hD⟩ : ∃ D, D = defaultDir join false home user ".powcache".toList := ⟨_, rfl⟩
  rw [← hD] at h h1 h2
  have hdir : d.storageDir = String.ofList D := (clients_match _ d c h).2.2
  have hne : (place D).down ≠ [] := by rw [h1]; simp
  refine C82_exact d ?_ (by rw [hdir, String.toList_ofList, h2]) ?_ ?_ seed
  · simp only [clients, List.mem_cons, List.not_mem_nil, or_false, Prod.mk.injEq] at h
    rcases h with ⟨rfl, rfl⟩ | ⟨rfl, rfl⟩ | ⟨rfl, rfl⟩ | ⟨rfl, rfl⟩ | ⟨rfl, rfl⟩ <;> 
      simp only [ethereum, ethereumClassic, ravencoin, firo, conflux] <;> decide +kernel
  · intro hh
    rw [hdir] at hh
    have : D = ".".toList := by rw [← hh, String.toList_ofList]
    rw [this] at hne
    exact hne (by decide +kernel)
  · intro hh
    rw [hdir] at hh
    have : D = "/".toList := by rw [← hh, String.toList_ofList]
    rw [this] at hne
    exact hne (by decide +kernel)

/-- with and without a home -/
example : defaultDir join false "/root/".toList none ".powcache".toList = "/root/.powcache".toList ∧
    defaultDir join false "/root/".toList (some []) ".powcache".toList = ".powcache".toList := by decide +kernel

/-! ## Names with slashes -/

/-- A name `/../x` makes the cache and the L1 table of every seed the same file, one `/../../x` puts it beside the directory. -/
theorem C82_slash (d : Config) (hs : d.storageDir ≠ "") (x : List Char) (hx : '/' ∉ x) (seed : List Byte) :
    (d.name.toList = "/../".toList ++ x → cachePath d seed = l1Path d seed) ∧
    (d.name.toList = "/../../".toList ++ x → ∃ w, FileName w ∧
      place (cachePath d seed) = { (place d.storageDir.toList).follow ['.', '.'] with
        down := ((place d.storageDir.toList).follow ['.', '.']).down ++ [w] }) := by
  have hd : d.storageDir.toList ≠ [] := fun h => hs (String.toList_inj.mp (by rw [h]; rfl))
  obtain ⟨t, ht⟩ : ∃ t, t = x ++ ("-R" ++ toString d.revision ++ "-" ++ hexString seed).toList := ⟨_, rfl⟩
  have htl : 1 < t.length := by
    rw [ht]
    simp only [String.toList_append, List.length_append]
    have : "-R".toList.length = 2 := by decide +kernel
    omega
  have hts : '/' ∉ t := by
    rw [ht]
    simp only [String.toList_append, List.mem_append, not_or]
    exact ⟨hx, ⟨⟨by decide +kernel, intDigits_slash _⟩, by decide +kernel⟩, hex_slash _⟩
  have hf : FileName t := by
    refine ⟨fun h => ?_, hts, fun h => ?_, fun h => ?_⟩
    · rw [h] at htl; simp at htl
    · rw [h] at htl; simp at htl
    · have : '-' ∈ t := by
        rw [ht]
        have : '-' ∈ "-R".toList := by decide +kernel
        simp [String.toList_append]
      rw [h] at this
      exact absurd this (by decide)
  obtain ⟨D, hD⟩ : ∃ D, D = d.storageDir.toList := ⟨_, rfl⟩
  rw [← hD] at hd
  have e1 : cacheName d seed = "cache-".toList ++ d.name.toList ++ ("-R" ++ toString d.revision ++ "-" ++ hexString seed).toList := by
    unfold cacheName
    simp only [String.toList_append, List.append_assoc]
  have e2 : l1Name d seed = "l1-".toList ++ d.name.toList ++ ("-R" ++ toString d.revision ++ "-" ++ hexString seed).toList := by
    unfold l1Name
    simp only [String.toList_append, List.append_assoc]
  have hpl : ∀ rest : List Char, place (D ++ rest) = (elements (D ++ rest)).foldl Place.follow ⟨D.head? == some '/', 0, []⟩ := by
    intro rest
    unfold place
    cases D with
    | nil => exact absurd rfl hd
    | cons c cs => rfl
  -- what the elements after the directory do
  have key : ∀ k : List Char, FileName k → ∀ rest : List Char,
      place (D ++ '/' :: (k ++ '/' :: '.' :: '.' :: '/' :: rest)) = (elements rest).foldl Place.follow (place D) := by
    intro k hk rest
    have e : elements ('.' :: '.' :: '/' :: rest) = ['.', '.'] :: elements rest := by
      rw [show '.' :: '.' :: '/' :: rest = ['.', '.'] ++ '/' :: rest from rfl, elements_append, elements_plain (by decide)]
      rfl
    rw [hpl, elements_append, elements_append, elements_plain hk.2.1, e, List.foldl_append]
    have hP : (elements D).foldl Place.follow ⟨D.head? == some '/', 0, []⟩ = place D := rfl
    rw [hP]
    show (elements rest).foldl Place.follow (((place D).follow k).follow ['.', '.']) = _
    have hk1 : (place D).follow k = { place D with down := (place D).down ++ [k] } := by
      unfold Place.follow
      rw [if_neg (by rintro (h | h); exacts [hk.1 h, hk.2.2.1 h]), if_neg hk.2.2.2]
    rw [hk1]
    have : Place.follow { place D with down := (place D).down ++ [k] } ['.', '.'] = place D := by
      unfold Place.follow
      simp
    rw [this]
  have hcf : FileName "cache-".toList := by unfold FileName; decide +kernel
  have hlf : FileName "l1-".toList := by unfold FileName; decide +kernel
  refine ⟨fun hn => ?_, fun hn => ⟨t, hf, ?_⟩⟩
  · unfold cachePath l1Path
    rw [← hD, join_two _ _ hd, join_two _ _ hd, clean_inj, e1, e2, hn]
    have a1 : ∀ k : List Char, k ++ ("/../".toList ++ x) ++ ("-R" ++ toString d.revision ++ "-" ++ hexString seed).toList =
        k ++ '/' :: '.' :: '.' :: '/' :: t := by
      intro k
      rw [ht, show "/../".toList = ['/', '.', '.', '/'] from by decide +kernel]
      simp
    rw [a1, a1, key _ hcf, key _ hlf]
  · unfold cachePath
    rw [← hD, join_two _ _ hd, place_clean, e1, hn]
    have a1 : "cache-".toList ++ ("/../../".toList ++ x) ++ ("-R" ++ toString d.revision ++ "-" ++ hexString seed).toList =
        "cache-".toList ++ '/' :: '.' :: '.' :: '/' :: (['.', '.'] ++ '/' :: t) := by
      rw [ht, show "/../../".toList = ['/', '.', '.', '/', '.', '.', '/'] from by decide +kernel]
      simp
    rw [a1, key _ hcf, elements_append, elements_plain (by decide), elements_plain hts]
    show ((place D).follow ['.', '.']).follow t = _
    generalize (place D).follow ['.', '.'] = q
    unfold Place.follow
    rw [if_neg (by rintro (h | h); exacts [hf.1 h, hf.2.2.1 h]), if_neg hf.2.2.2]

end Verif.Props
