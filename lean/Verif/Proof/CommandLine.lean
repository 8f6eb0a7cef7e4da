import Verif.Model.CommandLine
import Verif.Spec.CommandLine

/-! # Reading the command line of gen-lookup -/

set_option autoImplicit false

namespace Verif.GenLookup

open Go Flag Spec.CommandLine

/-! ## Numbers -/

theorem digitValue_digitChar : ∀ d, d < 16 → digitValue (Nat.digitChar d) = some d ∧ Nat.digitChar d ≠ '_' := by decide

theorem foldl_ge (b : Nat) (hb : 1 ≤ b) (ds : List Nat) : ∀ n, n ≤ ds.foldl (fun n d => n * b + d) n := by
  induction ds with
  | nil => intro n; exact Nat.le_refl n
  | cons d ds ih =>
    intro n
    have h1 := ih (n * b + d)
    have h2 : n * 1 ≤ n * b := Nat.mul_le_mul_left n hb
    rw [List.foldl_cons]
    omega

theorem digits_map (b : Nat) (hb : 1 ≤ b) (hb' : b ≤ 16) (ds : List Nat) (hd : ∀ d ∈ ds, d < b) : ∀ n, n < 2 ^ 64 →
    digits b (ds.map Nat.digitChar) n =
      if ds.foldl (fun n d => n * b + d) n < 2 ^ 64 then some (ds.foldl (fun n d => n * b + d) n) else none := by
  induction ds with
  | nil => intro n hn; rw [List.map_nil, digits, List.foldl_nil, if_pos hn]
  | cons d ds ih =>
    intro n hn
    have hdb : d < b := hd d (by simp)
    obtain ⟨e1, e2⟩ := digitValue_digitChar d (by omega)
    rw [List.map_cons, digits, if_neg e2, e1]
    dsimp only
    rw [if_neg (by omega), List.foldl_cons]
    by_cases h : 2 ^ 64 ≤ n * b + d
    · have := foldl_ge b hb ds (n * b + d)
      rw [if_pos h, if_neg (by omega)]
    · rw [if_neg h, ih (fun x hx => hd x (by simp [hx])) _ (by omega)]

theorem digits_big (b : Nat) (ds : List Nat) (hd : ∀ d ∈ ds, d < 10) (h : ∃ d ∈ ds, b ≤ d) : ∀ n, digits b (ds.map Nat.digitChar) n = none := by
  induction ds with
  | nil => obtain ⟨d, hd, -⟩ := h; simp at hd
  | cons d ds ih =>
    intro n
    have h10 := hd d (by simp)
    obtain ⟨e1, e2⟩ := digitValue_digitChar d (by omega)
    rw [List.map_cons, digits, if_neg e2, e1]
    dsimp only
    by_cases hb : b ≤ d
    · rw [if_pos hb]
    · rw [if_neg hb]
      by_cases h : 2 ^ 64 ≤ n * b + d
      · rw [if_pos h]
      · rw [if_neg h]
        refine ih (fun x hx => hd x (by simp [hx])) ?_ _
        rename_i h'
        obtain ⟨x, hx, hbx⟩ := h'
        rcases List.mem_cons.mp hx with e | e
        · exact absurd (e ▸ hbx) hb
        · exact ⟨x, e, hbx⟩

theorem no_underscore (ds : List Nat) (hd : ∀ d ∈ ds, d < 16) : '_' ∉ ds.map Nat.digitChar := by
  intro h
  obtain ⟨d, h1, h2⟩ := List.mem_map.mp h
  exact (digitValue_digitChar d (hd d h1)).2 h2

theorem digitChar_zero : ∀ d, d < 10 → (Nat.digitChar d = '0' ↔ d = 0) := by decide

theorem digitChar_letter : ∀ d, d < 10 → Nat.digitChar d ≠ 'b' ∧ Nat.digitChar d ≠ 'B' ∧ Nat.digitChar d ≠ 'o' ∧ Nat.digitChar d ≠ 'O' ∧
    Nat.digitChar d ≠ 'x' ∧ Nat.digitChar d ≠ 'X' := by decide

theorem split_other (c : Char) (t : List Char) (hc : c ≠ '0') : split (c :: t) = (10, c :: t) := by
  unfold split
  split
  · rename_i heq; exact absurd (List.cons.inj heq).1 hc
  · rename_i heq; exact absurd (List.cons.inj heq).1 hc
  · rfl

theorem split_decimal (d : Nat) (ds : List Nat) (hd : ∀ x ∈ d :: ds, x < 10) (h0 : d ≠ 0) :
    split ((d :: ds).map Nat.digitChar) = (10, (d :: ds).map Nat.digitChar) :=
  split_other _ _ fun h => h0 ((digitChar_zero d (hd d (by simp))).mp h)

theorem split_zero (ds : List Nat) (hd : ∀ x ∈ ds, x < 10) : split ('0' :: ds.map Nat.digitChar) = (8, ds.map Nat.digitChar) := by
  match ds, hd with
  | [], _ => rfl
  | [x], _ => rfl
  | x :: y :: t, hd =>
    obtain ⟨h1, h2, h3, h4, h5, h6⟩ := digitChar_letter x (hd x (by simp))
    simp only [List.map_cons, split]
    rw [if_neg (by simp [h1, h2]), if_neg (by simp [h3, h4]), if_neg (by simp [h5, h6])]

theorem parseUint_of (s : List Char) (b : Nat) (ds : List Nat) (hs : s ≠ []) (h : split s = (b, ds.map Nat.digitChar)) (hb : 1 ≤ b) (hb' : b ≤ 16)
    (hd : ∀ d ∈ ds, d < b) : parseUint s = if value b ds < 2 ^ 64 then some (value b ds) else none := by
  rw [parseUint, if_neg hs, h]
  dsimp only
  rw [digits_map b hb hb' ds hd 0 (by omega)]
  have hu := no_underscore ds fun d hd' => Nat.lt_of_lt_of_le (hd d hd') hb'
  rw [value]
  by_cases hv : ds.foldl (fun n d => n * b + d) 0 < 2 ^ 64
  · rw [if_pos hv]
    dsimp only
    rw [if_neg fun hh => hu hh.1]
  · rw [if_neg hv]

/-- the digits of a number -/
theorem decimal_digits (n : Nat) : ∃ d ds, decimal n = (d :: ds).map Nat.digitChar ∧ (∀ x ∈ d :: ds, x < 10) ∧ value 10 (d :: ds) = n ∧
    (0 < n → d ≠ 0) ∧ (n = 0 → d = 0 ∧ ds = []) := by
  induction n using Nat.strongRecOn with
  | ind n ih =>
    by_cases h : n < 10
    · refine ⟨n, [], ?_, by simpa using h, by simp [value], by omega, fun hn => ⟨hn, rfl⟩⟩
      rw [decimal, Nat.toDigits_of_lt_base h]
      rfl
    · obtain ⟨d, ds, h1, h2, h3, h4, -⟩ := ih (n / 10) (by omega)
      refine ⟨d, ds ++ [n % 10], ?_, ?_, ?_, fun _ => h4 (by omega), by omega⟩
      · rw [decimal, Nat.toDigits_of_base_le (by omega) (by omega), ← decimal, h1]
        simp
      · intro x hx
        rw [← List.cons_append, List.mem_append, List.mem_singleton] at hx
        rcases hx with hx | hx
        · exact h2 x hx
        · omega
      · rw [value] at h3 ⊢
        rw [← List.cons_append, List.foldl_append, h3]
        simp only [List.foldl_cons, List.foldl_nil]
        omega

theorem parseUint_decimal (n : Nat) : parseUint (decimal n) = if n < 2 ^ 64 then some n else none := by
  obtain ⟨d, ds, h1, h2, h3, h4, h5⟩ := decimal_digits n
  by_cases hn : n = 0
  · obtain ⟨rfl, rfl⟩ := h5 hn
    subst hn
    rw [h1]
    rfl
  · rw [h1, parseUint_of _ 10 (d :: ds) (by simp) (split_decimal d ds h2 (h4 (by omega))) (by omega) (by omega) h2, h3]

theorem decimal_head (n : Nat) : ∃ c t, decimal n = c :: t ∧ c ≠ '-' ∧ c ≠ '+' := by
  obtain ⟨d, ds, h1, h2, -⟩ := decimal_digits n
  have : ∀ d, d < 10 → Nat.digitChar d ≠ '-' ∧ Nat.digitChar d ≠ '+' := by decide
  exact ⟨_, _, h1, (this d (h2 d (by simp))).1, (this d (h2 d (by simp))).2⟩

theorem parseInt_signed (n : Int) : parseInt (signed n) = if -2 ^ 63 ≤ n ∧ n < 2 ^ 63 then some n else none := by
  cases n with
  | ofNat n =>
    obtain ⟨c, t, h1, h2, h3⟩ := decimal_head n
    have e : parseInt (signed (Int.ofNat n)) = (parseUint (decimal n)).bind fun n => if n ≥ 2 ^ 63 then none else some (n : Int) := by
      rw [signed, h1]
      unfold parseInt
      split
      · rename_i heq; exact absurd (List.cons.inj heq).1 h2
      · rename_i heq; exact absurd (List.cons.inj heq).1 h3
      · rfl
    rw [e, parseUint_decimal]
    by_cases h : n < 2 ^ 64
    · rw [if_pos h, Option.bind_some]
      by_cases h' : n ≥ 2 ^ 63
      · rw [if_pos h', if_neg (by simp only [Int.ofNat_eq_natCast]; omega)]
      · rw [if_neg h', if_pos (by simp only [Int.ofNat_eq_natCast]; omega)]
        rfl
    · rw [if_neg h, if_neg (by simp only [Int.ofNat_eq_natCast]; omega)]
      rfl
  | negSucc n =>
    rw [signed, parseInt, parseUint_decimal]
    by_cases h : n + 1 < 2 ^ 64
    · rw [if_pos h, Option.bind_some]
      by_cases h' : n + 1 > 2 ^ 63
      · rw [if_pos h', if_neg (by omega)]
      · rw [if_neg h', if_pos (by omega)]
        rfl
    · rw [if_neg h, if_neg (by omega)]
      rfl

/-! ## Settings -/

/-- the variables of the program for given parameters -/
def toFlags (p : Params) : Flags where
  package := p.package
  epochs := p.epochs
  mixBytes := BitVec.ofNat 64 p.mixBytes
  cacheInitBytes := BitVec.ofNat 64 p.cacheInit
  cacheGrowthBytes := BitVec.ofNat 64 p.cacheGrowth
  datasetInitBytes := BitVec.ofNat 64 p.datasetInit
  datasetGrowthBytes := BitVec.ofNat 64 p.datasetGrowth

theorem set_setting (s : Setting) (h : s.Fits) (p : Params) : ∃ set, formal s.name = some set ∧ set s.value (toFlags p) = some (toFlags (p.apply s)) := by
  cases s with
  | package v => exact ⟨_, rfl, rfl⟩
  | epochs n =>
    refine ⟨_, rfl, ?_⟩
    show (parseInt (signed n)).map _ = _
    rw [parseInt_signed, if_pos (show -2 ^ 63 ≤ n ∧ n < 2 ^ 63 from h)]
    rfl
  | mixBytes n | cacheInit n | cacheGrowth n | datasetInit n | datasetGrowth n =>
    refine ⟨_, rfl, ?_⟩
    show (parseUint (decimal n)).map _ = _
    rw [parseUint_decimal, if_pos (show n < 2 ^ 64 from h)]
    rfl

theorem unset_setting (s : Setting) (h : ¬ s.Fits) (x : Flags) : ∃ set, formal s.name = some set ∧ set s.value x = none := by
  cases s with
  | package v => exact absurd trivial h
  | epochs n =>
    refine ⟨_, rfl, ?_⟩
    show (parseInt (signed n)).map _ = _
    rw [parseInt_signed, if_neg (show ¬ (-2 ^ 63 ≤ n ∧ n < 2 ^ 63) from h)]
    rfl
  | mixBytes n | cacheInit n | cacheGrowth n | datasetInit n | datasetGrowth n =>
    refine ⟨_, rfl, ?_⟩
    show (parseUint (decimal n)).map _ = _
    rw [parseUint_decimal, if_neg (show ¬ n < 2 ^ 64 from h)]
    rfl

/-- a flag with dashes -/
def dashed (two : Bool) (t : List Char) : List Char := (if two then "--".toList else "-".toList) ++ t

theorem classify_dashed (two : Bool) (c : Char) (t : List Char) (h : c ≠ '-') : classify (dashed two (c :: t)) = named (c :: t) := by
  cases two with
  | true =>
    show classify ('-' :: '-' :: c :: t) = _
    rfl
  | false =>
    show classify ('-' :: c :: t) = _
    unfold classify
    split
    · rename_i heq; exact absurd (List.cons.inj (List.cons.inj heq).2).1 h
    · rename_i heq; exact absurd (List.cons.inj (List.cons.inj heq).2).1 h
    · rename_i heq
      obtain ⟨h1, h2⟩ := List.cons.inj (List.cons.inj heq).2
      rw [← h1, ← h2]
    · rename_i h1 h2 h3
      exact absurd rfl (h3 c t)

theorem cut_plain (t : List Char) (h : '=' ∉ t) : cut t = (t, none) := by
  induction t with
  | nil => rfl
  | cons c t ih =>
    simp only [List.mem_cons, not_or] at h
    rw [cut, if_neg (Ne.symm h.1), ih h.2]

theorem cut_equals (t v : List Char) (h : '=' ∉ t) : cut (t ++ '=' :: v) = (t, some v) := by
  induction t with
  | nil => simp [cut]
  | cons c t ih =>
    simp only [List.mem_cons, not_or] at h
    rw [List.cons_append, cut, if_neg (Ne.symm h.1), ih h.2]

theorem classify_name (two : Bool) (c : Char) (t : List Char) (h : c ≠ '-') (he : '=' ∉ c :: t) :
    classify (dashed two (c :: t)) = .flag (c :: t) none := by
  simp only [List.mem_cons, not_or] at he
  rw [classify_dashed two c t h, named, if_neg (by simp [h, Ne.symm he.1]), cut_plain t he.2]

theorem classify_equals (two : Bool) (c : Char) (t v : List Char) (h : c ≠ '-') (he : '=' ∉ c :: t) :
    classify (dashed two (c :: t ++ '=' :: v)) = .flag (c :: t) (some v) := by
  simp only [List.mem_cons, not_or] at he
  rw [List.cons_append, classify_dashed two c _ h, named, if_neg (by simp [h, Ne.symm he.1]), cut_equals t v he.2]

theorem name_ok (s : Setting) : ∃ c t, s.name = c :: t ∧ c ≠ '-' ∧ '=' ∉ c :: t := by
  cases s <;> exact ⟨_, _, rfl, by decide, by decide⟩

/-- after `Set` -/
def andThen {σ : Type} (o : Option σ) (k : σ → Parsed σ) : Parsed σ :=
  match o with
  | none => .exit 2
  | some y => k y

theorem parse_next {σ : Type} (fs : List Char → Option (List Char → σ → Option σ)) (a v : List Char) (as : List (List Char)) (x : σ) (name : List Char)
    (set : List Char → σ → Option σ) (h1 : classify a = .flag name none) (h2 : fs name = some set) :
    parse fs (a :: v :: as) x = andThen (set v x) (parse fs as) := by
  rw [parse, h1]
  dsimp only
  rw [h2]
  dsimp only
  cases set v x <;> rfl

theorem parse_equals {σ : Type} (fs : List Char → Option (List Char → σ → Option σ)) (a v : List Char) (as : List (List Char)) (x : σ) (name : List Char)
    (set : List Char → σ → Option σ) (h1 : classify a = .flag name (some v)) (h2 : fs name = some set) :
    parse fs (a :: as) x = andThen (set v x) (parse fs as) := by
  cases as with
  | nil =>
    rw [parse, h1]
    dsimp only
    rw [h2]
    dsimp only
    cases set v x with
    | none => rfl
    | some y => simp only [andThen, parse]
  | cons b as =>
    rw [parse, h1]
    dsimp only
    rw [h2]
    dsimp only
    cases set v x <;> rfl

theorem parse_written (s : Setting) (f : Form) (rest : List (List Char)) (x : Flags) (set : List Char → Flags → Option Flags) (h : formal s.name = some set) :
    parse formal (s.written f ++ rest) x = andThen (set s.value x) (parse formal rest) := by
  obtain ⟨c, t, e, h1, h2⟩ := name_ok s
  obtain ⟨two, eq⟩ := f
  cases eq with
  | true =>
    have e1 : s.written ⟨two, true⟩ ++ rest = dashed two (c :: t ++ '=' :: s.value) :: rest := by
      simp only [Setting.written, dashed, e, if_true, List.append_assoc, List.cons_append, List.nil_append]
    rw [e1]
    exact parse_equals _ _ _ _ _ _ _ (classify_equals two c t _ h1 h2) (e ▸ h)
  | false =>
    have e1 : s.written ⟨two, false⟩ ++ rest = dashed two (c :: t) :: s.value :: rest := by
      simp only [Setting.written, dashed, e, Bool.false_eq_true, if_false, List.cons_append, List.nil_append]
    rw [e1]
    exact parse_next _ _ _ _ _ _ _ (classify_name two c t h1 h2) (e ▸ h)

theorem parse_settings (l : List (Setting × Form)) (hl : ∀ x ∈ l, x.1.Fits) (rest : List (List Char)) : ∀ p,
    parse formal (l.flatMap (fun x => x.1.written x.2) ++ rest) (toFlags p) = parse formal rest (toFlags ((l.map Prod.fst).foldl Params.apply p)) := by
  induction l with
  | nil => intro p; rfl
  | cons x l ih =>
    intro p
    obtain ⟨set, h1, h2⟩ := set_setting x.1 (hl x (by simp)) p
    rw [List.flatMap_cons, List.append_assoc, parse_written x.1 x.2 _ _ set h1, h2, andThen, ih (fun y hy => hl y (by simp [hy]))]
    rfl

end Verif.GenLookup
