import Verif.Proof.HeavyEval

/-! # An evaluator for matrices of which `calculateRank` finds 63 columns to be independent

As `Proof/HeavyEval.lean`, but the last column is compared with `epsilon` exactly. -/

set_option autoImplicit false

namespace Verif.Heavy.Eval

open Go Gf2 Spec.Heavy

/-- `cols` that goes on with the rows left -/
def colsTo (op : Nat → Nat → Nat → (Nat → Bool) → Bool) (fin : List (List Nat) → Bool) (n : Nat) : List (List Nat) → Bool :=
  Nat.rec fin
    (fun _ ih rows => List.rec false (fun r rows _ => List.rec false (fun c r _ =>
      cond (big c) (mapDiv c r fun p => elims op p rows ih) false) r) rows) n

/-- `epsilon` in units -/
def eps : Nat := Nat.shiftLeft 4835703278458517 992

theorem eps_eq : eps = epsilon := by decide +kernel

/-- the first number of the only row left -/
def lastIs (test : Nat → Bool) (rows : List (List Nat)) : Bool :=
  List.rec false (fun r rest _ => List.rec false (fun c _ _ => List.rec (test c) (fun _ _ _ => false) rest) r) rows

/-- not above `epsilon` -/
def leEps (c : Nat) : Bool := Nat.ble (Nat.shiftLeft (mant c) (expo c)) eps

/-- above `epsilon` -/
def gtEps (c : Nat) : Bool := Nat.ble (Nat.succ eps) (Nat.shiftLeft (mant c) (expo c))

theorem lastIs_sound (test : Nat → Bool) (rows : List (List Nat)) (h : lastIs test rows = true) : ∃ c r, rows = [c :: r] ∧ test c = true := by
  cases rows with
  | nil => exact absurd h Bool.false_ne_true
  | cons r rest =>
    cases r with
    | nil => exact absurd h Bool.false_ne_true
    | cons c r =>
      cases rest with
      | nil => exact ⟨c, r, rfl, h⟩
      | cons _ _ => exact absurd h Bool.false_ne_true

attribute [local irreducible] F64.one F64.round F64.roundDiff epsilon eps

theorem leEps_sound (c : Nat) (h : leEps c = true) : F64.absGt epsilon (dec c) = false := by
  have h1 := Nat.le_of_ble_eq_true h
  rw [show Nat.shiftLeft (mant c) (expo c) = mant c * 2 ^ expo c from Nat.shiftLeft_eq _ _, eps_eq] at h1
  rw [absGt_dec]
  exact decide_eq_false (by omega)

theorem gtEps_sound (c : Nat) (h : gtEps c = true) : F64.absGt epsilon (dec c) = true := by
  have h1 := Nat.le_of_ble_eq_true h
  rw [show Nat.shiftLeft (mant c) (expo c) = mant c * 2 ^ expo c from Nat.shiftLeft_eq _ _, eps_eq] at h1
  rw [absGt_dec]
  exact decide_eq_true (by omega)

section Sound
variable {N : Num F64} {op : Nat → Nat → Nat → (Nat → Bool) → Bool} (hop : Sound op N.mulSub) (hdiv : N.div = F64.div)
  (hbig : N.big = F64.absGt epsilon) (hsmall : N.small = F64.absLe epsilon)

include hop hdiv hbig hsmall

theorem colsTo_sound (z : F64) (fin : List (List Nat) → Bool) (m n : Nat) (rows : List (List Nat)) (frows : List (Bool × List F64))
    (hr : (frows.filter (fun r => !r.1)) = rows.map fun r => (false, r.map dec)) (h : colsTo op fin n rows = true) :
    ∃ rows' frows', fin rows' = true ∧ (frows'.filter (fun r => !r.1)) = (rows'.map fun r => (false, r.map dec)) ∧
      listRank N z (n + m) frows = n + listRank N z m frows' := by
  induction n generalizing rows frows with
  | zero => exact ⟨rows, frows, h, hr, by rw [Nat.zero_add, Nat.zero_add]⟩
  | succ n ih =>
    cases rows with
    | nil => exact absurd h Bool.false_ne_true
    | cons r rows =>
      cases r with
      | nil => exact absurd h Bool.false_ne_true
      | cons c r =>
        have h' : cond (big c) (mapDiv c r fun p => elims op p rows (colsTo op fin n)) false = true := h
        obtain ⟨hb, h1⟩ := cond_sound h'
        obtain ⟨p, h2, h3⟩ := mapDiv_sound c r _ h1
        obtain ⟨rs, h4, h5⟩ := elims_sound hop hsmall z p rows _ h3
        rw [List.map_cons] at hr
        obtain ⟨h6, h7⟩ := listCol_first (N := N) z frows _ _ hr (by rw [List.map_cons, List.headD_cons, hbig]; exact big_sound c hb)
        obtain ⟨rows', frows', a, b, d⟩ := ih rs (listCol N z frows).1 (by
          rw [h7, List.map_map]
          have e : rs.map (fun r => (false, r.map dec)) = (rs.map (List.map dec)).map (Prod.mk false) := by rw [List.map_map]; rfl
          rw [e, h4, List.map_map, List.map_map]
          apply List.map_congr_left
          intro q _
          show (false, below N z _ (q.map dec)) = (false, below N z (p.map dec) (q.map dec))
          rw [h2, List.map_cons, List.tail_cons, List.headD_cons, hdiv]) h5
        refine ⟨rows', frows', a, b, ?_⟩
        have e : n + 1 + m = (n + m) + 1 := by omega
        rw [e]
        show (listCol N z frows).2 + listRank N z (n + m) (listCol N z frows).1 = _
        rw [h6, d]
        omega

omit hop hdiv hsmall in
/-- the last column -/
theorem last_refused (z : F64) (c : Nat) (r : List Nat) (frows : List (Bool × List F64))
    (hr : (frows.filter (fun r => !r.1)) = [c :: r].map fun r => (false, r.map dec)) (h : leEps c = true) : listRank N z 1 frows = 0 := by
  have hcol : (listCol N z frows).2 = 0 := by
    have hn : frows.findIdx? (fun r => !r.1 && N.big (r.2.headD z)) = none := by
      rw [List.findIdx?_eq_none_iff]
      intro q hq
      cases hq1 : q.1 with
      | true => rfl
      | false =>
        have hm : q ∈ frows.filter (fun r => !r.1) := List.mem_filter.2 ⟨hq, by rw [hq1]; rfl⟩
        rw [hr, List.map_singleton, List.mem_singleton] at hm
        rw [hm]
        show (!false && N.big (dec c)) = false
        rw [hbig, leEps_sound c h]
        rfl
    unfold listCol
    rw [hn]
  show (listCol N z frows).2 + 0 = 0
  rw [hcol]

omit hop hdiv hsmall in
theorem last_taken (z : F64) (c : Nat) (r : List Nat) (frows : List (Bool × List F64))
    (hr : (frows.filter (fun r => !r.1)) = [c :: r].map fun r => (false, r.map dec)) (h : gtEps c = true) : listRank N z 1 frows = 1 := by
  obtain ⟨h6, _⟩ := listCol_first (N := N) z frows _ _ hr (by rw [List.map_cons, List.headD_cons, hbig]; exact gtEps_sound c h)
  show (listCol N z frows).2 + 0 = 1
  rw [h6]

end Sound

/-- the rows of the first candidate -/
theorem rows_of (N : Num F64) (hof : N.ofU16 = fun x => F64.ofNat x.toNat) (s : XState) :
    (blockOf 64 (entries N (candidate s 0))).filter (fun r => !r.1) = ((List.range 64).map fun j => rowCodes s (0 + j)).map fun r => (false, r.map dec) := by
  unfold blockOf
  rw [List.filter_eq_self.2, List.map_map]
  · apply List.map_congr_left
    intro i hi
    show _ = (false, (rowCodes s (0 + i)).map dec)
    rw [Nat.zero_add]
    refine congrArg (Prod.mk false) ?_
    unfold rowCodes
    rw [List.map_map]
    apply List.map_congr_left
    intro j hj
    have hi' := List.mem_range.1 hi
    have hj' := List.mem_range.1 hj
    have he : entry s 0 i j < 16 := Nat.mod_lt _ (by decide)
    have hx : (BitVec.ofNat 16 (entry s 0 i j)).toNat = entry s 0 i j := by
      rw [BitVec.toNat_ofNat, Nat.mod_eq_of_lt (by omega)]
    show _ = dec (code (entry s 0 i j))
    rw [← hx, dec_code]
    unfold entries candidate
    rw [hof]
    simp [List.getD_eq_getElem?_getD, hi', hj']
  · intro a ha
    obtain ⟨i, _, rfl⟩ := List.mem_map.1 ha
    rfl

theorem rank_last (N : Num F64) (op : Nat → Nat → Nat → (Nat → Bool) → Bool) (hop : Sound op N.mulSub) (hdiv : N.div = F64.div)
    (hbig : N.big = F64.absGt epsilon) (hsmall : N.small = F64.absLe epsilon) (hof : N.ofU16 = fun x => F64.ofNat x.toNat)
    (w : Nat) (test : Nat → Bool) (k : Nat)
    (hk : ∀ (c : Nat) (r : List Nat) (frows : List (Bool × List F64)),
      (frows.filter (fun r => !r.1)) = ([c :: r].map fun r => (false, r.map dec)) → test c = true → listRank N (.fin false 0) 1 frows = k)
    (h : rowsOf 64 w (colsTo op (lastIs test) 63) = true) : calculateRank N (candidate (Xoshiro.unpack w) 0) = .ok (63 + k) := by
  obtain ⟨s, hs⟩ : ∃ s, s = Xoshiro.unpack w := ⟨_, rfl⟩
  rw [rowsOf_eq s 64 0 w hs.symm] at h
  rw [← hs, calculateRank_pure N _ (candidate_square s 0) (entries N (candidate s 0)) (fun _ _ _ _ => rfl), listRank_block N (.fin false 0)]
  refine congrArg Except.ok ?_
  obtain ⟨rows', frows', a, b, d⟩ := colsTo_sound hop hdiv hbig hsmall (.fin false 0) (lastIs test) 1 63 _ _ (rows_of N hof s) h
  obtain ⟨c, r, rfl, ht⟩ := lastIs_sound test rows' a
  rw [hk c r frows' b ht] at d
  exact d

theorem separate_refused (w : Nat) (h : rowsOf 64 w (colsTo mulSub (lastIs leEps) 63) = true) :
    calculateRank separate (candidate (Xoshiro.unpack w) 0) = .ok 63 :=
  rank_last separate mulSub mulSub_sound rfl rfl rfl rfl w leEps 0 (fun c r f => last_refused rfl _ c r f) h

theorem fused_refused (w : Nat) (h : rowsOf 64 w (colsTo fusedMulSub (lastIs leEps) 63) = true) :
    calculateRank fused (candidate (Xoshiro.unpack w) 0) = .ok 63 :=
  rank_last fused fusedMulSub fusedMulSub_sound rfl rfl rfl rfl w leEps 0 (fun c r f => last_refused rfl _ c r f) h

theorem separate_taken (w : Nat) (h : rowsOf 64 w (colsTo mulSub (lastIs gtEps) 63) = true) :
    calculateRank separate (candidate (Xoshiro.unpack w) 0) = .ok 64 :=
  rank_last separate mulSub mulSub_sound rfl rfl rfl rfl w gtEps 1 (fun c r f => last_taken rfl _ c r f) h

theorem fused_taken (w : Nat) (h : rowsOf 64 w (colsTo fusedMulSub (lastIs gtEps) 63) = true) :
    calculateRank fused (candidate (Xoshiro.unpack w) 0) = .ok 64 :=
  rank_last fused fusedMulSub fusedMulSub_sound rfl rfl rfl rfl w gtEps 1 (fun c r f => last_taken rfl _ c r f) h

end Verif.Heavy.Eval
