import Verif.Proof.Kawpow

/-! # The destinations of a round, and what a round keeps of the item it reads -/

set_option autoImplicit false

namespace Verif.Progpow

open Go Crypto Spec.Progpow

/-! ### destinations -/

/-- the register an instruction merges into -/
def target : Instr → Nat
  | .cache _ dst _ => dst
  | .math _ _ _ dst _ => dst

section
variable (p : Params) (src dst : List Nat)

theorem genStep_targets (i : Nat) (g : Gen) :
    ∃ k, k = (if i < p.cntCache then 1 else 0) + (if i < p.cntMath then 1 else 0) ∧
      (genStep p src dst i g).1.map target = (List.range' g.dsts k).map (nthDst p dst) ∧ (genStep p src dst i g).2.dsts = g.dsts + k := by
  refine ⟨_, rfl, ?_⟩
  unfold genStep
  by_cases a : i < p.cntCache <;> by_cases b : i < p.cntMath <;>
    simp [a, b, genCache, genMath, target, List.range'_succ]

theorem genSteps_targets (n : Nat) : ∀ (i : Nat) (g : Gen), ∃ k, k = (min (i + n) p.cntCache - min i p.cntCache) + (min (i + n) p.cntMath - min i p.cntMath) ∧
    (genSteps p src dst n i g).1.map target = (List.range' g.dsts k).map (nthDst p dst) ∧ (genSteps p src dst n i g).2.dsts = g.dsts + k := by
  induction n with
  | zero => intro i g; exact ⟨0, by simp, rfl, rfl⟩
  | succ n ih =>
    intro i g
    obtain ⟨k1, e1, h1, h2⟩ := genStep_targets p src dst i g
    obtain ⟨k2, e2, h3, h4⟩ := ih (i + 1) (genStep p src dst i g).2
    refine ⟨k1 + k2, ?_, ?_, ?_⟩
    · rw [e1, e2]
      by_cases a : i < p.cntCache <;> by_cases b : i < p.cntMath <;> simp only [a, b, if_true, if_false] <;> omega
    · show ((genStep p src dst i g).1 ++ (genSteps p src dst n (i + 1) (genStep p src dst i g).2).1).map target = _
      rw [List.map_append, h1, h3, h2, ← List.map_append, ← List.range'_append_1]
    · show (genSteps p src dst n (i + 1) (genStep p src dst i g).2).2.dsts = _
      rw [h4, h2, Nat.add_assoc]

theorem genLoads_succ_targets (n : Nat) : ∀ (i : Nat) (g : Gen),
    (genLoads p dst n (i + 1) g).map Prod.fst = (List.range' g.dsts n).map (nthDst p dst) := by
  induction n with
  | zero => intro i g; rfl
  | succ n ih =>
    intro i g
    rw [genLoads, List.map_cons, ih (i + 1), List.range'_succ, List.map_cons]

theorem genLoads_sels (n : Nat) : ∀ (i : Nat) (g : Gen), ∀ d ∈ genLoads p dst n i g, d.2 < 2 ^ 32 := by
  induction n with
  | zero => intro i g d hd; rw [genLoads] at hd; exact absurd hd List.not_mem_nil
  | succ n ih =>
    intro i g d hd
    cases i with
    | zero =>
      rw [genLoads, List.mem_cons] at hd
      rcases hd with rfl | hd
      · exact BitVec.isLt _
      · exact ih _ _ d hd
    | succ i =>
      rw [genLoads, List.mem_cons] at hd
      rcases hd with rfl | hd
      · exact BitVec.isLt _
      · exact ih _ _ d hd

theorem nthDst_all (h : dst.length = p.regs) : (List.range p.regs).map (nthDst p dst) = dst := by
  apply List.ext_getElem (by simp [h])
  intro i h1 h2
  rw [List.getElem_map, List.getElem_range]
  unfold nthDst
  rw [Nat.mod_eq_of_lt (by omega), List.getD_eq_getElem?_getD, List.getElem?_eq_getElem h2]
  rfl

end

/-- if there are as many destinations as registers, each register is one of them, and the first word goes to register 0 in addition -/
theorem program_targets (p : Params) (h2 : p.regs < 2 ^ 32) (prog : U64) (words : Nat) (hw : p.cntCache + p.cntMath + words = p.regs) :
    ∃ s t, (program p prog.toNat (words + 1)).2 = (0, s) :: t ∧ ((program p prog.toNat (words + 1)).1.map target ++ t.map Prod.fst).Perm (List.range p.regs) ∧
      s < 2 ^ 32 ∧ (∀ d ∈ t, d.2 < 2 ^ 32) ∧ t.length = words := by
  have hsize : (BitVec.ofNat 32 p.regs).toNat = p.regs := by rw [BitVec.toNat_ofNat]; omega
  obtain ⟨st, k, src, dst, e, hsh, hrel, ps, pd⟩ := initMixRngState_ok prog (BitVec.ofNat 32 p.regs)
  rw [hsize] at hsh hrel ps pd
  rw [program_eq p prog.toNat (words + 1) k src dst hsh]
  obtain ⟨c, e1, h3, h4⟩ := genSteps_targets p src dst (max p.cntCache p.cntMath) 0 ⟨k, 0, 0⟩
  obtain ⟨g, hg⟩ : ∃ g, g = (genSteps p src dst (max p.cntCache p.cntMath) 0 ⟨k, 0, 0⟩).2 := ⟨_, rfl⟩
  rw [← hg] at h4 ⊢
  dsimp only at h3 h4 ⊢
  have hc : c = p.cntCache + p.cntMath := by rw [e1]; omega
  refine ⟨_, genLoads p dst words 1 ⟨g.kiss.step, g.srcs, g.dsts⟩, rfl, ?_, BitVec.isLt _, genLoads_sels p dst words 1 _, by
    rw [← List.length_map (f := Prod.fst), genLoads_succ_targets p dst words 0, List.length_map, List.length_range']⟩
  rw [h3, genLoads_succ_targets p dst words 0, ← List.map_append]
  dsimp only
  rw [h4, List.range'_append_1, hc, hw, ← List.range_eq_range', nthDst_all p dst hrel.ldst]
  exact pd

/-! ### loads -/

theorem merge_data (a : W) (s : Nat) (hs : s < 2 ^ 32) : (∀ b b', merge a b s = merge a b' s → b = b') ∧ ∀ r, ∃ b, merge a b s = r := by
  have e : (BitVec.ofNat 32 s).toNat = s := by rw [BitVec.toNat_ofNat, Nat.mod_eq_of_lt hs]
  constructor
  · intro b b' h
    have h1 := undata_merge a b (BitVec.ofNat 32 s)
    have h2 := undata_merge a b' (BitVec.ofNat 32 s)
    rw [randomMerge_eq, e] at h1 h2
    rw [← h1, ← h2, h]
  · intro r
    have h1 := merge_undata r a (BitVec.ofNat 32 s)
    rw [randomMerge_eq, e] at h1
    exact ⟨_, h1⟩

theorem getD_set_self (lane : List W) (d : Nat) (x : W) (hd : d < lane.length) : (lane.set d x).getD d 0 = x := by
  rw [List.getD_eq_getElem?_getD, List.getElem?_set_self (by simpa using hd)]; rfl

theorem getD_set_ne (lane : List W) (d e : Nat) (x : W) (h : d ≠ e) : (lane.set d x).getD e 0 = lane.getD e 0 := by
  rw [List.getD_eq_getElem?_getD, List.getD_eq_getElem?_getD, List.getElem?_set_ne h]

/-- a load leaves the registers that it does not name -/
theorem load_other (ds : List (Nat × Nat)) : ∀ (lane ws : List W) (d : Nat), d ∉ ds.map Prod.fst → (load lane ds ws).getD d 0 = lane.getD d 0 := by
  induction ds with
  | nil => intro lane ws d _; cases ws <;> rfl
  | cons x ds ih =>
    intro lane ws d hd
    rw [List.map_cons, List.mem_cons, not_or] at hd
    cases ws with
    | nil => rfl
    | cons w ws => rw [load, ih _ _ _ hd.2]; exact getD_set_ne _ _ _ _ (Ne.symm hd.1)

/-- words loaded into different registers can be read off -/
theorem load_injective (ds : List (Nat × Nat)) : ∀ (lane ws ws' : List W), (ds.map Prod.fst).Nodup → (∀ d ∈ ds, d.1 < lane.length ∧ d.2 < 2 ^ 32) →
    ws.length = ds.length → ws'.length = ds.length → load lane ds ws = load lane ds ws' → ws = ws' := by
  induction ds with
  | nil =>
    intro lane ws ws' _ _ h1 h2 _
    rw [List.length_eq_zero_iff.1 h1, List.length_eq_zero_iff.1 h2]
  | cons x ds ih =>
    intro lane ws ws' hn hd h1 h2 h
    obtain ⟨w, ws, rfl⟩ := List.exists_cons_of_length_eq_add_one h1
    obtain ⟨w', ws', rfl⟩ := List.exists_cons_of_length_eq_add_one h2
    rw [List.map_cons, List.nodup_cons] at hn
    have hx := hd x List.mem_cons_self
    rw [load, load] at h
    have e := congrArg (fun l : List W => l.getD x.1 0) h
    rw [load_other _ _ _ _ hn.1, load_other _ _ _ _ hn.1] at e
    unfold mergeReg at e
    rw [getD_set_self _ _ _ hx.1, getD_set_self _ _ _ hx.1] at e
    have hw := (merge_data _ x.2 hx.2).1 _ _ e
    subst hw
    rw [ih (mergeReg lane x.1 w x.2) ws ws' hn.2 (by
      intro d hd'
      rw [mergeReg_length]
      exact hd d (List.mem_cons_of_mem _ hd')) (by simpa using h1) (by simpa using h2) h]

/-- a register that is loaded can have any contents before, if the word is chosen to match -/
theorem load_adjust (ds : List (Nat × Nat)) : ∀ (lane ws : List W) (d : Nat) (x : W), d ∈ ds.map Prod.fst →
    (∀ e ∈ ds, e.1 < lane.length ∧ e.2 < 2 ^ 32) → ws.length = ds.length →
    ∃ ws', ws'.length = ds.length ∧ load (lane.set d x) ds ws' = load lane ds ws := by
  induction ds with
  | nil => intro lane ws d x h; exact absurd h List.not_mem_nil
  | cons y ds ih =>
    intro lane ws d x hm hd h1
    obtain ⟨w, ws, rfl⟩ := List.exists_cons_of_length_eq_add_one h1
    have hy := hd y List.mem_cons_self
    by_cases e : y.1 = d
    · obtain ⟨w', hw'⟩ := (merge_data x y.2 hy.2).2 (merge (lane.getD y.1 0) w y.2)
      refine ⟨w' :: ws, by simpa using h1, ?_⟩
      rw [load, load]
      congr 1
      unfold mergeReg
      rw [← e, getD_set_self _ _ _ hy.1, hw', List.set_set]
    · have hm' : d ∈ ds.map Prod.fst := by
        rw [List.map_cons, List.mem_cons] at hm
        rcases hm with h | h
        · exact absurd h.symm e
        · exact h
      obtain ⟨ws', h2, h3⟩ := ih (mergeReg lane y.1 w y.2) ws d x hm' (by
        intro d hd'
        rw [mergeReg_length]
        exact hd d (List.mem_cons_of_mem _ hd')) (by simpa using h1)
      refine ⟨w :: ws', by simpa using h2, ?_⟩
      rw [load, load, ← h3]
      congr 1
      unfold mergeReg
      rw [getD_set_ne _ _ _ _ (Ne.symm e), List.set_comm _ _ (Ne.symm e)]

/-- if register 0 is loaded twice, other words have the same effect -/
theorem load_ambiguous (s : Nat) (t : List (Nat × Nat)) (lane ws : List W) (h0 : 0 ∈ t.map Prod.fst)
    (hd : ∀ e ∈ t, e.1 < lane.length ∧ e.2 < 2 ^ 32) (h1 : ws.length = t.length + 1) :
    ∃ ws', ws'.length = t.length + 1 ∧ ws' ≠ ws ∧ load lane ((0, s) :: t) ws' = load lane ((0, s) :: t) ws := by
  obtain ⟨w, ws, rfl⟩ := List.exists_cons_of_length_eq_add_one h1
  obtain ⟨ws', h2, h3⟩ := load_adjust t (mergeReg lane 0 w s) ws 0 (merge (lane.getD 0 0) (w + 1) s) h0 (by
    intro e he; rw [mergeReg_length]; exact hd e he) (by simpa using h1)
  refine ⟨(w + 1) :: ws', by simpa using h2, ?_, ?_⟩
  · intro h
    have : w + 1 = w := (List.cons.inj h).1
    have h4 := congrArg BitVec.toNat this
    rw [BitVec.toNat_add, show (1 : W).toNat = 1 from rfl] at h4
    have := w.isLt
    omega
  · rw [load, load, ← h3]
    congr 1
    unfold mergeReg
    rw [List.set_set]

end Verif.Progpow
