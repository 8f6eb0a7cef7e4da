import Verif.Spec.Work

/-! # Rules for `DeterminedBy` -/

set_option autoImplicit false

namespace Verif.Proof.Work

open Go Spec

variable {O ι β α γ σ : Type} {ask : O → ι → β} {n m : Nat}

theorem const (x : α) : DeterminedBy ask 0 (fun _ => x) := fun _ => ⟨[], Nat.le_refl _, fun _ _ => rfl⟩

theorem mono {f : O → α} (h : DeterminedBy ask n f) (hm : n ≤ m) : DeterminedBy ask m f := fun o => by
  obtain ⟨S, hS, hd⟩ := h o
  exact ⟨S, Nat.le_trans hS hm, hd⟩

theorem asks (q : ι) : DeterminedBy ask 1 (fun o => ask o q) := fun _ => ⟨[q], Nat.le_refl _, fun _ h => h q (List.mem_singleton.mpr rfl)⟩

/-- a value that has been determined is passed on -/
theorem app {f : O → α} {k : α → O → γ} (hf : DeterminedBy ask n f) (hk : ∀ a, DeterminedBy ask m (k a)) :
    DeterminedBy ask (n + m) (fun o => k (f o) o) := fun o => by
  obtain ⟨S, hS, hd⟩ := hf o
  obtain ⟨T, hT, he⟩ := hk (f o) o
  refine ⟨S ++ T, ?_, fun o' h => ?_⟩
  · rw [List.length_append]
    exact Nat.add_le_add hS hT
  · show k (f o') o' = k (f o) o
    rw [hd o' fun q hq => h q (List.mem_append_left _ hq)]
    exact he o' fun q hq => h q (List.mem_append_right _ hq)

theorem map {f : O → α} (k : α → γ) (hf : DeterminedBy ask n f) : DeterminedBy ask n (fun o => k (f o)) :=
  app (m := 0) hf fun _ => const _

/-- the same, where only the values that do occur matter -/
theorem app_of {f : O → α} {k : α → O → γ} (hf : DeterminedBy ask n f) (hk : ∀ o, DeterminedBy ask m (k (f o))) :
    DeterminedBy ask (n + m) (fun o => k (f o) o) := fun o => by
  obtain ⟨S, hS, hd⟩ := hf o
  obtain ⟨T, hT, he⟩ := hk o o
  refine ⟨S ++ T, ?_, fun o' h => ?_⟩
  · rw [List.length_append]
    exact Nat.add_le_add hS hT
  · show k (f o') o' = k (f o) o
    rw [hd o' fun q hq => h q (List.mem_append_left _ hq)]
    exact he o' fun q hq => h q (List.mem_append_right _ hq)

theorem bind {f : O → Go α} {k : α → O → Go γ} (hf : DeterminedBy ask n f) (hk : ∀ a, DeterminedBy ask m (k a)) :
    DeterminedBy ask (n + m) (fun o => f o >>= fun a => k a o) :=
  app (k := fun r o => r >>= fun a => k a o) hf fun r => by
    cases r with
    | error e => exact mono (const (Except.error e)) (Nat.zero_le _)
    | ok a => exact hk a

theorem bind_of {f : O → Go α} {k : α → O → Go γ} (hf : DeterminedBy ask n f) (hk : ∀ o a, f o = .ok a → DeterminedBy ask m (k a)) :
    DeterminedBy ask (n + m) (fun o => f o >>= fun a => k a o) :=
  app_of (k := fun r o => r >>= fun a => k a o) hf fun o => by
    cases hr : f o with
    | error e => exact mono (const (Except.error e)) (Nat.zero_le _)
    | ok a => exact hk o a hr

theorem cond {c : Prop} [Decidable c] {f g : O → α} (hf : c → DeterminedBy ask n f) (hg : ¬ c → DeterminedBy ask m g) :
    DeterminedBy ask (max n m) (fun o => if c then f o else g o) := by
  by_cases h : c
  · simpa only [if_pos h] using mono (hf h) (Nat.le_max_left _ _)
  · simpa only [if_neg h] using mono (hg h) (Nat.le_max_right _ _)

/-- a condition of constant cost -/
theorem cond' {c : Prop} [Decidable c] {f g : O → α} (hf : DeterminedBy ask n f) (hg : DeterminedBy ask n g) :
    DeterminedBy ask n (fun o => if c then f o else g o) :=
  mono (cond (c := c) (fun _ => hf) (fun _ => hg)) (by omega)

theorem loop_of (I : σ → Prop) {f : O → Nat → σ → Go σ} (hf : ∀ i s, I s → DeterminedBy ask n (fun o => f o i s))
    (hI : ∀ o i s s', I s → f o i s = .ok s' → I s') (k : Nat) :
    ∀ i s, I s → DeterminedBy ask (k * n) (fun o => loop k i s (f o)) := by
  induction k with
  | zero => exact fun i s _ => mono (const _) (Nat.zero_le _)
  | succ k ih =>
    intro i s hs
    refine mono (n := n + k * n) ?_ (by rw [Nat.succ_mul, Nat.add_comm]; exact Nat.le_refl _)
    show DeterminedBy ask _ (fun o => f o i s >>= fun s' => loop k (i + 1) s' (f o))
    exact bind_of (hf i s hs) fun o s' h => ih (i + 1) s' (hI o i s s' hs h)

theorem forRange_of (I : σ → Prop) {f : O → Nat → σ → Go σ} (hf : ∀ i s, I s → DeterminedBy ask n (fun o => f o i s))
    (hI : ∀ o i s s', I s → f o i s = .ok s' → I s') (lo hi : Nat) (s : σ) (hs : I s) :
    DeterminedBy ask ((hi - lo) * n) (fun o => forRange lo hi s (f o)) :=
  loop_of I hf hI _ _ _ hs

theorem forRange {f : O → Nat → σ → Go σ} (hf : ∀ i s, DeterminedBy ask n (fun o => f o i s)) (lo hi : Nat) (s : σ) :
    DeterminedBy ask ((hi - lo) * n) (fun o => forRange lo hi s (f o)) :=
  forRange_of (fun _ => True) (fun i s _ => hf i s) (fun _ _ _ _ _ _ => trivial) lo hi s trivial

theorem loopE {f : O → Nat → σ → Go (Step σ γ)} (hf : ∀ i s, DeterminedBy ask n (fun o => f o i s)) (k : Nat) :
    ∀ i s, DeterminedBy ask (k * n) (fun o => loopE k i s (f o)) := by
  induction k with
  | zero => exact fun i s => mono (const _) (Nat.zero_le _)
  | succ k ih =>
    intro i s
    refine mono (n := n + k * n) ?_ (by rw [Nat.succ_mul, Nat.add_comm]; exact Nat.le_refl _)
    refine bind (k := fun (r : Step σ γ) o => match r with
      | .cont s' => Go.loopE k (i + 1) s' (f o)
      | .ret b => .ok (.ret b)) (hf i s) fun r => ?_
    cases r with
    | cont s' => exact ih (i + 1) s'
    | ret b => exact mono (const _) (Nat.zero_le _)

theorem forRangeE {f : O → Nat → σ → Go (Step σ γ)} (hf : ∀ i s, DeterminedBy ask n (fun o => f o i s)) (lo hi : Nat) (s : σ) :
    DeterminedBy ask ((hi - lo) * n) (fun o => forRangeE lo hi s (f o)) :=
  loopE hf _ _ _

/-- a function of a function, where the inner one is itself determined -/
theorem comp {κ : Type} {F : (κ → γ) → α} {g : O → κ → γ} (hF : DeterminedBy (fun (l : κ → γ) q => l q) n F)
    (hg : ∀ q, DeterminedBy ask m (fun o => g o q)) : DeterminedBy ask (n * m) (fun o => F (g o)) := fun o => by
  obtain ⟨S, hS, hd⟩ := hF (g o)
  refine ⟨S.flatMap fun q => (hg q o).choose, ?_, fun o' h => hd (g o') fun q hq => ?_⟩
  · refine Nat.le_trans ?_ (Nat.mul_le_mul_right m hS)
    clear hd hS
    induction S with
    | nil => simp
    | cons q S ih =>
      rw [List.flatMap_cons, List.length_append, List.length_cons, Nat.succ_mul, Nat.add_comm]
      exact Nat.add_le_add ih (hg q o).choose_spec.1
  · exact (hg q o).choose_spec.2 o' fun p hp => h p (List.mem_flatMap.mpr ⟨q, hq, hp⟩)

/-! ## What loops keep -/

theorem of_bind {x : Go α} {k : α → Go γ} {c : γ} (h : (x >>= k) = .ok c) : ∃ a, x = .ok a ∧ k a = .ok c := by
  cases x with
  | error e => cases h
  | ok a => exact ⟨a, rfl, h⟩

theorem loop_keeps (I : σ → Prop) {f : Nat → σ → Go σ} (hI : ∀ i s s', I s → f i s = .ok s' → I s') (k : Nat) :
    ∀ i s s', I s → loop k i s f = .ok s' → I s' := by
  induction k with
  | zero => exact fun i s s' hs h => Except.ok.inj h ▸ hs
  | succ k ih =>
    intro i s s' hs h
    obtain ⟨t, ht, h'⟩ := of_bind (x := f i s) h
    exact ih (i + 1) t s' (hI i s t hs ht) h'

theorem forRange_keeps (I : σ → Prop) {f : Nat → σ → Go σ} (hI : ∀ i s s', I s → f i s = .ok s' → I s') {lo hi : Nat} {s s' : σ} (hs : I s)
    (h : Go.forRange lo hi s f = .ok s') : I s' := loop_keeps I hI _ _ _ _ hs h

theorem upd_keeps {l l' : List α} {i : Nat} {a : α} (h : upd l i a = .ok l') : l'.length = l.length := by
  unfold upd at h
  by_cases hi : i < l.length
  · rw [if_pos hi] at h
    rw [← Except.ok.inj h, List.length_set]
  · rw [if_neg hi] at h
    cases h

/-! ## Evaluations of the hash functions -/

theorem blake2b256 (d : List Byte) : DeterminedBy evaluate 1 (fun P => P.blake2b256 d) := asks (ask := evaluate) (.blake2b256 d)

theorem keccak256 (d : List Byte) : DeterminedBy evaluate 1 (fun P => P.keccak256 d) := asks (ask := evaluate) (.keccak256 d)

theorem keccak512 (d : List Byte) : DeterminedBy evaluate 1 (fun P => P.keccak512 d) := asks (ask := evaluate) (.keccak512 d)

theorem blake2bRaw (d p : List Byte) (k : Nat) : DeterminedBy evaluate 1 (fun P => P.blake2bRaw d p k) :=
  asks (ask := evaluate) (.blake2b d p k)

theorem cshake256 (d p : List Byte) (k : Nat) : DeterminedBy evaluate 1 (fun P => P.cshake256 d p k) :=
  asks (ask := evaluate) (.cshake256 d p k)

end Verif.Proof.Work

/-- applies the rules for what does not depend on the object, and for sequences -/
macro "det" : tactic => `(tactic| repeat' (first | exact Verif.Proof.Work.const _ | refine Verif.Proof.Work.bind ?_ (fun _ => ?_)))
