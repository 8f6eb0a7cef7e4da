import Verif.Go.Lemmas

/-! # Loops that overwrite a slice element by element -/

set_option autoImplicit false

namespace Verif.Go

variable {α : Type}

/-- `for i := 0; i < n; i++ { l[i] = g(i, l[i]) }`, where the body may look at the not yet overwritten element `i`. -/
theorem forRange_update {f : Nat → List α → Go (List α)} (g : Nat → α → α) (n : Nat) (l : List α) (hn : n ≤ l.length)
    (hf : ∀ i m x, i < n → m.length = l.length → m[i]? = some x → l[i]? = some x → f i m = .ok (m.set i (g i x))) :
    forRange 0 n l f = .ok (l.mapIdx fun i x => if i < n then g i x else x) := by
  obtain ⟨m, e, hlen, hm⟩ := forRange_inv (f := f)
    (fun i m => m.length = l.length ∧ ∀ j, m[j]? = if j < i then (l[j]?).map (g j) else l[j]?)
    0 n l (by omega) ⟨rfl, by simp⟩ (by
      rintro i m _ hi ⟨hl, hm⟩
      have hli : l[i]? = some (l[i]'(by omega)) := List.getElem?_eq_getElem (by omega)
      have hmi := hm i
      rw [if_neg (by omega), hli] at hmi
      refine ⟨_, hf i m _ hi hl hmi hli, by simpa using hl, ?_⟩
      intro j
      by_cases hj : j = i
      · subst hj
        rw [List.getElem?_set_self (by omega), if_pos (by omega), hli]; rfl
      · rw [List.getElem?_set_ne (by omega), hm j]
        by_cases h1 : j < i
        · rw [if_pos h1, if_pos (by omega)]
        · rw [if_neg h1, if_neg (by omega)])
  rw [e]
  congr 1
  apply List.ext_getElem?
  intro j
  rw [hm j, List.getElem?_mapIdx]
  by_cases hj : j < n
  · simp [hj]
  · simp only [hj, if_false]; cases l[j]? <;> rfl

/-- `for i := lo; i < n; i++ { l[i] = g(i, l[i]) }`, where the body may look at the whole slice. -/
theorem forRange_updateFrom {f : Nat → List α → Go (List α)} (g : Nat → α → α) (lo n : Nat) (l : List α) (hlo : lo ≤ n)
    (hn : n ≤ l.length)
    (hf : ∀ i m x, lo ≤ i → i < n → m.length = l.length →
      (∀ j, m[j]? = if lo ≤ j ∧ j < i then (l[j]?).map (g j) else l[j]?) → m[i]? = some x → l[i]? = some x →
      f i m = .ok (m.set i (g i x))) :
    forRange lo n l f = .ok (l.mapIdx fun i x => if lo ≤ i ∧ i < n then g i x else x) := by
  obtain ⟨m, e, hlen, hm⟩ := forRange_inv (f := f)
    (fun i m => m.length = l.length ∧ ∀ j, m[j]? = if lo ≤ j ∧ j < i then (l[j]?).map (g j) else l[j]?)
    lo n l hlo ⟨rfl, by intro j; rw [if_neg (by omega)]⟩ (by
      rintro i m hli hi ⟨hl, hm⟩
      have hli' : l[i]? = some (l[i]'(by omega)) := List.getElem?_eq_getElem (by omega)
      have hmi := hm i
      rw [if_neg (by omega), hli'] at hmi
      refine ⟨_, hf i m _ hli hi hl hm hmi hli', by simpa using hl, ?_⟩
      intro j
      by_cases hj : j = i
      · subst hj
        rw [List.getElem?_set_self (by omega), if_pos (by omega), hli']; rfl
      · rw [List.getElem?_set_ne (by omega), hm j]
        by_cases h1 : lo ≤ j ∧ j < i
        · rw [if_pos h1, if_pos (by omega)]
        · rw [if_neg h1, if_neg (by omega)])
  rw [e]
  congr 1
  apply List.ext_getElem?
  intro j
  rw [hm j, List.getElem?_mapIdx]
  by_cases hj : lo ≤ j ∧ j < n
  · simp [hj]
  · simp only [hj, if_false]; cases l[j]? <;> rfl

/-- `for i := 0; i < n; i++ { l[i] = v(i) }` filling a slice of length `n` -/
theorem forRange_fill {f : Nat → List α → Go (List α)} (v : Nat → α) (n : Nat) (l : List α) (hn : l.length = n)
    (hf : ∀ i m, i < n → m.length = n → (∀ j, j < i → m[j]? = some (v j)) → f i m = .ok (m.set i (v i))) :
    forRange 0 n l f = .ok ((List.range n).map v) := by
  obtain ⟨m, e, hlen, hm⟩ := forRange_inv (f := f)
    (fun i m => m.length = n ∧ ∀ j, j < i → m[j]? = some (v j))
    0 n l (by omega) ⟨hn, by intros; omega⟩ (by
      rintro i m _ hi ⟨hl, hm⟩
      refine ⟨_, hf i m hi hl hm, by simpa using hl, ?_⟩
      intro j hj
      by_cases h : j = i
      · subst h
        rw [List.getElem?_set_self (by omega)]
      · rw [List.getElem?_set_ne (by omega), hm j (by omega)])
  rw [e]
  congr 1
  apply List.ext_getElem (by simpa using hlen)
  intro j h1 h2
  have := hm j (by omega)
  rw [List.getElem?_eq_getElem h1] at this
  simpa using this

end Verif.Go
