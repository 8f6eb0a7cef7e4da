import Verif.Go.Bytes
import Verif.Go.Update

/-! # Byte buffers seen as arrays of fixed-size blocks or of words -/

set_option autoImplicit false

namespace Verif.Go

variable {α β σ τ : Type}

theorem flatten_length_const (w : Nat) : ∀ (rows : List (List α)), (∀ r ∈ rows, r.length = w) →
    rows.flatten.length = w * rows.length := by
  intro rows
  induction rows with
  | nil => intro _; simp
  | cons r rows ih =>
    intro h
    rw [List.flatten_cons, List.length_append, ih (fun x hx => h x (List.mem_cons_of_mem _ hx)), h r List.mem_cons_self,
      List.length_cons]
    ring

/-- taking the first blocks -/
theorem flatten_take (w : Nat) (rows : List (List α)) (h : ∀ r ∈ rows, r.length = w) (j : Nat) :
    rows.flatten.take (w * j) = (rows.take j).flatten := by
  induction rows generalizing j with
  | nil => simp
  | cons r rows ih =>
    cases j with
    | zero => simp
    | succ j =>
      have hr := h r List.mem_cons_self
      rw [List.flatten_cons, List.take_append, hr, List.take_of_length_le (by rw [hr, Nat.mul_succ]; omega),
        show w * (j + 1) - w = w * j by rw [Nat.mul_succ]; omega, ih (fun x hx => h x (List.mem_cons_of_mem _ hx)),
        List.take_succ_cons, List.flatten_cons]

/-- dropping the first blocks -/
theorem flatten_drop (w : Nat) (rows : List (List α)) (h : ∀ r ∈ rows, r.length = w) (j : Nat) :
    rows.flatten.drop (w * j) = (rows.drop j).flatten := by
  induction rows generalizing j with
  | nil => simp
  | cons r rows ih =>
    cases j with
    | zero => simp
    | succ j =>
      have hr := h r List.mem_cons_self
      rw [List.flatten_cons, List.drop_append, hr, List.drop_of_length_le (by rw [hr, Nat.mul_succ]; omega),
        show w * (j + 1) - w = w * j by rw [Nat.mul_succ]; omega, ih (fun x hx => h x (List.mem_cons_of_mem _ hx)),
        List.drop_succ_cons, List.nil_append]

/-- block `j` -/
theorem flatten_block (w : Nat) (rows : List (List α)) (h : ∀ r ∈ rows, r.length = w) (j : Nat) (hj : j < rows.length) :
    (rows.flatten.drop (w * j)).take w = rows[j] := by
  rw [flatten_drop w rows h, List.drop_eq_getElem_cons hj, List.flatten_cons, List.take_append_of_le_length, List.take_of_length_le]
  · rw [h _ (List.getElem_mem hj)]
  · rw [h _ (List.getElem_mem hj)]

/-- overwriting block `j` -/
theorem flatten_splice (w : Nat) (rows : List (List α)) (h : ∀ r ∈ rows, r.length = w) (j : Nat) (hj : j < rows.length) (d : List α) :
    rows.flatten.take (w * j) ++ d ++ rows.flatten.drop (w * j + w) = (rows.set j d).flatten := by
  rw [flatten_take w rows h, show w * j + w = w * (j + 1) by rw [Nat.mul_succ], flatten_drop w rows h,
    List.set_eq_take_append_cons_drop, if_pos hj]
  simp

theorem slc_block (w : Nat) (rows : List (List α)) (h : ∀ r ∈ rows, r.length = w) (j : Nat) (hj : j < rows.length) :
    slc rows.flatten (w * j) (w * j + w) = .ok rows[j] := by
  have hl := flatten_length_const w rows h
  have h1 : w * j + w ≤ w * rows.length := by rw [← Nat.mul_succ]; exact Nat.mul_le_mul_left _ hj
  rw [slc_ok _ _ _ (by omega) (by omega), List.drop_take, show w * j + w - w * j = w by omega, flatten_block w rows h j hj]

/-- a list whose length is a multiple of `w` as blocks -/
theorem eq_flatten_blocks (w n : Nat) (l : List α) (h : l.length = w * n) :
    l = ((List.range n).map fun i => (l.drop (w * i)).take w).flatten := by
  rw [← List.flatMap_def, flatMap_blocks w n l (by omega), List.take_of_length_le (by omega)]

/-- a loop on the image of a representation -/
theorem loop_map {f : Nat → τ → Go τ} {g : Nat → σ → Go σ} (φ : σ → τ) (I : Nat → σ → Prop) (n i : Nat) (s : σ) (h0 : I i s)
    (h : ∀ j s, i ≤ j → j < i + n → I j s → ∃ s', g j s = .ok s' ∧ f j (φ s) = .ok (φ s') ∧ I (j + 1) s') :
    ∃ s', loop n i s g = .ok s' ∧ loop n i (φ s) f = .ok (φ s') ∧ I (i + n) s' := by
  induction n generalizing i s with
  | zero => exact ⟨s, rfl, rfl, h0⟩
  | succ n ih =>
    obtain ⟨s1, e1, e2, h1⟩ := h i s (Nat.le_refl _) (by omega) h0
    obtain ⟨s', a, b, c⟩ := ih (i + 1) s1 h1 (fun j t h1 h2 => h j t (by omega) (by omega))
    refine ⟨s', ?_, ?_, by rwa [show i + (n + 1) = i + 1 + n by omega]⟩
    · simp only [loop]; rw [e1, ok_bind, a]
    · simp only [loop]; rw [e2, ok_bind, b]

/-! ## words -/

/-- the bytes of some words -/
def bytesLE (ws : List U32) : List Byte := ws.flatMap (leBytes 4)

theorem bytesLE_length (ws : List U32) : (bytesLE ws).length = 4 * ws.length :=
  flatMap_length_const _ 4 (fun a => by simp [leBytes]) ws

theorem bytesLE_blocks (ws : List U32) : ∀ r ∈ ws.map (leBytes 4), r.length = 4 := by
  intro r hr
  obtain ⟨x, _, rfl⟩ := List.mem_map.mp hr
  simp [leBytes]

theorem ofNat_leNat_leBytes (v : U32) : BitVec.ofNat 32 (leNat (leBytes 4 v)) = v :=
  ofNat_natOf_bytesOf .little (n := 4) v (by omega)

theorem leBytes_ofNat_leNat (a : List Byte) (h : a.length = 4) : leBytes 4 (BitVec.ofNat 32 (leNat a)) = a :=
  bytesOf_natOf .little a h (by omega)

/-- reading word `i` of a buffer, `order.Uint32(b[4*i:])` -/
theorem getU32_at (b : List Byte) (i : Nat) (h : 4 * i + 4 ≤ b.length) :
    (slc b (i * 4) b.length >>= getU32 .little) = .ok (BitVec.ofNat 32 (leNat ((b.drop (4 * i)).take 4))) := by
  rw [slc_ok _ _ _ (by omega) (Nat.le_refl _), ok_bind, List.take_length, getU32,
    if_pos (by rw [List.length_drop]; omega), Nat.mul_comm i 4]
  rfl

theorem word_bytesLE (ws : List U32) (i : Nat) (h : i < ws.length) :
    BitVec.ofNat 32 (leNat (((bytesLE ws).drop (4 * i)).take 4)) = ws[i] := by
  have := flatMap_block (leBytes (w := 32) 4) 4 (fun a => by simp [leBytes]) ws i h
  rw [bytesLE, this, ofNat_leNat_leBytes]

theorem putU32_bytesLE (ws : List U32) (i : Nat) (h : i < ws.length) (v : U32) :
    putU32 .little (bytesLE ws) (i * 4) v = .ok (bytesLE (ws.set i v)) := by
  have hl := bytesLE_length ws
  rw [putU32, if_neg (by omega), if_neg (by omega), Nat.mul_comm i 4]
  refine congrArg Except.ok ?_
  have := flatten_splice 4 (ws.map (leBytes 4)) (bytesLE_blocks ws) i (by simpa using h) (leBytes 4 v)
  simp only [bytesLE, List.flatMap_def]
  show _ ++ leBytes 4 v ++ _ = _
  rw [this, List.map_set]

theorem bytesLE_replicate (n : Nat) : bytesLE (List.replicate n 0) = List.replicate (4 * n) 0 := by
  apply List.ext_getElem
  · rw [bytesLE_length]; simp
  · intro i h1 h2
    have hm : (bytesLE (List.replicate n 0))[i] ∈ bytesLE (List.replicate n 0) := List.getElem_mem h1
    have hm := List.mem_flatMap.mp hm
    obtain ⟨a, ha, hb⟩ := hm
    rw [(List.mem_replicate.mp ha).2] at hb
    have : leBytes 4 (0 : U32) = List.replicate 4 0 := by decide
    rw [this] at hb
    rw [(List.mem_replicate.mp hb).2, List.getElem_replicate]

end Verif.Go
