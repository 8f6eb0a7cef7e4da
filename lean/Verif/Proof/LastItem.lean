import Verif.Proof.Hashimoto
import Verif.Proof.ProgpowItem

/-! # Lists that differ in one place, through FNV, the loads of ProgPoW and the reductions (for C101) -/

set_option autoImplicit false

namespace Verif.LastItem

abbrev W := BitVec 32

/-! ### FNV -/

theorem prime_inv (a : W) : a * 0x01000193 * 0x359c449b = a := by
  rw [BitVec.mul_assoc, show (0x01000193 : W) * 0x359c449b = 1#32 from by decide, BitVec.mul_one]

theorem mul_prime {a a' : W} (h : a * 0x01000193 = a' * 0x01000193) : a = a' := by
  rw [← prime_inv a, h, prime_inv]

theorem xor_right {a a' b : W} (h : a ^^^ b = a' ^^^ b) : a = a' := by
  rw [← Progpow.xor_cancel a b, h, Progpow.xor_cancel]

theorem xor_left {a b b' : W} (h : a ^^^ b = a ^^^ b') : b = b' := by
  rw [BitVec.xor_comm a b, BitVec.xor_comm a b'] at h
  exact xor_right h

theorem fnv_left {a a' b : W} (h : Spec.Ethash.fnv a b = Spec.Ethash.fnv a' b) : a = a' := mul_prime (xor_right h)

theorem fnv_right {a b b' : W} (h : Spec.Ethash.fnv a b = Spec.Ethash.fnv a b') : b = b' := xor_left h

theorem fnv1a_left {a a' b : W} (h : Spec.Progpow.fnv1a a b = Spec.Progpow.fnv1a a' b) : a = a' := xor_right (mul_prime h)

theorem fnv1a_right {a b b' : W} (h : Spec.Progpow.fnv1a a b = Spec.Progpow.fnv1a a b') : b = b' := xor_left (mul_prime h)

/-! ### one place -/

theorem getD_set (l : List W) (d i : Nat) (x : W) (hd : d < l.length) : (l.set d x).getD i 0 = if i = d then x else l.getD i 0 := by
  by_cases h : i = d
  · rw [if_pos h, h, List.getD_eq_getElem?_getD, List.getElem?_set_self hd]; rfl
  · rw [if_neg h, List.getD_eq_getElem?_getD, List.getElem?_set_ne (Ne.symm h), ← List.getD_eq_getElem?_getD]

theorem foldl_left (f : W → W → W) (hl : ∀ a a' b, f a b = f a' b → a = a') : ∀ (l : List W) (h h' : W), l.foldl f h = l.foldl f h' → h = h'
  | [], _, _, e => e
  | x :: l, h, h', e => hl h h' x (foldl_left f hl l _ _ e)

theorem foldl_set (f : W → W → W) (hl : ∀ a a' b, f a b = f a' b → a = a') (hr : ∀ a b b', f a b = f a b' → b = b') :
    ∀ (l : List W) (d : Nat) (x h : W), d < l.length → x ≠ l.getD d 0 → (l.set d x).foldl f h ≠ l.foldl f h
  | [], _, _, _, hd, _ => absurd hd (Nat.not_lt_zero _)
  | a :: l, 0, x, h, _, hx => fun e => hx (hr h x a (foldl_left f hl l _ _ e))
  | a :: l, d + 1, x, h, hd, hx => fun e => foldl_set f hl hr l d x (f h a) (Nat.lt_of_succ_lt_succ hd) hx e

theorem zipWith_set (f : W → W → W) : ∀ (m l : List W) (d : Nat) (x : W), List.zipWith f m (l.set d x) = (List.zipWith f m l).set d (f (m.getD d 0) x)
  | [], _, _, _ => by simp
  | _ :: _, [], _, _ => by simp
  | _ :: _, _ :: _, 0, _ => rfl
  | b :: m, a :: l, d + 1, x => by
    have := zipWith_set f m l d x
    simp only [List.set_cons_succ, List.zipWith_cons_cons, this, List.getD_cons_succ]

/-! ### loads -/

theorem merge_reg {a a' b : W} (s : Nat) (hs : s < 2 ^ 32) (h : Spec.Progpow.merge a b s = Spec.Progpow.merge a' b s) : a = a' := by
  have e : (BitVec.ofNat 32 s).toNat = s := by rw [BitVec.toNat_ofNat, Nat.mod_eq_of_lt hs]
  have h1 := Progpow.unmerge_merge a b (BitVec.ofNat 32 s)
  have h2 := Progpow.unmerge_merge a' b (BitVec.ofNat 32 s)
  rw [Progpow.randomMerge_eq, e] at h1 h2
  rw [← h1, ← h2, h]

open Spec.Progpow (load mergeReg merge)

theorem load_reg : ∀ (ds : List (Nat × Nat)) (lane ws : List W) (d : Nat) (x : W), d < lane.length → x ≠ lane.getD d 0 → (∀ e ∈ ds, e.2 < 2 ^ 32) →
    ∃ y, y ≠ (load lane ds ws).getD d 0 ∧ load (lane.set d x) ds ws = (load lane ds ws).set d y
  | [], lane, ws, d, x, _, hx, _ => ⟨x, by cases ws <;> exact hx, by cases ws <;> rfl⟩
  | (_, _) :: _, lane, [], d, x, _, hx, _ => ⟨x, hx, rfl⟩
  | (e, s) :: ds, lane, w :: ws, d, x, hd, hx, hs => by
    have hs0 : s < 2 ^ 32 := hs (e, s) List.mem_cons_self
    have hs1 : ∀ e ∈ ds, e.2 < 2 ^ 32 := fun e he => hs e (List.mem_cons_of_mem _ he)
    have hd' : d < (mergeReg lane e w s).length := by rw [Progpow.mergeReg_length]; exact hd
    rw [load, load]
    by_cases he : e = d
    · have e1 : mergeReg (lane.set d x) e w s = (mergeReg lane e w s).set d (merge x w s) := by
        unfold mergeReg
        rw [he, getD_set lane d d x hd, if_pos rfl, List.set_set, List.set_set]
      rw [e1]
      refine load_reg ds _ ws d _ hd' ?_ hs1
      unfold mergeReg
      rw [he, getD_set lane d d _ hd, if_pos rfl]
      exact fun h => hx (merge_reg s hs0 h)
    · have e1 : mergeReg (lane.set d x) e w s = (mergeReg lane e w s).set d x := by
        unfold mergeReg
        rw [getD_set lane d e x hd, if_neg he, List.set_comm _ _ (Ne.symm he)]
      rw [e1]
      refine load_reg ds _ ws d _ hd' ?_ hs1
      unfold mergeReg
      by_cases hel : e < lane.length
      · rw [getD_set lane e d _ hel, if_neg (Ne.symm he)]; exact hx
      · rw [List.set_eq_of_length_le (by omega)]; exact hx

/-- a change of one word shows in exactly one register -/
theorem load_word : ∀ (ds : List (Nat × Nat)) (lane ws : List W) (i : Nat) (x : W), ws.length = ds.length → i < ws.length → x ≠ ws.getD i 0 →
    (∀ e ∈ ds, e.1 < lane.length ∧ e.2 < 2 ^ 32) →
    ∃ d y, d < lane.length ∧ y ≠ (load lane ds ws).getD d 0 ∧ load lane ds (ws.set i x) = (load lane ds ws).set d y
  | _, _, [], _, _, _, hi, _, _ => absurd hi (Nat.not_lt_zero _)
  | [], _, _ :: _, _, _, hl, _, _, _ => absurd hl (by simp)
  | (e, s) :: ds, lane, w :: ws, 0, x, _, _, hx, hb => by
    obtain ⟨he, hs0⟩ := hb (e, s) List.mem_cons_self
    rw [List.set_cons_zero, load, load]
    have e1 : mergeReg lane e x s = (mergeReg lane e w s).set e (merge (lane.getD e 0) x s) := by
      unfold mergeReg
      rw [List.set_set]
    rw [e1]
    obtain ⟨y, h1, h2⟩ := load_reg ds (mergeReg lane e w s) ws e (merge (lane.getD e 0) x s) (by rw [Progpow.mergeReg_length]; exact he) (by
      unfold mergeReg
      rw [getD_set lane e e _ he, if_pos rfl]
      exact fun h => hx ((Progpow.merge_data _ s hs0).1 _ _ h)) (fun d hd => (hb d (List.mem_cons_of_mem _ hd)).2)
    exact ⟨e, y, he, h1, h2⟩
  | (e, s) :: ds, lane, w :: ws, i + 1, x, hl, hi, hx, hb => by
    rw [List.set_cons_succ, load, load]
    obtain ⟨d, y, h0, h1, h2⟩ := load_word ds (mergeReg lane e w s) ws i x (by simpa using hl) (Nat.lt_of_succ_lt_succ hi) hx (fun d hd => by
      rw [Progpow.mergeReg_length]
      exact hb d (List.mem_cons_of_mem _ hd))
    exact ⟨d, y, by rw [Progpow.mergeReg_length] at h0; exact h0, h1, h2⟩

/-! ### reductions -/

theorem foldl_pair (lane : List W) (i : Nat) (hi : i < 8) (h : W) :
    ((List.range 16).filter fun l => l % 8 = i).foldl (fun h l => Spec.Progpow.fnv1a h (lane.getD l 0)) h =
      Spec.Progpow.fnv1a (Spec.Progpow.fnv1a h (lane.getD i 0)) (lane.getD (i + 8) 0) := by
  have key : ((List.range 16).filter fun l => decide (l % 8 = i)) = [i, i + 8] := by
    have : ∀ i < 8, ((List.range 16).filter fun l => decide (l % 8 = i)) = [i, i + 8] := by decide
    exact this i hi
  rw [key]
  rfl

/-- the hash of a lane -/
def laneHash (regs : List W) : W := regs.foldl Spec.Progpow.fnv1a Spec.Progpow.fnvBasis

theorem digest_getD (mix : List (List W)) (i : Nat) (hi : i < 8) : (Spec.Progpow.digest Spec.Progpow.standard mix).getD i 0 =
    Spec.Progpow.fnv1a (Spec.Progpow.fnv1a Spec.Progpow.fnvBasis ((mix.map laneHash).getD i 0)) ((mix.map laneHash).getD (i + 8) 0) := by
  unfold Spec.Progpow.digest
  rw [show Spec.Progpow.standard.lanes = 16 from rfl, List.getD_eq_getElem?_getD, List.getElem?_map, List.getElem?_range hi]
  exact foldl_pair (mix.map laneHash) i hi _

/-- a change of one register shows in exactly one word of the digest -/
theorem digest_word (mix : List (List W)) (l d : Nat) (y : W) (hm : mix.length = 16) (hl : l < 16) (hd : d < (mix.getD l []).length)
    (hy : y ≠ (mix.getD l []).getD d 0) (i : Nat) (hi : i < 8) :
    (Spec.Progpow.digest Spec.Progpow.standard (mix.set l ((mix.getD l []).set d y))).getD i 0 = (Spec.Progpow.digest Spec.Progpow.standard mix).getD i 0 ↔
      i ≠ l % 8 := by
  have hlen : l < (mix.map laneHash).length := by rw [List.length_map, hm]; exact hl
  have hne : laneHash ((mix.getD l []).set d y) ≠ (mix.map laneHash).getD l 0 := by
    have : (mix.map laneHash).getD l 0 = laneHash (mix.getD l []) := by
      have hl' : l < mix.length := by omega
      rw [List.getD_eq_getElem?_getD, List.getElem?_map, List.getD_eq_getElem?_getD, List.getElem?_eq_getElem hl']
      rfl
    rw [this]
    unfold laneHash
    exact foldl_set Spec.Progpow.fnv1a (fun a a' b h => fnv1a_left (a := a) (a' := a') (b := b) h)
      (fun a b b' h => fnv1a_right (a := a) (b := b) (b' := b') h) (mix.getD l []) d y Spec.Progpow.fnvBasis hd hy
  rw [digest_getD _ i hi, digest_getD _ i hi, List.map_set, getD_set _ _ _ _ hlen, getD_set _ _ _ _ hlen]
  by_cases h1 : i = l
  · rw [if_pos h1, if_neg (by omega)]
    refine ⟨fun h => absurd (fnv1a_right (fnv1a_left h)) ?_, fun h => absurd h (by omega)⟩
    rw [h1]; exact hne
  · by_cases h2 : i + 8 = l
    · rw [if_neg h1, if_pos h2]
      refine ⟨fun h => absurd (fnv1a_right h) ?_, fun h => absurd h (by omega)⟩
      rw [h2]; exact hne
    · rw [if_neg h1, if_neg h2]
      exact ⟨fun _ => by omega, fun _ => rfl⟩

/-- four words into one -/
theorem four_word (mix : List W) (d : Nat) (y : W) (hd : d < mix.length) (hy : y ≠ mix.getD d 0) (i : Nat) :
    Spec.Ethash.fnv (Spec.Ethash.fnv (Spec.Ethash.fnv ((mix.set d y).getD (4 * i) 0) ((mix.set d y).getD (4 * i + 1) 0)) ((mix.set d y).getD (4 * i + 2) 0))
        ((mix.set d y).getD (4 * i + 3) 0) =
      Spec.Ethash.fnv (Spec.Ethash.fnv (Spec.Ethash.fnv (mix.getD (4 * i) 0) (mix.getD (4 * i + 1) 0)) (mix.getD (4 * i + 2) 0)) (mix.getD (4 * i + 3) 0) ↔
      i ≠ d / 4 := by
  rw [getD_set _ _ _ _ hd, getD_set _ _ _ _ hd, getD_set _ _ _ _ hd, getD_set _ _ _ _ hd]
  by_cases h0 : 4 * i = d
  · rw [if_pos h0, if_neg (by omega), if_neg (by omega), if_neg (by omega)]
    exact ⟨fun h => absurd (fnv_left (fnv_left (fnv_left h))) (by rw [h0]; exact hy), fun h => absurd h (by omega)⟩
  by_cases h1 : 4 * i + 1 = d
  · rw [if_neg h0, if_pos h1, if_neg (by omega), if_neg (by omega)]
    exact ⟨fun h => absurd (fnv_right (fnv_left (fnv_left h))) (by rw [h1]; exact hy), fun h => absurd h (by omega)⟩
  by_cases h2 : 4 * i + 2 = d
  · rw [if_neg h0, if_neg h1, if_pos h2, if_neg (by omega)]
    exact ⟨fun h => absurd (fnv_right (fnv_left h)) (by rw [h2]; exact hy), fun h => absurd h (by omega)⟩
  by_cases h3 : 4 * i + 3 = d
  · rw [if_neg h0, if_neg h1, if_neg h2, if_pos h3]
    exact ⟨fun h => absurd (fnv_right h) (by rw [h3]; exact hy), fun h => absurd h (by omega)⟩
  rw [if_neg h0, if_neg h1, if_neg h2, if_neg h3]
  exact ⟨fun _ => by omega, fun _ => rfl⟩

end Verif.LastItem
