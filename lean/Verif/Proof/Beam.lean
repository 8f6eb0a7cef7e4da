import Verif.Model.Beam
import Verif.Spec.Beam
import Verif.Proof.Siphash
import Verif.Proof.Wagner
import Verif.Proof.Pairing
import Verif.Proof.SpecBytes
import Verif.Go.Update
import Verif.Proof.EquihashLeaf
import Mathlib.Tactic.Ring
import Mathlib.Tactic.IntervalCases

/-! # BeamHash III: the model computes the specification -/

set_option autoImplicit false

namespace Verif.Beam

open Go Spec Spec.Beam Spec.Wagner Pairing

/-! ### decoding -/

theorem reverseBytes_eq (b : List Byte) : reverseBytes b = .ok b.reverse := by
  obtain ⟨m, e, hl, hm⟩ := forRange_inv (f := swapStep)
    (fun i m => m.length = b.length ∧ ∀ j < b.length, m[j]? = if j < i ∨ b.length - 1 - j < i then b[b.length - 1 - j]? else b[j]?)
    0 (b.length / 2) b (by omega) ⟨rfl, by intros; simp⟩ (by
      rintro i m _ hi ⟨hl, hm⟩
      have h1 : i < m.length := by omega
      have h2 : m.length - 1 - i < m.length := by omega
      have e1 : m[i] = b[i] := by
        have := hm i (by omega)
        rw [if_neg (by omega), List.getElem?_eq_getElem h1, List.getElem?_eq_getElem (by omega)] at this
        simpa using this
      have e2 : m[m.length - 1 - i] = b[b.length - 1 - i] := by
        have := hm (m.length - 1 - i) (by omega)
        rw [if_neg (by omega), List.getElem?_eq_getElem h2, List.getElem?_eq_getElem (by omega)] at this
        simpa [hl] using this
      refine ⟨(m.set i b[b.length - 1 - i]).set (m.length - 1 - i) b[i], ?_, by simpa using hl, ?_⟩
      · simp only [swapStep]
        rw [idx_ok _ _ h1, ok_bind, idx_ok _ _ h2, ok_bind, upd_ok _ _ _ h1, ok_bind, upd_ok _ _ _ (by simp; omega)]
        simp [e1, e2]
      · intro j hj
        by_cases c1 : m.length - 1 - i = j
        · subst c1
          rw [List.getElem?_set_self (by simp; omega), if_pos (by omega), List.getElem?_eq_getElem (by omega)]
          congr 2; omega
        · rw [List.getElem?_set_ne c1]
          by_cases c2 : i = j
          · subst c2
            rw [List.getElem?_set_self (by omega), if_pos (by omega), List.getElem?_eq_getElem (by omega)]
          · rw [List.getElem?_set_ne c2, hm j hj]
            by_cases c3 : j < i ∨ b.length - 1 - j < i
            · rw [if_pos c3, if_pos (by omega)]
            · rw [if_neg c3, if_neg (by omega)])
  unfold reverseBytes
  rw [e]
  congr 1
  apply List.ext_getElem?
  intro j
  by_cases hj : j < b.length
  · rw [hm j hj, List.getElem?_reverse hj]
    by_cases c : j < b.length / 2 ∨ b.length - 1 - j < b.length / 2
    · rw [if_pos c]
    · rw [if_neg c]; congr 1; omega
  · rw [List.getElem?_eq_none (by omega), List.getElem?_eq_none (by simp; omega)]

theorem index_loop (N n : Nat) : ∃ s : Nat × List U32, forRange 0 n (N, List.replicate n (0 : U32)) indexStep = .ok s ∧
    s.2.length = n ∧ ∀ j < n, s.2[j]? = some (BitVec.ofNat 32 (N / 2 ^ (25 * j) % 2 ^ 25)) := by
  obtain ⟨s, e, _, hs2, hs3⟩ := forRange_inv (f := indexStep)
    (fun i s => s.1 = N / 2 ^ (25 * i) ∧ s.2.length = n ∧ ∀ j < i, s.2[j]? = some (BitVec.ofNat 32 (N / 2 ^ (25 * j) % 2 ^ 25)))
    0 n (N, List.replicate n (0 : U32)) (by omega) ⟨by simp, by simp, by intros; omega⟩ (by
      rintro i s _ hi ⟨h1, h2, h3⟩
      refine ⟨(s.1 >>> 25, s.2.set i (BitVec.ofNat 32 (N / 2 ^ (25 * i) % 2 ^ 25))), ?_, ?_, by simpa using h2, ?_⟩
      · simp only [indexStep]
        have hm : s.1 &&& indexMask = N / 2 ^ (25 * i) % 2 ^ 25 := by
          rw [← h1]; exact Nat.and_two_pow_sub_one_eq_mod s.1 25
        rw [upd_ok _ _ _ (by omega), ok_bind, hm]
        rfl
      · simp only
        rw [h1, Nat.shiftRight_eq_div_pow, Nat.div_div_eq_div_mul, ← Nat.pow_add, Nat.mul_add, Nat.mul_one]
      · intro j hj
        by_cases c : i = j
        · subst c
          rw [List.getElem?_set_self (by omega)]
        · rw [List.getElem?_set_ne c, h3 j (by omega)])
  exact ⟨s, e, hs2, hs3⟩

theorem indices_eq (soln : List Byte) (hl : soln.length = 104) :
    indicesFromMinimal soln = .ok ((indices soln).map (BitVec.ofNat 32)) := by
  obtain ⟨s, e, hs2, hs3⟩ := index_loop (beNat (soln.take 100).reverse) 32
  have hNle : leValue (soln.take 100) = beNat (soln.take 100).reverse := by rw [leValue_eq, beNat_reverse]
  have h0 : indicesFromMinimal soln = .ok s.2 := by
    unfold indicesFromMinimal
    rw [slc_ok _ _ _ (by omega) (by omega), ok_bind, reverseBytes_eq, ok_bind, List.drop_zero, e, ok_bind]
    rfl
  rw [h0]
  refine congrArg Except.ok ?_
  apply List.ext_getElem?
  intro j
  by_cases hj : j < 32
  · rw [hs3 j hj, List.getElem?_map, indices, List.getElem?_map, List.getElem?_range hj]
    simp only [Option.map_some, bitGroupLE]
    rw [hNle, Nat.mul_comm j 25]
  · rw [List.getElem?_eq_none (by omega), List.getElem?_eq_none (by rw [List.length_map, indices, List.length_map, List.length_range]; omega)]

theorem indices_length (soln : List Byte) : (indices soln).length = 2 ^ 5 := by simp [indices]

theorem indices_lt (soln : List Byte) : ∀ i ∈ indices soln, i < 2 ^ 25 := by
  intro i hi
  simp only [indices, List.mem_map, List.mem_range] at hi
  obtain ⟨j, _, rfl⟩ := hi
  exact Nat.mod_lt _ (Nat.two_pow_pos _)

/-! ### leaves -/

theorem shl_or (a k : Nat) (v : U64) (hk : k = 64) : a <<< k ||| v.toNat = a * 2 ^ 64 + v.toNat := by
  subst hk
  rw [← Nat.shiftLeft_add_eq_or_of_lt v.isLt, Nat.shiftLeft_eq]

theorem msg_eq (i t : Nat) (hi : i < 2 ^ 25) :
    ((BitVec.ofNat 32 i).setWidth 64) <<< 3 + BitVec.ofNat 64 t = BitVec.ofNat 64 (8 * i + t) := by
  apply BitVec.eq_of_toNat_eq
  simp only [BitVec.toNat_add, BitVec.toNat_shiftLeft, BitVec.toNat_setWidth, BitVec.toNat_ofNat, Nat.shiftLeft_eq]
  omega

theorem newNode_eq (k0 k1 k2 k3 : U64) (i : Nat) (hi : i < 2 ^ 25) :
    newNode [k0, k1, k2, k3] (BitVec.ofNat 32 i) = .ok ⟨leaf ⟨k0, k1, k2, k3⟩ i, [BitVec.ofNat 32 i]⟩ := by
  have hstep : ∀ t b, wordStep [k0, k1, k2, k3] (BitVec.ofNat 32 i) t b =
      .ok (b * 2 ^ 64 + (Sip.sip24 ⟨k0, k1, k2, k3⟩ (BitVec.ofNat 64 (8 * i + (6 - t)))).toNat) := by
    intro t b
    simp only [wordStep, idx, List.getElem?_cons_zero, List.getElem?_cons_succ, ok_bind, pure_eq_ok]
    rw [shl_or _ _ _ rfl, msg_eq i _ hi, Siphash.xorLanes_spec, Siphash.hash24_spec]
    rfl
  simp only [newNode, forRange, loop, hstep, ok_bind, pure_eq_ok]
  congr 2
  simp only [leaf, List.range_succ, List.range_zero, List.nil_append, List.map_append, List.map_cons, List.map_nil,
    List.sum_append, List.sum_cons, List.sum_nil, Nat.pow_mul]
  obtain ⟨B, hB⟩ : ∃ B, B = 2 ^ 64 := ⟨_, rfl⟩
  rw [← hB]
  ring

theorem sumPow_lt (f : Nat → U64) (n : Nat) : ((List.range n).map fun t => (f t).toNat * 2 ^ (64 * t)).sum < 2 ^ (64 * n) := by
  induction n with
  | zero => simp
  | succ n ih =>
    rw [List.range_succ, List.map_append, List.sum_append]
    simp only [List.map_cons, List.map_nil, List.sum_cons, List.sum_nil, Nat.add_zero]
    have h1 : (f n).toNat + 1 ≤ 2 ^ 64 := (f n).isLt
    calc _ < 2 ^ (64 * n) + (f n).toNat * 2 ^ (64 * n) := by omega
      _ = ((f n).toNat + 1) * 2 ^ (64 * n) := by ring
      _ ≤ 2 ^ 64 * 2 ^ (64 * n) := Nat.mul_le_mul_right _ h1
      _ = 2 ^ (64 * (n + 1)) := by rw [← Nat.pow_add]; congr 1; ring

theorem leaf_lt (K : Sip.State) (i : Nat) : leaf K i < 2 ^ 448 := sumPow_lt (fun t => Sip.sip24 K (BitVec.ofNat 64 (8 * i + t))) 7

theorem work_lt (K : Sip.State) (r : Nat) (l : List Nat) : work K r l < 2 ^ bits r := by
  cases r with
  | zero => exact leaf_lt K _
  | succ r => exact Nat.mod_lt _ (Nat.two_pow_pos _)

/-! ### mixing -/

/-- the index part of the extended string -/
def ext (rem : Nat) (l : List Nat) : Nat := (l.mapIdx fun j i => i * 2 ^ (rem + 25 * j)).sum

theorem ext_append (rem : Nat) (a b : List Nat) : ext rem (a ++ b) = ext rem a + ext (rem + 25 * a.length) b := by
  unfold ext
  rw [List.mapIdx_append, List.sum_append]
  congr 2
  apply List.ext_getElem (by simp)
  intro i h1 h2
  simp only [List.getElem_mapIdx]
  congr 2
  ring

theorem ext_lt (rem : Nat) (l : List Nat) (hl : ∀ i ∈ l, i < 2 ^ 25) (v : Nat) (hv : v < 2 ^ rem) :
    v + ext rem l < 2 ^ (rem + 25 * l.length) := by
  induction l generalizing rem v with
  | nil => simpa [ext] using hv
  | cons a l ih =>
    have e1 : ext rem (a :: l) = a * 2 ^ rem + ext (rem + 25) l := by
      have := ext_append rem [a] l
      simpa [ext] using this
    have ha : a + 1 ≤ 2 ^ 25 := hl a (by simp)
    have hlt : v + a * 2 ^ rem < 2 ^ (rem + 25) := by
      calc v + a * 2 ^ rem < 2 ^ rem + a * 2 ^ rem := by omega
        _ = (a + 1) * 2 ^ rem := by ring
        _ ≤ 2 ^ 25 * 2 ^ rem := Nat.mul_le_mul_right _ ha
        _ = 2 ^ (rem + 25) := by rw [← Nat.pow_add, Nat.add_comm]
    have := ih (rem + 25) (fun i hi => hl i (by simp [hi])) (v + a * 2 ^ rem) hlt
    rw [e1, ← Nat.add_assoc, List.length_cons, show rem + 25 * (l.length + 1) = rem + 25 + 25 * l.length by ring]
    exact this

theorem ext_dvd (rem : Nat) (l : List Nat) : 2 ^ rem ∣ ext rem l := by
  induction l generalizing rem with
  | nil => simp [ext]
  | cons a l ih =>
    have e1 : ext rem (a :: l) = a * 2 ^ rem + ext (rem + 25) l := by
      have := ext_append rem [a] l
      simpa [ext] using this
    rw [e1]
    exact Nat.dvd_add (Nat.dvd_mul_left _ _) (Nat.dvd_trans (Nat.pow_dvd_pow 2 (by omega)) (ih (rem + 25)))

theorem pad_loop (l : List Nat) (hl : ∀ i ∈ l, i < 2 ^ 25) (rem p : Nat) (hp : p ≤ l.length) (hr : rem ≤ 448) (h32 : l.length ≤ 32)
    (v : Nat) (hv : v < 2 ^ rem) :
    forRange 0 p v (padStep (l.map (BitVec.ofNat 32)) (BitVec.ofNat 32 rem)) = .ok (v + ext rem (l.take p)) := by
  obtain ⟨s, e, hs⟩ := forRange_inv (f := padStep (l.map (BitVec.ofNat 32)) (BitVec.ofNat 32 rem))
    (fun i s => s = v + ext rem (l.take i)) 0 p v (by omega) (by simp [ext]) (by
      rintro i s _ hi rfl
      have hil : i < l.length := by omega
      have hli := hl _ (List.getElem_mem hil)
      have hlt : v + ext rem (l.take i) < 2 ^ (rem + 25 * i) := by
        have := ext_lt rem (l.take i) (fun x hx => hl x (List.mem_of_mem_take hx)) v hv
        rwa [List.length_take, Nat.min_eq_left (by omega)] at this
      refine ⟨_, ?_, rfl⟩
      simp only [padStep]
      rw [idx_ok _ _ (by simpa using hil), ok_bind, List.getElem_map]
      have hsh : (BitVec.ofNat 32 rem + BitVec.ofNat 32 i * 25).toNat = rem + 25 * i := by
        rw [BitVec.toNat_add, BitVec.toNat_mul, BitVec.toNat_ofNat, BitVec.toNat_ofNat, show (25 : U32).toNat = 25 from rfl]
        omega
      rw [hsh, BitVec.toNat_ofNat, Nat.mod_eq_of_lt (by omega), Nat.or_comm, ← Nat.shiftLeft_add_eq_or_of_lt hlt, Nat.shiftLeft_eq,
        List.take_add_one, List.getElem?_eq_getElem hil, Option.toList_some, ext_append, List.length_take, Nat.min_eq_left (by omega)]
      simp only [pure_eq_ok, ext, List.mapIdx_cons, List.mapIdx_nil, List.sum_cons, List.sum_nil, Nat.mul_zero, Nat.add_zero]
      congr 1
      omega)
  rw [e, hs]

theorem rotl_eq (a b : U64) (n : Nat) (hb : b.toNat = n % 64) : rotl a b = a.rotateLeft n := by
  unfold rotl
  rw [BitVec.rotateLeft_def]
  have : (64 - b).toNat = 64 - n % 64 := by
    rw [BitVec.toNat_sub, show (64 : U64).toNat = 64 from rfl, hb]; omega
  show a <<< b.toNat ||| a >>> (64 - b).toNat = _
  rw [this, hb]

theorem mix_loop (T : Nat) : ∃ T', forRange 0 8 (T, (0 : U64)) mixStep =
    .ok (T', ((List.range 8).map fun t => (BitVec.ofNat 64 (T / 2 ^ (64 * t))).rotateLeft (29 * (t + 1))).sum) := by
  have hstep : ∀ i < 8, ∀ N r, mixStep i (N, r) = .ok (N / 2 ^ 64, r + (BitVec.ofNat 64 N).rotateLeft (29 * (i + 1))) := by
    intro i hi N r
    simp only [mixStep, pure_eq_ok]
    rw [show mixMask = 2 ^ 64 - 1 from rfl, Nat.and_two_pow_sub_one_eq_mod, Nat.shiftRight_eq_div_pow]
    have e : BitVec.ofNat 64 (N % 2 ^ 64) = BitVec.ofNat 64 N := by
      apply BitVec.eq_of_toNat_eq; simp
    rw [e, rotl_eq _ _ (29 * (i + 1))]
    · have : ∀ i < 8, ((29 * (BitVec.ofNat 64 i + 1)) &&& 0x3F : U64).toNat = 29 * (i + 1) % 64 := by decide
      exact this i hi
  refine ⟨T / 2 ^ 64 / 2 ^ 64 / 2 ^ 64 / 2 ^ 64 / 2 ^ 64 / 2 ^ 64 / 2 ^ 64 / 2 ^ 64, ?_⟩
  simp only [forRange, loop, Nat.sub_zero]
  rw [hstep 0 (by omega), ok_bind, hstep _ (by omega), ok_bind, hstep _ (by omega), ok_bind, hstep _ (by omega), ok_bind,
    hstep _ (by omega), ok_bind, hstep _ (by omega), ok_bind, hstep _ (by omega), ok_bind, hstep _ (by omega), ok_bind]
  congr 2
  simp only [List.range_succ, List.range_zero, List.nil_append, List.map_append, List.map_cons, List.map_nil,
    List.sum_append, List.sum_cons, List.sum_nil, Nat.div_div_eq_div_mul, ← Nat.pow_add]
  simp

theorem word_high (T X t : Nat) (ht : t < 8) :
    BitVec.ofNat 64 ((T + 2 ^ 512 * X) / 2 ^ (64 * t)) = BitVec.ofNat 64 (T / 2 ^ (64 * t)) := by
  have e : 2 ^ 512 * X = 2 ^ (64 * t) * (2 ^ (448 - 64 * t) * X * 2 ^ 64) := by
    have : 512 = 64 * t + ((448 - 64 * t) + 64) := by omega
    conv_lhs => rw [this, Nat.pow_add, Nat.pow_add]
    ring
  rw [e, Nat.add_mul_div_left _ _ (Nat.two_pow_pos _)]
  apply BitVec.eq_of_toNat_eq
  rw [BitVec.toNat_ofNat, BitVec.toNat_ofNat, Nat.add_mul_mod_self_right]

theorem applyMix_eq (r : Nat) (hr : r < 5) (l : List Nat) (hl : ∀ i ∈ l, i < 2 ^ 25) (hlen : l.length = 2 ^ r) (v : Nat) (hv : v < 2 ^ bits r) :
    applyMix ⟨v, l.map (BitVec.ofNat 32)⟩ (BitVec.ofNat 32 (bits r)) = .ok ⟨mix (bits r) l v, l.map (BitVec.ofNat 32)⟩ := by
  obtain ⟨p, hp⟩ : ∃ p, p = (let padNum := ((512 - BitVec.ofNat 32 (bits r)) + collisionBitsSize).udiv (collisionBitsSize + 1)
    let len : U32 := BitVec.ofNat 32 l.length
    if len < padNum then len else padNum).toNat := ⟨_, rfl⟩
  have hpf : p ≤ l.length ∧ (p < l.length → 512 ≤ bits r + 25 * p) := by
    rw [hp, hlen]
    have : ∀ r < 5, (let padNum := ((512 - BitVec.ofNat 32 (bits r)) + collisionBitsSize).udiv (collisionBitsSize + 1)
      let len : U32 := BitVec.ofNat 32 (2 ^ r)
      if len < padNum then len else padNum).toNat ≤ 2 ^ r ∧
      ((let padNum := ((512 - BitVec.ofNat 32 (bits r)) + collisionBitsSize).udiv (collisionBitsSize + 1)
      let len : U32 := BitVec.ofNat 32 (2 ^ r)
      if len < padNum then len else padNum).toNat < 2 ^ r →
        512 ≤ bits r + 25 * (let padNum := ((512 - BitVec.ofNat 32 (bits r)) + collisionBitsSize).udiv (collisionBitsSize + 1)
      let len : U32 := BitVec.ofNat 32 (2 ^ r)
      if len < padNum then len else padNum).toNat) := by decide
    exact this r hr
  have hb : bits r ≤ 448 := by
    have : ∀ r < 5, bits r ≤ 448 := by decide
    exact this r hr
  have h32 : l.length ≤ 32 := by rw [hlen]; exact Nat.le_trans (Nat.pow_le_pow_right (by omega) (show r ≤ 5 by omega)) (by decide)
  have hpl := pad_loop l hl (bits r) p hpf.1 hb h32 v hv
  obtain ⟨T', hT'⟩ := mix_loop (v + ext (bits r) (l.take p))
  simp only [applyMix, List.length_map]
  rw [← hp, hpl, ok_bind, hT', ok_bind]
  simp only [pure_eq_ok]
  have hw : ((List.range 8).map fun t => (BitVec.ofNat 64 ((v + ext (bits r) (l.take p)) / 2 ^ (64 * t))).rotateLeft (29 * (t + 1))) =
      ((List.range 8).map fun t => (BitVec.ofNat 64 (extended (bits r) l v / 2 ^ (64 * t))).rotateLeft (29 * (t + 1))) := by
    apply List.map_congr_left
    intro t ht
    have ht8 : t < 8 := by simpa using ht
    have hsplit : ∃ X, extended (bits r) l v = (v + ext (bits r) (l.take p)) + 2 ^ 512 * X := by
      have h1 : extended (bits r) l v = v + ext (bits r) l := rfl
      have h2 : ext (bits r) l = ext (bits r) (l.take p) + ext (bits r + 25 * p) (l.drop p) := by
        have := ext_append (bits r) (l.take p) (l.drop p)
        rwa [List.take_append_drop, List.length_take, Nat.min_eq_left hpf.1] at this
      rcases Nat.lt_or_ge p l.length with hlt | hge
      · obtain ⟨Y, hY⟩ := Nat.dvd_trans (Nat.pow_dvd_pow 2 (hpf.2 hlt)) (ext_dvd (bits r + 25 * p) (l.drop p))
        exact ⟨Y, by rw [h1, h2, hY, Nat.add_assoc]⟩
      · refine ⟨0, ?_⟩
        rw [h1, h2, List.drop_of_length_le hge]
        simp [ext]
    obtain ⟨X, hX⟩ := hsplit
    rw [hX, word_high _ _ _ ht8]
  rw [hw, rotl_eq _ _ 24 rfl, shl_or _ _ _ rfl, Nat.shiftRight_eq_div_pow]
  rfl

end Verif.Beam
