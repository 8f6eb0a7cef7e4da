import Verif.Model.Hasher
import Verif.Spec.Sponge

/-! # The reused hash object gives the digest of each input (for C106) -/

set_option autoImplicit false

namespace Verif.Hasher

open Go Spec.Sponge

/-- a rate that fits into the state, and a permutation of states of 200 bytes -/
structure Kind.Good (K : Kind) : Prop where
  pos : 0 < K.rate
  le : K.rate ≤ 200
  len : ∀ x : List Byte, x.length = 200 → (K.f x).length = 200

theorem xorInto_length (s b : List Byte) : (xorInto s b).length = 200 := by simp [xorInto]

theorem xorInto_getD (s b : List Byte) (i : Nat) (hi : i < 200) : (xorInto s b).getD i 0 = s.getD i 0 ^^^ b.getD i 0 := by
  unfold xorInto
  rw [List.getD_eq_getElem?_getD, List.getElem?_map, List.getElem?_range hi]
  rfl

theorem state_ext {a b : List Byte} (ha : a.length = 200) (hb : b.length = 200) (h : ∀ i < 200, a.getD i 0 = b.getD i 0) : a = b := by
  apply List.ext_getElem?
  intro i
  by_cases hi : i < 200
  · have := h i hi
    rw [List.getD_eq_getElem?_getD, List.getD_eq_getElem?_getD, List.getElem?_eq_getElem (by omega), List.getElem?_eq_getElem (by omega)] at this
    rw [List.getElem?_eq_getElem (by omega), List.getElem?_eq_getElem (by omega)]
    exact congrArg some this
  · rw [List.getElem?_eq_none (by omega), List.getElem?_eq_none (by omega)]

theorem getD_set (a : List Byte) (i j : Nat) (v : Byte) (hi : i < a.length) : (a.set i v).getD j 0 = if j = i then v else a.getD j 0 := by
  rw [List.getD_eq_getElem?_getD, List.getElem?_set]
  by_cases h : i = j
  · rw [if_pos h, if_pos h.symm, if_pos (by omega)]
    rfl
  · rw [if_neg h, if_neg (by omega), List.getD_eq_getElem?_getD]

theorem getD_snoc (l : List Byte) (b : Byte) (j : Nat) : (l ++ [b]).getD j 0 = if j = l.length then b else l.getD j 0 := by
  rw [List.getD_eq_getElem?_getD, List.getD_eq_getElem?_getD]
  by_cases h : j < l.length
  · rw [List.getElem?_append_left h, if_neg (by omega)]
  · rw [List.getElem?_append_right (by omega)]
    by_cases h2 : j = l.length
    · rw [if_pos h2, h2, Nat.sub_self]
      rfl
    · rw [if_neg h2, List.getElem?_eq_none (by simp; omega), List.getElem?_eq_none (by omega)]

/-- one more byte -/
theorem xorInto_snoc (s p : List Byte) (b : Byte) (hp : p.length < 200) :
    (xorInto s p).set p.length ((xorInto s p).getD p.length 0 ^^^ b) = xorInto s (p ++ [b]) := by
  apply state_ext (by rw [List.length_set, xorInto_length]) (xorInto_length _ _)
  intro i hi
  rw [getD_set _ _ _ _ (by rw [xorInto_length]; exact hp), xorInto_getD _ _ _ hi, xorInto_getD _ _ _ hi, xorInto_getD _ _ _ hp, getD_snoc]
  by_cases h : i = p.length
  · rw [if_pos h, if_pos h, h, List.getD_eq_getElem?_getD (l := p), List.getElem?_eq_none (by omega)]
    simp
  · rw [if_neg h, if_neg h]

theorem xorInto_zeros (s p : List Byte) (k : Nat) : xorInto s (p ++ List.replicate k 0) = xorInto s p := by
  apply state_ext (xorInto_length _ _) (xorInto_length _ _)
  intro i hi
  rw [xorInto_getD _ _ _ hi, xorInto_getD _ _ _ hi]
  congr 1
  rw [List.getD_eq_getElem?_getD, List.getD_eq_getElem?_getD]
  by_cases h : i < p.length
  · rw [List.getElem?_append_left h]
  · rw [List.getElem?_append_right (by omega), List.getElem?_replicate, List.getElem?_eq_none (by omega)]
    split <;> rfl

theorem xorInto_nil (s : List Byte) (hs : s.length = 200) : xorInto s [] = s := by
  apply state_ext (xorInto_length _ _) hs
  intro i hi
  rw [xorInto_getD _ _ _ hi]
  simp

/-- another block -/
theorem absorb_block (f : List Byte → List Byte) (r : Nat) (hr : 0 < r) (q : Nat) (m b : List Byte) (hm : m.length = r * q) (hb : b.length = r) :
    absorb f r (m ++ b) = f (xorInto (absorb f r m) b) := by
  have h1 : (m ++ b).length / r = q + 1 := by
    rw [List.length_append, hm, hb, ← Nat.mul_succ, Nat.mul_div_cancel_left _ hr]
  have h2 : m.length / r = q := by rw [hm, Nat.mul_div_cancel_left _ hr]
  have e : blocks r (m ++ b) = blocks r m ++ [b] := by
    unfold blocks
    rw [h1, h2, List.range_succ, List.map_append]
    congr 1
    · apply List.map_congr_left
      intro i hi
      have hi := List.mem_range.mp hi
      have : r * (i + 1) ≤ r * q := Nat.mul_le_mul_left _ (by omega)
      rw [Nat.mul_succ] at this
      rw [List.drop_append_of_le_length (by omega), List.take_append_of_le_length (by rw [List.length_drop]; omega)]
    · rw [List.map_cons, List.map_nil, ← hm, List.drop_left, List.take_of_length_le (by omega)]
  unfold absorb
  rw [e, List.foldl_append]
  rfl

theorem absorb_length (K : Kind) (hK : K.Good) (m : List Byte) : (absorb K.f K.rate m).length = 200 := by
  unfold absorb
  have : ∀ (bs : List (List Byte)) (s : List Byte), s.length = 200 → (bs.foldl (fun s b => K.f (xorInto s b)) s).length = 200 := by
    intro bs
    induction bs with
    | nil => exact fun s h => h
    | cons b bs ih => exact fun s _ => ih _ (hK.len _ (xorInto_length _ _))
  exact this _ _ List.length_replicate

/-- the state while being written: the whole blocks are absorbed, the rest is xored in -/
structure Absorbed (K : Kind) (d : List Byte) (s : Sponge) : Prop where
  a : ∃ q m p, d = m ++ p ∧ m.length = K.rate * q ∧ p.length < K.rate ∧ s.n = p.length ∧ s.a = xorInto (absorb K.f K.rate m) p
  w : s.squeezing = false

theorem absorbed_fresh (K : Kind) (hK : K.Good) : Absorbed K [] fresh := by
  refine ⟨⟨0, [], [], rfl, rfl, hK.pos, rfl, ?_⟩, rfl⟩
  rw [xorInto_nil _ (absorb_length K hK _)]
  unfold absorb blocks
  simp [fresh]

theorem absorbed_byte (K : Kind) (hK : K.Good) (d : List Byte) (s : Sponge) (h : Absorbed K d s) (b : Byte) : Absorbed K (d ++ [b]) (writeByte K s b) := by
  obtain ⟨⟨q, m, p, hd, hm, hp, hn, ha⟩, _⟩ := h
  have hle := hK.le
  unfold writeByte
  dsimp only
  have e : s.a.set s.n (s.a.getD s.n 0 ^^^ b) = xorInto (absorb K.f K.rate m) (p ++ [b]) := by
    rw [hn, ha, xorInto_snoc _ _ _ (by omega)]
  rw [e]
  by_cases hr : s.n + 1 = K.rate
  · rw [if_pos hr]
    have hb : (p ++ [b]).length = K.rate := by rw [List.length_append, List.length_singleton]; omega
    refine ⟨⟨q + 1, m ++ (p ++ [b]), [], by rw [hd, List.append_nil, List.append_assoc], ?_, hK.pos, rfl, ?_⟩, rfl⟩
    · rw [List.length_append, hb, hm, Nat.mul_succ]
    · rw [absorb_block K.f K.rate hK.pos q m _ hm hb, xorInto_nil _ (hK.len _ (xorInto_length _ _))]
  · rw [if_neg hr]
    refine ⟨⟨q, m, p ++ [b], by rw [hd, List.append_assoc], hm, ?_, ?_, rfl⟩, rfl⟩
    · rw [List.length_append, List.length_singleton]; omega
    · rw [List.length_append, List.length_singleton, hn]

theorem absorbed_write (K : Kind) (hK : K.Good) (d p : List Byte) (s : Sponge) (h : Absorbed K d s) :
    ∃ s', write K s p = .ok s' ∧ Absorbed K (d ++ p) s' := by
  refine ⟨p.foldl (writeByte K) s, ?_, ?_⟩
  · unfold write
    rw [h.w]
    rfl
  · induction p generalizing d s with
    | nil => rw [List.append_nil]; exact h
    | cons b p ih =>
      have := ih (d ++ [b]) (writeByte K s b) (absorbed_byte K hK d s h b)
      rwa [List.append_assoc] at this

/-- the state while being read: `i` bytes have been read -/
structure Squeezed (K : Kind) (d : List Byte) (i : Nat) (s : Sponge) : Prop where
  a : s.a = K.f^[i / K.rate] (absorb K.f K.rate (d ++ padding K.rate K.ds d.length))
  n : s.n = i % K.rate
  r : s.squeezing = true

theorem squeezed_pad (K : Kind) (hK : K.Good) (d : List Byte) (s : Sponge) (h : Absorbed K d s) : Squeezed K d 0 (padAndPermute K s) := by
  obtain ⟨⟨q, m, p, hd, hm, hp, hn, ha⟩, _⟩ := h
  have hle := hK.le
  have hpos := hK.pos
  refine ⟨?_, by rw [Nat.zero_mod]; rfl, rfl⟩
  have hmod : d.length % K.rate = p.length := by
    rw [hd, List.length_append, hm, Nat.mul_add_mod, Nat.mod_eq_of_lt hp]
  have hlen : (padding K.rate K.ds d.length).length = K.rate - p.length := by
    unfold padding
    rw [hmod]
    by_cases h1 : p.length = K.rate - 1
    · rw [if_pos h1]
      simp
      omega
    · rw [if_neg h1]
      simp
      omega
  rw [Nat.zero_div, Function.iterate_zero, id, hd, List.append_assoc, ← hd, absorb_block K.f K.rate hpos q m _ hm (by rw [List.length_append, hlen]; omega)]
  unfold padAndPermute
  dsimp only
  refine congrArg K.f ?_
  have e1 : s.a.set s.n (s.a.getD s.n 0 ^^^ K.ds) = xorInto (absorb K.f K.rate m) (p ++ [K.ds]) := by
    rw [hn, ha, xorInto_snoc _ _ _ (by omega)]
  rw [e1]
  unfold padding
  rw [hmod]
  by_cases h1 : p.length = K.rate - 1
  · rw [if_pos h1]
    apply state_ext (by rw [List.length_set, xorInto_length]) (xorInto_length _ _)
    intro i hi
    rw [getD_set _ _ _ _ (by rw [xorInto_length]; omega), xorInto_getD _ _ _ hi, xorInto_getD _ _ _ hi, xorInto_getD _ _ _ (by omega),
      getD_snoc, getD_snoc, getD_snoc]
    by_cases h : i = p.length
    · rw [if_pos (by omega), if_pos (by omega), if_pos h, h, h1, BitVec.xor_assoc]
    · rw [if_neg (by omega), if_neg h, if_neg h]
  · rw [if_neg h1]
    have e2 : xorInto (absorb K.f K.rate m) (p ++ [K.ds]) =
        xorInto (absorb K.f K.rate m) (p ++ ([K.ds] ++ List.replicate (K.rate - 2 - p.length) 0)) := by
      rw [← List.append_assoc, xorInto_zeros]
    have hl : (p ++ ([K.ds] ++ List.replicate (K.rate - 2 - p.length) 0)).length = K.rate - 1 := by
      simp
      omega
    rw [e2]
    have := xorInto_snoc (absorb K.f K.rate m) (p ++ ([K.ds] ++ List.replicate (K.rate - 2 - p.length) 0)) 0x80 (by omega)
    rw [hl] at this
    rw [this, List.append_assoc, List.append_assoc]

theorem squeezed_step (K : Kind) (hK : K.Good) (d : List Byte) (i : Nat) (s : Sponge) (h : Squeezed K d i s) (m : Nat) :
    (squeeze K m s).1 = (List.range m).map (fun j => output K.f K.rate K.ds d (i + j)) ∧ Squeezed K d (i + m) (squeeze K m s).2 := by
  induction m generalizing i s with
  | zero => exact ⟨rfl, h⟩
  | succ m ih =>
    have hpos := hK.pos
    have hs' : Squeezed K d (i + 1) (if s.n + 1 = K.rate then { s with a := K.f s.a, n := 0 } else { s with n := s.n + 1 }) := by
      have hdm := Nat.div_add_mod i K.rate
      by_cases hr : s.n + 1 = K.rate
      · rw [if_pos hr]
        rw [h.n] at hr
        have e : i + 1 = K.rate * (i / K.rate + 1) := by rw [Nat.mul_succ]; omega
        refine ⟨?_, ?_, h.r⟩
        · rw [e, Nat.mul_div_cancel_left _ hpos, Function.iterate_succ_apply', ← h.a]
        · rw [e, Nat.mul_mod_right]
      · rw [if_neg hr]
        rw [h.n] at hr
        have hlt := Nat.mod_lt i hpos
        have e : i + 1 = K.rate * (i / K.rate) + (i % K.rate + 1) := by omega
        refine ⟨?_, ?_, h.r⟩
        · have e' : (i + 1) / K.rate = i / K.rate := by
            obtain ⟨q, hq⟩ : ∃ q, q = i / K.rate := ⟨_, rfl⟩
            obtain ⟨u, hu⟩ : ∃ u, u = i % K.rate := ⟨_, rfl⟩
            rw [← hq, ← hu] at e
            rw [← hu] at hr hlt
            rw [e, Nat.mul_add_div hpos, Nat.div_eq_of_lt (by omega), Nat.add_zero, hq]
          rw [e']
          exact h.a
        · show s.n + 1 = _
          rw [e, Nat.mul_add_mod, Nat.mod_eq_of_lt (by omega), h.n]
    obtain ⟨h1, h2⟩ := ih (i + 1) _ hs'
    constructor
    · rw [squeeze]
      dsimp only
      rw [h1, List.range_succ_eq_map, List.map_cons, List.map_map]
      congr 1
      · rw [Nat.add_zero, output, stream, h.n, h.a]
      · apply List.map_congr_left
        intro j _
        show output _ _ _ _ _ = output _ _ _ _ _
        exact congrArg _ (by rw [Nat.succ_eq_add_one]; omega)
    · rw [squeeze]
      dsimp only
      rw [show i + (m + 1) = i + 1 + m by omega]
      exact h2

/-- `Read` after writing -/
theorem read_absorbed (K : Kind) (hK : K.Good) (d : List Byte) (s : Sponge) (h : Absorbed K d s) (m : Nat) :
    (read K s m).1 = digest K.f K.rate K.ds m d ∧ Squeezed K d m (read K s m).2 := by
  unfold read
  rw [h.w]
  have := squeezed_step K hK d 0 _ (squeezed_pad K hK d s h) m
  simp only [Nat.zero_add] at this
  exact this

/-- one call -/
theorem call_eq (K : Kind) (hK : K.Good) (s : Sponge) (dest data : List Byte) : ∃ s', s'.squeezing = true ∧ call K s dest data =
    if dest.length < K.outputLen then .error (.panic .slice)
    else .ok (digest K.f K.rate K.ds K.outputLen data ++ dest.drop K.outputLen, s') := by
  obtain ⟨t, h1, h2⟩ := absorbed_write K hK [] data fresh (absorbed_fresh K hK)
  rw [List.nil_append] at h2
  obtain ⟨h3, h4⟩ := read_absorbed K hK data t h2 K.outputLen
  refine ⟨_, h4.r, ?_⟩
  unfold call reset
  dsimp only
  rw [h1]
  by_cases hl : dest.length < K.outputLen
  · rw [if_pos hl]
    simp only [bind, Except.bind, hl, if_true]
  · rw [if_neg hl]
    simp only [bind, Except.bind, hl, if_false, pure, Except.pure]
    rw [← h3]

end Verif.Hasher
