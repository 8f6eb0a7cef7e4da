import Verif.Proof.OctopusPoints
import Verif.Props.Octopus

/-! # C102: the points at which Octopus evaluates, and wrong coefficients -/

set_option autoImplicit false

namespace Verif.Props

open Go Octopus Spec.Octopus

/-- the four parameters that `octopus` derives from the words of the hash -/
def Derived (fuel : Nat) (v0 v1 v2 v3 a b c w : U64) : Prop :=
  remap fuel v0 = .ok a ∧ remap fuel v1 = .ok b ∧ computeC fuel a b v2 = .ok c ∧ remap fuel v3 = .ok w

namespace Points

theorem generator_of {fuel : Nat} (hf : 64 < fuel) {v a : U64} (h : remap fuel v = .ok a) : a.toNat = generator v.toNat := by
  rw [remap_eq fuel hf v] at h
  rw [← Except.ok.inj h, generator_toNat]

theorem derived {fuel : Nat} (hf : 64 < fuel) {v0 v1 v2 v3 a b c w : U64} (h : Derived fuel v0 v1 v2 v3 a b c w) :
    a.toNat < p ∧ 0 < a.toNat ∧ b.toNat < p ∧ c.toNat < p ∧ 0 < c.toNat ∧ w.toNat = generator v3.toNat ∧
      b.toNat * b.toNat % p ≠ 4 * a.toNat * c.toNat % p := by
  obtain ⟨h0, h1, h2, h3⟩ := h
  have ha := generator_of hf h0
  have hb := generator_of hf h1
  have hw := generator_of hf h3
  have ha1 : a.toNat < p := by rw [ha]; exact generator_lt _
  have ha0 : 0 < a.toNat := by rw [ha]; exact generator_pos _
  have hb1 : b.toNat < p := by rw [hb]; exact generator_lt _
  obtain ⟨c', e, c1, c2, k, c3, _⟩ := C19_computeC fuel hf a b v2 ha1 ha0 hb1
  have : c' = c := Except.ok.inj (e.symm.trans h2)
  subst this
  exact ⟨ha1, ha0, hb1, c1, by rw [c3]; exact generator_pos _, hw, c2⟩

/-- the word as a number, zero outside the list -/
def number (d : List U32) (k : Nat) : Nat := (d.getD k 0).toNat

theorem number_lt (d : List U32) (h : ∀ x ∈ d, x.toNat < p) (k : Nat) : number d k < p := by
  unfold number
  by_cases hk : k < d.length
  · rw [List.getD_eq_getElem?_getD, List.getElem?_eq_getElem hk]
    exact h _ (List.getElem_mem hk)
  · rw [List.getD_eq_getElem?_getD, List.getElem?_eq_none (by omega)]
    decide

theorem number_list (d : List U32) (h : d.length = 1024) : ((List.range 1024).map fun k => BitVec.ofNat 32 (number d k)) = d := by
  apply List.ext_getElem
  · rw [List.length_map, List.length_range, h]
  · intro k h1 h2
    rw [List.getElem_map, List.getElem_range, number, List.getD_eq_getElem?_getD, List.getElem?_eq_getElem h2]
    exact BitVec.eq_of_toNat_eq (by rw [BitVec.toNat_ofNat]; exact Nat.mod_eq_of_lt (BitVec.isLt _))

/-- the value of the polynomial at the point of an exponent, as a word -/
def value (a b c w : U64) (d : List U32) (t : Nat) : U32 :=
  BitVec.ofNat 32 (polynomial (number d) (point a.toNat b.toNat c.toNat w.toNat t))

theorem value_inj (a b c w : U64) (d e : List U32) (t : Nat) (h : value a b c w d t = value a b c w e t) :
    polynomial (number d) (point a.toNat b.toNat c.toNat w.toNat t) = polynomial (number e) (point a.toNat b.toNat c.toNat w.toNat t) := by
  have h := congrArg BitVec.toNat h
  unfold value at h
  rw [BitVec.toNat_ofNat, BitVec.toNat_ofNat, Nat.mod_eq_of_lt (lt_trans (polynomial_lt _ _) (by decide)),
    Nat.mod_eq_of_lt (lt_trans (polynomial_lt _ _) (by decide))] at h
  exact h

theorem evaluates (a b c w nonce : U64) (ha : a.toNat < p) (hb : b.toNat < p) (hc : c.toNat < p) (hw : w.toNat < p) (d : List U32)
    (hl : d.length = 1024) (hd : ∀ x ∈ d, x.toNat < p) :
    ∃ r, evaluate a b c w nonce d = .ok (r, (List.range 32).map fun i => value a b c w d (nonce.toNat % 32 + 32 * i)) := by
  have e := evaluate_any (number d) (number_lt d hd) a b c w nonce ha hb hc hw
  rw [number_list d hl, List.map_map] at e
  exact ⟨_, e⟩

end Points

open Points

/-- **C102** For every hash each residue is the point of at most two exponents `t < p - 1`, and zero is the point of none or of two. -/
theorem C102_points (fuel : Nat) (hf : 64 < fuel) (v0 v1 v2 v3 a b c w : U64) (h : Derived fuel v0 v1 v2 v3 a b c w) :
    (∀ x, ((Finset.range 1032192).filter fun t => point a.toNat b.toNat c.toNat w.toNat t = x).card ≤ 2) ∧
      ((Finset.range 1032192).filter fun t => point a.toNat b.toNat c.toNat w.toNat t = 0).card ≠ 1 := by
  obtain ⟨ha1, ha0, hb, hc1, hc0, hw, hdisc⟩ := derived hf h
  have ha := cast_ne_zero _ ha0 ha1
  have hc := cast_ne_zero _ hc0 hc1
  refine ⟨fun x => ?_, fun hone => ?_⟩
  · rw [hw]
    exact point_twice a.toNat b.toNat c.toNat v3.toNat ha x
  · obtain ⟨t, ht⟩ := Finset.card_eq_one.mp hone
    have hmem : t ∈ (Finset.range 1032192).filter fun t => point a.toNat b.toNat c.toNat w.toNat t = 0 := by
      rw [ht]; exact Finset.mem_singleton_self t
    have h0 := (Finset.mem_filter.mp hmem).2
    rw [hw] at h0
    have hd : ((b.toNat : Nat) : ZMod p) * (b.toNat : Nat) ≠ 4 * (a.toNat : Nat) * (c.toNat : Nat) := by
      intro e
      apply hdisc
      rw [← ZMod.natCast_eq_natCast_iff']
      push_cast
      exact e
    obtain ⟨u, hu, hne, hu0⟩ := point_zero a.toNat b.toNat c.toNat v3.toNat ha hc hd t h0
    have hmu : u ∈ (Finset.range 1032192).filter fun t => point a.toNat b.toNat c.toNat w.toNat t = 0 := by
      rw [Finset.mem_filter, hw]
      exact ⟨Finset.mem_range.mpr hu, hu0⟩
    rw [ht, Finset.mem_singleton] at hmu
    exact hne (by rw [hmu])

/-- **C102** The 1024 points of the 32 nonces of a warp are at least 512 different ones. -/
theorem C102_warp (fuel : Nat) (hf : 64 < fuel) (v0 v1 v2 v3 a b c w : U64) (h : Derived fuel v0 v1 v2 v3 a b c w) :
    512 ≤ ((Finset.range 1024).image fun t => point a.toNat b.toNat c.toNat w.toNat t).card := by
  have h2 := (C102_points fuel hf v0 v1 v2 v3 a b c w h).1
  have := Finset.card_le_mul_card_image (s := Finset.range 1024) (f := fun t => point a.toNat b.toNat c.toNat w.toNat t) 2 fun x _ =>
    le_trans (Finset.card_le_card (Finset.filter_subset_filter _ (Finset.range_subset_range.mpr (by omega)))) (h2 x)
  rw [Finset.card_range] at this
  omega

/-- **C102** Two lists of coefficients that differ, and only within `m` places in a row: of the 1024 values of the 32 nonces of a warp at most
`2 m` are equal. -/
theorem C102_values (fuel : Nat) (hf : 64 < fuel) (v0 v1 v2 v3 a b c w : U64) (h : Derived fuel v0 v1 v2 v3 a b c w) (d e : List U32)
    (hd : d.length = 1024) (he : e.length = 1024) (hdp : ∀ x ∈ d, x.toNat < 1032193) (hep : ∀ x ∈ e, x.toNat < 1032193) (hne : d ≠ e)
    (lo m : Nat) (hm : lo + m ≤ 1024) (hout : ∀ k, k < lo ∨ lo + m ≤ k → d[k]? = e[k]?) :
    ∃ V W : Nat → U32, (∀ nonce : U64, ∃ r s,
        evaluate a b c w nonce d = .ok (r, (List.range 32).map fun i => V (nonce.toNat % 32 + 32 * i)) ∧
        evaluate a b c w nonce e = .ok (s, (List.range 32).map fun i => W (nonce.toNat % 32 + 32 * i))) ∧
      ((Finset.range 1024).filter fun t => V t = W t).card ≤ 2 * m := by
  obtain ⟨ha1, ha0, hb, hc1, hc0, hw, hdisc⟩ := derived hf h
  have hwlt : w.toNat < p := by rw [hw]; exact generator_lt _
  refine ⟨value a b c w d, value a b c w e, fun nonce => ?_, ?_⟩
  · obtain ⟨r, hr⟩ := evaluates a b c w nonce ha1 hb hc1 hwlt d hd hdp
    obtain ⟨s, hs⟩ := evaluates a b c w nonce ha1 hb hc1 hwlt e he hep
    exact ⟨r, s, hr, hs⟩
  · have hnum : ∀ k, k < lo ∨ lo + m ≤ k → number d k = number e k := fun k hk => by
      unfold number
      rw [List.getD_eq_getElem?_getD, List.getD_eq_getElem?_getD, hout k hk]
    have hin : ∃ k, number d k ≠ number e k := by
      by_contra hc
      apply hne
      rw [← number_list d hd, ← number_list e he]
      refine List.map_congr_left fun k _ => ?_
      by_contra hk
      exact hc ⟨k, fun hk' => hk (by rw [hk'])⟩
    have key := agreements (number d) (number e) (number_lt d hdp) (number_lt e hep) lo m hm hnum hin a.toNat b.toNat c.toNat v3.toNat
      (cast_ne_zero _ ha0 ha1)
    refine le_trans (Finset.card_le_card ?_) key
    intro t ht
    rw [Finset.mem_filter, Finset.mem_range] at ht ⊢
    refine ⟨lt_trans ht.1 (by decide), ?_⟩
    rw [← hw]
    exact value_inj a b c w d e t ht.2

/-- **C102** Errors within 15 coefficients in a row change at least two of the 32 values of every nonce. -/
theorem C102_nonce (fuel : Nat) (hf : 64 < fuel) (v0 v1 v2 v3 a b c w : U64) (h : Derived fuel v0 v1 v2 v3 a b c w) (d e : List U32)
    (hd : d.length = 1024) (he : e.length = 1024) (hdp : ∀ x ∈ d, x.toNat < 1032193) (hep : ∀ x ∈ e, x.toNat < 1032193) (hne : d ≠ e)
    (lo : Nat) (hm : lo + 15 ≤ 1024) (hout : ∀ k, k < lo ∨ lo + 15 ≤ k → d[k]? = e[k]?) (nonce : U64) :
    ∃ r s vs ws, evaluate a b c w nonce d = .ok (r, vs) ∧ evaluate a b c w nonce e = .ok (s, ws) ∧ vs.length = 32 ∧ ws.length = 32 ∧
      2 ≤ ((Finset.range 32).filter fun i => vs[i]? ≠ ws[i]?).card := by
  obtain ⟨V, W, hev, hcard⟩ := C102_values fuel hf v0 v1 v2 v3 a b c w h d e hd he hdp hep hne lo 15 hm hout
  obtain ⟨r, s, h1, h2⟩ := hev nonce
  refine ⟨r, s, _, _, h1, h2, by rw [List.length_map, List.length_range], by rw [List.length_map, List.length_range], ?_⟩
  have hinj : ((Finset.range 32).filter fun i => V (nonce.toNat % 32 + 32 * i) = W (nonce.toNat % 32 + 32 * i)).card ≤ 30 := by
    refine le_trans ?_ hcard
    refine Finset.card_le_card_of_injOn (fun i => nonce.toNat % 32 + 32 * i) ?_ ?_
    · intro i hi
      have hi := Finset.mem_filter.mp (Finset.mem_coe.mp hi)
      have := Finset.mem_range.mp hi.1
      exact Finset.mem_coe.mpr (Finset.mem_filter.mpr ⟨Finset.mem_range.mpr (show nonce.toNat % 32 + 32 * i < 1024 by omega), hi.2⟩)
    · intro i _ j _ hij
      have hij : nonce.toNat % 32 + 32 * i = nonce.toNat % 32 + 32 * j := hij
      omega
  have hsplit := Finset.card_filter_add_card_filter_not (s := Finset.range 32) (fun i => V (nonce.toNat % 32 + 32 * i) = W (nonce.toNat % 32 + 32 * i))
  rw [Finset.card_range] at hsplit
  refine le_trans (by omega : 2 ≤ ((Finset.range 32).filter fun i => ¬ V (nonce.toNat % 32 + 32 * i) = W (nonce.toNat % 32 + 32 * i)).card) (Finset.card_le_card ?_)
  intro i hi
  rw [Finset.mem_filter] at hi ⊢
  have hi32 := Finset.mem_range.mp hi.1
  refine ⟨hi.1, fun he => hi.2 ?_⟩
  simpa [hi32] using he

/-- every hash has derived parameters -/
theorem derived_exists (fuel : Nat) (hf : 64 < fuel) (v0 v1 v2 v3 : U64) : ∃ a b c w, Derived fuel v0 v1 v2 v3 a b c w := by
  obtain ⟨a, b, c, h0, h1, h2, _⟩ := C19_derived fuel hf v0 v1 v2
  obtain ⟨w, h3, _⟩ := C18_primitive_root fuel hf v3
  exact ⟨a, b, c, w, h0, h1, h2, h3⟩

-- the words 48, 49, 50 and 51: two exponents of a warp have the same point, and zero is the point of two exponents
#guard remap 65 48 matches .ok 11
#guard remap 65 49 matches .ok 990901
#guard computeC 65 11 990901 50 matches .ok 771154
#guard remap 65 51 matches .ok 548826
#guard point 11 990901 771154 548826 499 = 158954 && point 11 990901 771154 548826 920 = 158954
#guard point 11 990901 771154 548826 852 = 0 && point 11 990901 771154 548826 157948 = 0

-- a change of coefficient 7 does not show in the value at the exponent 852 and shows in its neighbours
#guard (List.range 3).map (fun i => decide (polynomial (fun k => k % p) (point 11 990901 771154 548826 (851 + i)) =
  polynomial (fun k => if k = 7 then 8 else k % p) (point 11 990901 771154 548826 (851 + i)))) = [false, true, false]

end Verif.Props
