import Verif.Props.Equihash
import Verif.Props.Beam

/-! # Which error Equihash and BeamHash III verification returns (C80) -/

set_option autoImplicit false

namespace Verif.Props

open Go Spec Spec.Wagner

/-! ## Equihash -/

section Equihash

open Equihash Spec.Equihash

/-- What `Verify` returns: exactly one of the following. -/
theorem equihash_outcome (P : Prims) (c : Client) (h : (eqParams c).WF) (header soln : List Byte)
    (fuel : Nat) (hf : 64 ≤ fuel) :
    (c.verify P fuel header soln = .ok (true, none) ∧ soln.length = (eqParams c).solLen ∧
      NoFault c.k.toNat (Agree P (eqParams c) header) (indices (eqParams c) soln) ∧
      xorOf (fun i => chunk P (eqParams c) header i c.k.toNat) (indices (eqParams c) soln) = 0) ∨
    (c.verify P fuel header soln = .ok (false, none) ∧ soln.length = (eqParams c).solLen ∧
      NoFault c.k.toNat (Agree P (eqParams c) header) (indices (eqParams c) soln) ∧
      xorOf (fun i => chunk P (eqParams c) header i c.k.toNat) (indices (eqParams c) soln) ≠ 0) ∨
    (∃ f, c.verify P fuel header soln = .ok (false, some (faultErr f)) ∧ soln.length = (eqParams c).solLen ∧
      FirstFault c.k.toNat (Agree P (eqParams c) header) (indices (eqParams c) soln) f) ∨
    (c.verify P fuel header soln = .ok (false, some .minimalLen) ∧ soln.length % 2 ^ 32 ≠ (eqParams c).solLen) ∨
    (c.verify P fuel header soln = .error (.panic .index) ∧ soln.length ≠ (eqParams c).solLen ∧
      soln.length % 2 ^ 32 = (eqParams c).solLen) := by
  have hl := eqLen_lt h
  by_cases h32 : 2 ^ 32 ≤ soln.length
  · obtain ⟨c1, c2⟩ := C84_long P c h header soln h32 fuel
    by_cases hm : soln.length % 2 ^ 32 = (eqParams c).solLen
    · exact Or.inr (Or.inr (Or.inr (Or.inr ⟨c1 hm, by omega, hm⟩)))
    · exact Or.inr (Or.inr (Or.inr (Or.inl ⟨c2 hm, hm⟩)))
  · replace h32 := Nat.lt_of_not_le h32
    have hm : soln.length % 2 ^ 32 = soln.length := Nat.mod_eq_of_lt h32
    rw [hm]
    rcases verify_outcome P header h soln h32 fuel hf with hc | hc | hc | hc
    · exact Or.inl hc
    · exact Or.inr (Or.inl hc)
    · exact Or.inr (Or.inr (Or.inl hc))
    · exact Or.inr (Or.inr (Or.inr (Or.inl hc)))

/-- a right length is right modulo 2^32 -/
theorem eqLen_mod {c : Client} (h : (eqParams c).WF) {l : Nat} (hl : l = (eqParams c).solLen) : l % 2 ^ 32 = (eqParams c).solLen := by
  rw [hl]; exact Nat.mod_eq_of_lt (eqLen_lt h)

/-- **C80.** The length error is returned exactly for solutions whose length is wrong modulo 2^32. -/
theorem C80_equihash_length (P : Prims) (c : Client) (h : (eqParams c).WF) (header soln : List Byte)
    (fuel : Nat) (hf : 64 ≤ fuel) :
    c.verify P fuel header soln = .ok (false, some .minimalLen) ↔ soln.length % 2 ^ 32 ≠ (eqParams c).solLen := by
  rcases equihash_outcome P c h header soln fuel hf with ⟨e, hl, _⟩ | ⟨e, hl, _⟩ | ⟨f, e, hl, _⟩ | ⟨e, hl⟩ | ⟨e, hl⟩
  · rw [e]; exact ⟨fun hh => by simp at hh, fun hh => absurd (eqLen_mod h hl) hh⟩
  · rw [e]; exact ⟨fun hh => by simp at hh, fun hh => absurd (eqLen_mod h hl) hh⟩
  · rw [e]; exact ⟨fun hh => by cases f <;> simp [faultErr] at hh, fun hh => absurd (eqLen_mod h hl) hh⟩
  · exact ⟨fun _ => hl, fun _ => e⟩
  · rw [e]; exact ⟨fun hh => by simp at hh, fun hh => absurd hl.2 hh⟩

/-- A panic happens exactly for solutions whose length is wrong but right modulo 2^32, and it is an index out of range. -/
theorem C80_equihash_panic (P : Prims) (c : Client) (h : (eqParams c).WF) (header soln : List Byte)
    (fuel : Nat) (hf : 64 ≤ fuel) (s : Stop) :
    c.verify P fuel header soln = .error s ↔
      s = .panic .index ∧ soln.length ≠ (eqParams c).solLen ∧ soln.length % 2 ^ 32 = (eqParams c).solLen := by
  rcases equihash_outcome P c h header soln fuel hf with ⟨e, hl, _⟩ | ⟨e, hl, _⟩ | ⟨f, e, hl, _⟩ | ⟨e, hl⟩ | ⟨e, hl⟩
  · rw [e]; exact ⟨fun hh => by simp at hh, fun hh => absurd hl hh.2.1⟩
  · rw [e]; exact ⟨fun hh => by simp at hh, fun hh => absurd hl hh.2.1⟩
  · rw [e]; exact ⟨fun hh => by simp at hh, fun hh => absurd hl hh.2.1⟩
  · rw [e]; exact ⟨fun hh => by simp at hh, fun hh => absurd hh.2.2 hl⟩
  · rw [e]; exact ⟨fun hh => ⟨(Except.error.inj hh).symm, hl⟩, fun hh => by rw [hh.1]⟩

theorem equihash_fault (P : Prims) (c : Client) (h : (eqParams c).WF) (header soln : List Byte)
    (fuel : Nat) (hf : 64 ≤ fuel) (f : Fault) :
    c.verify P fuel header soln = .ok (false, some (faultErr f)) ↔
      soln.length = (eqParams c).solLen ∧ FirstFault c.k.toNat (Agree P (eqParams c) header) (indices (eqParams c) soln) f := by
  rcases equihash_outcome P c h header soln fuel hf with ⟨e, hl, hn, _⟩ | ⟨e, hl, hn, _⟩ | ⟨g, e, hl, hg⟩ | ⟨e, hl⟩ | ⟨e, hl, _⟩
  · rw [e]; exact ⟨fun hh => by simp at hh, fun hh => absurd hn (not_noFault hh.2)⟩
  · rw [e]; exact ⟨fun hh => by simp at hh, fun hh => absurd hn (not_noFault hh.2)⟩
  · constructor
    · intro hh
      have : g = f := by rw [e] at hh; revert hh; cases f <;> cases g <;> simp [faultErr]
      exact ⟨hl, this ▸ hg⟩
    · intro hh
      rw [e, firstFault_unique hg hh.2]
  · rw [e]; exact ⟨fun hh => by cases f <;> simp [faultErr] at hh, fun hh => absurd (eqLen_mod h hh.1) hl⟩
  · rw [e]; exact ⟨fun hh => by simp at hh, fun hh => absurd hh.1 hl⟩

/-- The collision error is returned exactly if the first faulty pair of sibling blocks, level by level and from left to right, is one
whose chunks do not agree. -/
theorem C80_equihash_collision (P : Prims) (c : Client) (h : (eqParams c).WF) (header soln : List Byte)
    (fuel : Nat) (hf : 64 ≤ fuel) :
    c.verify P fuel header soln = .ok (false, some .collision) ↔
      soln.length = (eqParams c).solLen ∧ FirstFault c.k.toNat (Agree P (eqParams c) header) (indices (eqParams c) soln) .collision :=
  equihash_fault P c h header soln fuel hf .collision

/-- The order error is returned exactly if the first faulty pair agrees and its right block begins with the smaller index. -/
theorem C80_equihash_order (P : Prims) (c : Client) (h : (eqParams c).WF) (header soln : List Byte)
    (fuel : Nat) (hf : 64 ≤ fuel) :
    c.verify P fuel header soln = .ok (false, some .order) ↔
      soln.length = (eqParams c).solLen ∧ FirstFault c.k.toNat (Agree P (eqParams c) header) (indices (eqParams c) soln) .order :=
  equihash_fault P c h header soln fuel hf .order

/-- The duplicate error is returned exactly if the first faulty pair agrees, is not out of order, and has an index in common. -/
theorem C80_equihash_duplicate (P : Prims) (c : Client) (h : (eqParams c).WF) (header soln : List Byte)
    (fuel : Nat) (hf : 64 ≤ fuel) :
    c.verify P fuel header soln = .ok (false, some .duplicate) ↔
      soln.length = (eqParams c).solLen ∧ FirstFault c.k.toNat (Agree P (eqParams c) header) (indices (eqParams c) soln) .duplicate :=
  equihash_fault P c h header soln fuel hf .duplicate

/-- `(false, nil)` is returned exactly if no pair is faulty and the last chunks do not xor to zero. -/
theorem C80_equihash_nil (P : Prims) (c : Client) (h : (eqParams c).WF) (header soln : List Byte)
    (fuel : Nat) (hf : 64 ≤ fuel) :
    c.verify P fuel header soln = .ok (false, none) ↔
      soln.length = (eqParams c).solLen ∧ NoFault c.k.toNat (Agree P (eqParams c) header) (indices (eqParams c) soln) ∧
        xorOf (fun i => chunk P (eqParams c) header i c.k.toNat) (indices (eqParams c) soln) ≠ 0 := by
  rcases equihash_outcome P c h header soln fuel hf with ⟨e, hl, hn, hx⟩ | ⟨e, hl, hn, hx⟩ | ⟨g, e, hl, hg⟩ | ⟨e, hl⟩ | ⟨e, hl, _⟩
  · rw [e]; exact ⟨fun hh => by simp at hh, fun hh => absurd hx hh.2.2⟩
  · exact ⟨fun _ => ⟨hl, hn, hx⟩, fun _ => e⟩
  · rw [e]; exact ⟨fun hh => by simp at hh, fun hh => absurd hh.2.1 (not_noFault hg)⟩
  · rw [e]; exact ⟨fun hh => by simp at hh, fun hh => absurd (eqLen_mod h hh.1) hl⟩
  · rw [e]; exact ⟨fun hh => by simp at hh, fun hh => absurd hh.1 hl⟩

/-- Nothing else is ever returned when the length is right or wrong modulo 2^32; in particular none of the errors about bit lengths and parameters, and no error with `true`. -/
theorem C80_equihash_only (P : Prims) (c : Client) (h : (eqParams c).WF) (header soln : List Byte)
    (fuel : Nat) (hf : 64 ≤ fuel) (hl : soln.length % 2 ^ 32 = (eqParams c).solLen → soln.length = (eqParams c).solLen) :
    ∃ r ∈ [(true, none), (false, none), (false, some Err.minimalLen), (false, some .collision), (false, some .order),
      (false, some .duplicate)], c.verify P fuel header soln = .ok r := by
  rcases equihash_outcome P c h header soln fuel hf with ⟨e, _⟩ | ⟨e, _⟩ | ⟨g, e, _⟩ | ⟨e, _⟩ | ⟨_, h1, h2⟩
  · exact ⟨_, by decide, e⟩
  · exact ⟨_, by decide, e⟩
  · exact ⟨_, by cases g <;> decide, e⟩
  · exact ⟨_, by decide, e⟩
  · exact absurd (hl h2) h1

/-- Exchanging two sibling blocks of an accepted solution makes `Verify` return the order error. -/
theorem C80_equihash_swap (P : Prims) (c : Client) (h : (eqParams c).WF) (header soln soln' : List Byte)
    (fuel : Nat) (hf : 64 ≤ fuel) (hv : c.verify P fuel header soln = .ok (true, none)) (r w : Nat) (hr : r < c.k.toNat)
    (hw : w < 2 ^ (c.k.toNat - (r + 1))) (hl : soln'.length = (eqParams c).solLen)
    (hs : indices (eqParams c) soln' = swapSiblings (indices (eqParams c) soln) r w) :
    c.verify P fuel header soln' = .ok (false, some .order) := by
  refine (C80_equihash_order P c h header soln' fuel hf).2 ⟨hl, ?_⟩
  rw [hs]
  rcases equihash_outcome P c h header soln fuel hf with ⟨_, _, hn, _⟩ | ⟨e, _⟩ | ⟨g, e, _⟩ | ⟨e, _⟩ | ⟨e, _⟩
  · refine swap_firstFault ?_ (indices_length (q := eqParams c) soln) hr hw hn
    intro r A B hag
    unfold Agree at hag ⊢
    rw [xorOf_append] at hag ⊢
    rwa [Nat.xor_comm]
  · rw [e] at hv; simp at hv
  · rw [e] at hv; simp at hv
  · rw [e] at hv; simp at hv
  · rw [e] at hv; simp at hv

/-- A solution of the right length whose first two indices are the same gives the duplicate error, whatever the hash function and header:
nothing is compared before them. -/
theorem C80_equihash_equal (P : Prims) (c : Client) (h : (eqParams c).WF) (hk : 0 < c.k.toNat) (header soln : List Byte) (fuel : Nat)
    (hf : 64 ≤ fuel) (hl : soln.length = (eqParams c).solLen)
    (he : (indices (eqParams c) soln)[0]? = (indices (eqParams c) soln)[1]?) :
    c.verify P fuel header soln = .ok (false, some .duplicate) := by
  have hsmall : (eqParams c).solLen < 2 ^ 32 := by have := h.small; unfold Params.solLen; omega
  refine (C80_equihash_duplicate P c h header soln fuel hf).2 ⟨hl, 0, 0, hk, Nat.two_pow_pos _, ?_, ?_⟩
  · have hil : (indices (eqParams c) soln).length = 2 ^ c.k.toNat := indices_length soln
    have h2 : 2 ≤ (indices (eqParams c) soln).length := by
      rw [hil]
      exact Nat.pow_le_pow_right (n := 2) (by omega) (show 1 ≤ c.k.toNat from hk)
    generalize indices (eqParams c) soln = ixs at he h2 ⊢
    unfold FaultAt
    rw [show 2 * 0 = 0 from rfl, show 0 + 1 = 1 from rfl, block_zero (show 0 < ixs.length by omega),
      block_zero (show 1 < ixs.length by omega)]
    rw [List.getElem?_eq_getElem (show 0 < ixs.length by omega), List.getElem?_eq_getElem (show 1 < ixs.length by omega)] at he
    rw [← Option.some.inj he]
    refine ⟨?_, ?_, ixs[0], by simp, by simp⟩
    · unfold Agree
      rw [xorOf_append, Nat.xor_self]
    · intro a b ha hb
      simp at ha hb
      omega
  · rintro r' w' _ (hx | ⟨_, hx⟩) <;> omega

end Equihash

/-! ## BeamHash III -/

section Beam

open Beam Spec.Beam

theorem beam_outcome (P : Prims) (c : Client) (hp : c.personal.length ≤ 8) (header soln : List Byte) (fuel : Nat) (hf : 6 ≤ fuel)
    (h1 : header.length = 40) (h2 : soln.length = 104) :
    Outcome (key P c.personal header (soln.drop 100)) (indices soln) (c.verify P fuel header soln) := by
  unfold Client.verify
  rw [if_neg (by omega), if_neg (by omega)]
  exact verify_outcome P c.personal header soln hp h2 fuel hf

/-- The two length errors; the header is looked at first. -/
theorem C80_beam_lengths (P : Prims) (c : Client) (hp : c.personal.length ≤ 8) (header soln : List Byte) (fuel : Nat) (hf : 6 ≤ fuel) :
    (c.verify P fuel header soln = .ok (false, some .headerLen) ↔ header.length ≠ 40) ∧
    (c.verify P fuel header soln = .ok (false, some .solnLen) ↔ header.length = 40 ∧ soln.length ≠ 104) := by
  by_cases h1 : header.length = 40
  · by_cases h2 : soln.length = 104
    · rcases beam_outcome P c hp header soln fuel hf h1 h2 with ⟨e, _⟩ | ⟨e, _⟩ | ⟨f, e, _⟩
      · rw [e]; simp [h1, h2]
      · rw [e]; simp [h1, h2]
      · rw [e]; cases f <;> simp [h1, h2, faultErr]
    · have e : c.verify P fuel header soln = .ok (false, some .solnLen) := by
        unfold Client.verify
        rw [if_neg (by omega), if_pos (by omega)]; rfl
      rw [e]; simp [h1, h2]
  · have e : c.verify P fuel header soln = .ok (false, some .headerLen) := by
      unfold Client.verify
      rw [if_pos h1]; rfl
    rw [e]; simp [h1]

theorem beam_fault (P : Prims) (c : Client) (hp : c.personal.length ≤ 8) (header soln : List Byte) (fuel : Nat) (hf : 6 ≤ fuel) (f : Fault) :
    c.verify P fuel header soln = .ok (false, some (faultErr f)) ↔
      header.length = 40 ∧ soln.length = 104 ∧ FirstFault 5 (Agree (key P c.personal header (soln.drop 100))) (indices soln) f := by
  by_cases h1 : header.length = 40
  · by_cases h2 : soln.length = 104
    · rcases beam_outcome P c hp header soln fuel hf h1 h2 with ⟨e, hn, _⟩ | ⟨e, hn, _⟩ | ⟨g, e, hg⟩
      · rw [e]; exact ⟨fun hh => by simp at hh, fun hh => absurd hn (not_noFault hh.2.2)⟩
      · rw [e]; exact ⟨fun hh => by simp at hh, fun hh => absurd hn (not_noFault hh.2.2)⟩
      · constructor
        · intro hh
          have : g = f := by rw [e] at hh; revert hh; cases f <;> cases g <;> simp [faultErr]
          exact ⟨h1, h2, this ▸ hg⟩
        · intro hh
          rw [e, firstFault_unique hg hh.2.2]
    · have e := ((C80_beam_lengths P c hp header soln fuel hf).2).2 ⟨h1, h2⟩
      rw [e]
      exact ⟨fun hh => by cases f <;> simp [faultErr] at hh, fun hh => absurd hh.2.1 h2⟩
  · have e := ((C80_beam_lengths P c hp header soln fuel hf).1).2 h1
    rw [e]
    exact ⟨fun hh => by cases f <;> simp [faultErr] at hh, fun hh => absurd hh.1 h1⟩

/-- The collision error: the first faulty pair does not agree in the low 24 bits of its mixed work strings. -/
theorem C80_beam_collision (P : Prims) (c : Client) (hp : c.personal.length ≤ 8) (header soln : List Byte) (fuel : Nat) (hf : 6 ≤ fuel) :
    c.verify P fuel header soln = .ok (false, some .collision) ↔
      header.length = 40 ∧ soln.length = 104 ∧
        FirstFault 5 (Agree (key P c.personal header (soln.drop 100))) (indices soln) .collision :=
  beam_fault P c hp header soln fuel hf .collision

/-- The order error: the first faulty pair agrees and its right block begins with the smaller index. -/
theorem C80_beam_order (P : Prims) (c : Client) (hp : c.personal.length ≤ 8) (header soln : List Byte) (fuel : Nat) (hf : 6 ≤ fuel) :
    c.verify P fuel header soln = .ok (false, some .order) ↔
      header.length = 40 ∧ soln.length = 104 ∧
        FirstFault 5 (Agree (key P c.personal header (soln.drop 100))) (indices soln) .order :=
  beam_fault P c hp header soln fuel hf .order

/-- The duplicate error: the first faulty pair agrees, is not out of order, and has an index in common. -/
theorem C80_beam_duplicate (P : Prims) (c : Client) (hp : c.personal.length ≤ 8) (header soln : List Byte) (fuel : Nat) (hf : 6 ≤ fuel) :
    c.verify P fuel header soln = .ok (false, some .duplicate) ↔
      header.length = 40 ∧ soln.length = 104 ∧
        FirstFault 5 (Agree (key P c.personal header (soln.drop 100))) (indices soln) .duplicate :=
  beam_fault P c hp header soln fuel hf .duplicate

/-- `(false, nil)`: no pair is faulty and the last work string is not zero. -/
theorem C80_beam_nil (P : Prims) (c : Client) (hp : c.personal.length ≤ 8) (header soln : List Byte) (fuel : Nat) (hf : 6 ≤ fuel) :
    c.verify P fuel header soln = .ok (false, none) ↔
      header.length = 40 ∧ soln.length = 104 ∧ NoFault 5 (Agree (key P c.personal header (soln.drop 100))) (indices soln) ∧
        work (key P c.personal header (soln.drop 100)) 5 (indices soln) ≠ 0 := by
  by_cases h1 : header.length = 40
  · by_cases h2 : soln.length = 104
    · have ho := beam_outcome P c hp header soln fuel hf h1 h2
      generalize key P c.personal header (soln.drop 100) = K at ho ⊢
      unfold Outcome at ho
      generalize work K 5 (indices soln) = wk at ho ⊢
      rcases ho with ⟨e, hn, hx⟩ | ⟨e, hn, hx⟩ | ⟨g, e, hg⟩
      · rw [e]; exact ⟨fun hh => by simp at hh, fun hh => absurd hx hh.2.2.2⟩
      · exact ⟨fun _ => ⟨h1, h2, hn, hx⟩, fun _ => e⟩
      · rw [e]; exact ⟨fun hh => by simp at hh, fun hh => absurd hh.2.2.1 (not_noFault hg)⟩
    · have e := ((C80_beam_lengths P c hp header soln fuel hf).2).2 ⟨h1, h2⟩
      rw [e]
      exact ⟨fun hh => by simp at hh, fun hh => absurd hh.2.1 h2⟩
  · have e := ((C80_beam_lengths P c hp header soln fuel hf).1).2 h1
    rw [e]
    exact ⟨fun hh => by simp at hh, fun hh => absurd hh.1 h1⟩

/-- Exchanging two sibling blocks of an accepted solution, with the extra nonce unchanged, gives the order error. -/
theorem C80_beam_swap (P : Prims) (c : Client) (hp : c.personal.length ≤ 8) (header soln soln' : List Byte) (fuel : Nat) (hf : 6 ≤ fuel)
    (hv : c.verify P fuel header soln = .ok (true, none)) (r w : Nat) (hr : r < 5) (hw : w < 2 ^ (5 - (r + 1)))
    (hl : soln'.length = 104) (hs : indices soln' = swapSiblings (indices soln) r w) (hn : soln'.drop 100 = soln.drop 100) :
    c.verify P fuel header soln' = .ok (false, some .order) := by
  obtain ⟨h1, h2, _⟩ := (C14_verify_iff P c hp header soln fuel hf).1 hv
  refine (C80_beam_order P c hp header soln' fuel hf).2 ⟨h1, hl, ?_⟩
  rw [hs, hn]
  rcases beam_outcome P c hp header soln fuel hf h1 h2 with ⟨_, hn, _⟩ | ⟨e, _⟩ | ⟨g, e, _⟩
  · exact swap_firstFault (fun r A B hag => Eq.symm hag) (indices_length soln) hr hw hn
  · rw [e] at hv; simp at hv
  · rw [e] at hv; simp at hv

/-- A solution whose first two indices are the same gives the duplicate error. -/
theorem C80_beam_equal (P : Prims) (c : Client) (hp : c.personal.length ≤ 8) (header soln : List Byte) (fuel : Nat) (hf : 6 ≤ fuel)
    (h1 : header.length = 40) (h2 : soln.length = 104) (he : (indices soln)[0]? = (indices soln)[1]?) :
    c.verify P fuel header soln = .ok (false, some .duplicate) := by
  refine (C80_beam_duplicate P c hp header soln fuel hf).2 ⟨h1, h2, 0, 0, by omega, by decide, ?_, ?_⟩
  · have hil := indices_length soln
    generalize indices soln = ixs at he hil ⊢
    unfold FaultAt
    rw [show 2 * 0 = 0 from rfl, show 0 + 1 = 1 from rfl, block_zero (show 0 < ixs.length by omega),
      block_zero (show 1 < ixs.length by omega)]
    rw [List.getElem?_eq_getElem (show 0 < ixs.length by omega), List.getElem?_eq_getElem (show 1 < ixs.length by omega)] at he
    rw [← Option.some.inj he]
    refine ⟨rfl, ?_, ixs[0], by simp, by simp⟩
    intro a b ha hb
    simp at ha hb
    omega
  · rintro r' w' _ (hx | ⟨_, hx⟩) <;> omega

/-- `New` accepts any personalisation. With more than eight bytes `Verify` panics on every header and solution of the right lengths, since
with the two numbers the string exceeds the sixteen bytes of the BLAKE2b parameter block. -/
theorem C80_beam_personal (P : Prims) (c : Client) (header soln : List Byte) (fuel : Nat) (hf : 6 ≤ fuel) :
    (∃ p, c.verify P fuel header soln = panic p) ↔ 8 < c.personal.length ∧ header.length = 40 ∧ soln.length = 104 := by
  constructor
  · rintro ⟨p, e⟩
    by_cases hp : c.personal.length ≤ 8
    · obtain ⟨r, hr⟩ := C17_total P c hp header soln fuel hf
      rw [hr] at e
      cases e
    · refine ⟨by omega, ?_, ?_⟩
      · by_contra h
        obtain ⟨er, h⟩ := C17_wrong_length P c header soln fuel (Or.inl h)
        rw [h] at e
        cases e
      · by_contra h
        obtain ⟨er, h⟩ := C17_wrong_length P c header soln fuel (Or.inr h)
        rw [h] at e
        cases e
  · rintro ⟨h1, h2, h3⟩
    refine ⟨.explicit, ?_⟩
    unfold Client.verify Beam.verify
    rw [if_neg (by omega), if_neg (by omega), prePow_long P c.personal header soln h1 h3]
    rfl

end Beam

/-! ## Concrete cases -/

/-- a hash function with the given 64 bytes as its only digest -/
def constPrims (d : List Byte) (h : d.length = 64) : Prims :=
  { Prims.zero with
    blake2bRaw := fun _ _ n => d.take n
    blake2bRaw_length := by intro _ _ n _ hn; simp [h, hn] }

/-- leaf 1 differs from the others in its first chunk -/
def collPrims : Prims := constPrims ([0, 0, 0, 0, 1] ++ List.replicate 59 0) rfl
/-- leaf 0 differs from the others in its last chunk -/
def lastPrims : Prims := constPrims ([0, 0, 0, 1] ++ List.replicate 60 0) rfl

example : toyEq.verify collPrims 64 [] toySol = .ok (false, some .collision) := by decide +kernel
example : toyEq.verify lastPrims 64 [] toySol = .ok (false, none) := by decide +kernel
-- the first fault decides: out of order (indices 1, 0, 2, 3, …), though index 7 is missing and 6 is there twice
example : Spec.Equihash.indices (eqParams toyEq) [0, 128, 0, 64, 48, 32, 20, 12, 6] = [1, 0, 2, 3, 4, 5, 6, 6] := by decide +kernel
example : toyEq.verify Prims.zero 64 [] [0, 128, 0, 64, 48, 32, 20, 12, 6] = .ok (false, some .order) := by decide +kernel
-- exchanged halves of the accepted solution
example : toyEq.verify Prims.zero 64 [] [2, 1, 64, 192, 112, 0, 4, 4, 3] = .ok (false, some .order) :=
  C80_equihash_swap Prims.zero toyEq toyEq_wf [] toySol _ 64 (by decide) (by decide +kernel) 2 0 (by decide) (by decide)
    (by decide +kernel) (by decide +kernel)
-- the all-zero solution of Zcash's length has equal indices: refused as a duplicate for every hash function and header
example (P : Prims) (header : List Byte) :
    Equihash.newZCash.verify P 64 header (List.replicate 1344 0) = .ok (false, some .duplicate) :=
  C80_equihash_equal P Equihash.newZCash (eqShipped_wf _ (by simp [eqShipped])) (by decide) header _ 64 (by omega)
    (by rw [List.length_replicate]; decide) (by decide +kernel)
example (P : Prims) (header : List Byte) (h : header.length = 40) :
    Beam.newBeam.verify P 6 header (List.replicate 104 0) = .ok (false, some .duplicate) :=
  C80_beam_equal P Beam.newBeam (by decide) header _ 6 (by omega) h (by simp) (by decide +kernel)

open Beam in
-- exchanged blocks of the test vector
example : ∃ soln', newBeam.verify beamPrims 6 beamHeader soln' = .ok (false, some .order) := by
  obtain ⟨s, h1, h2, h3⟩ := C15_swapped_exists beamSoln [0, 0, 0, 0] rfl 3 1 (by decide) (by decide)
  exact ⟨s, C80_beam_swap beamPrims newBeam (by decide) beamHeader beamSoln s 6 (by decide) beam_vector 3 1 (by decide) (by decide) h1 h2
    (by rw [h3]; decide +kernel)⟩
open Beam in
-- a personalisation of nine bytes
example : ∃ p, Client.verify beamPrims 6 ⟨150, 5, List.replicate 9 66⟩ beamHeader beamSoln = panic p :=
  (C80_beam_personal beamPrims ⟨150, 5, List.replicate 9 66⟩ beamHeader beamSoln 6 (by decide)).2 (by decide)

end Verif.Props
