import Verif.Proof.BeamFacts
import Verif.Test.Table

/-! # Properties of BeamHash III verification (C14-C17) -/

set_option autoImplicit false

namespace Verif.Props

open Go Beam Spec Spec.Beam Spec.Wagner

/-! ## A concrete case: the first vector of beamhashiii_test.go with its true BLAKE2b digest -/

/-- header of the vector -/
def beamHeader : List Byte :=
  [252, 64, 153, 106, 81, 140, 34, 19, 132, 201, 242, 84, 44, 168, 17, 205, 102, 196, 204, 221, 176, 1, 239, 64, 185,
  249, 186, 5, 156, 32, 53, 46, 179, 44, 125, 79, 7, 163, 0, 28]

/-- solution of the vector -/
def beamSoln : List Byte :=
  [15, 200, 28, 104, 75, 226, 41, 195, 107, 132, 78, 248, 41, 154, 151, 68, 219, 184, 114, 114, 118, 191, 248, 203, 214,
  16, 250, 116, 20, 251, 108, 253, 103, 185, 37, 134, 248, 79, 139, 255, 174, 235, 153, 38, 105, 148, 215, 157, 163,
  251, 2, 106, 36, 18, 139, 132, 144, 31, 36, 75, 8, 238, 107, 107, 149, 67, 114, 252, 176, 167, 211, 51, 24, 218, 107,
  241, 133, 74, 228, 143, 148, 254, 138, 242, 211, 20, 123, 220, 115, 2, 204, 18, 218, 161, 163, 6, 81, 17, 34, 167, 0,
  0, 0, 0]

/-- BLAKE2b-256 of the header and extra nonce, personalised "Beam-PoW" ‖ 448 ‖ 5 -/
def beamPrims : Prims :=
  Test.tableB [(beamHeader ++ [0, 0, 0, 0], [66, 101, 97, 109, 45, 80, 111, 87, 0xC0, 1, 0, 0, 5, 0, 0, 0],
  [55, 93, 197, 77, 99, 97, 192, 56, 186, 75, 59, 34, 156, 63, 53, 113, 174, 70, 24, 58, 171, 104, 165, 61, 189, 81, 9,
  217, 108, 255, 152, 200])]

def beamAccepted (r : Go (Bool × Option Err)) : Bool := match r with | .ok (true, none) => true | _ => false

theorem beamAccepted_eq (r : Go (Bool × Option Err)) (h : beamAccepted r = true) : r = .ok (true, none) := by
  unfold beamAccepted at h
  split at h
  · rfl
  · exact absurd h (by simp)

set_option maxRecDepth 100000 in
theorem beam_vector : newBeam.verify beamPrims 6 beamHeader beamSoln = .ok (true, none) :=
  beamAccepted_eq _ (by decide +kernel)


/-- **C14.** `Verify` returns `(true, nil)` exactly for a 40-byte header, a 104-byte solution whose 32 indices satisfy the
BeamHash III conditions. `New` accepts any personalisation; the BLAKE2b parameter block has room for eight bytes besides the two
numbers. -/
theorem C14_verify_iff (P : Prims) (c : Client) (hp : c.personal.length ≤ 8) (header soln : List Byte) (fuel : Nat) (hf : 6 ≤ fuel) :
    c.verify P fuel header soln = .ok (true, none) ↔
      header.length = 40 ∧ soln.length = 104 ∧ IsSolution (key P c.personal header (soln.drop 100)) (indices soln) := by
  unfold Client.verify
  by_cases h1 : header.length = 40
  · rw [if_neg (by omega)]
    by_cases h2 : soln.length = 104
    · rw [if_neg (by omega)]
      rcases verify_spec P c.personal header soln hp h2 fuel hf with ⟨h3, h4⟩ | ⟨h3, h4⟩
      · exact ⟨fun _ => ⟨h1, h2, h4⟩, fun _ => h3⟩
      · constructor
        · intro e
          rcases h3 with h3 | ⟨er, h3⟩ <;> rw [h3] at e <;> simp at e
        · exact fun e => absurd e.2.2 h4
    · rw [if_pos h2]
      exact ⟨fun e => by simp at e, fun e => absurd e.2.1 h2⟩
  · rw [if_pos h1]
    exact ⟨fun e => by simp at e, fun e => absurd e.1 h1⟩

/-- The shipped client: personalisation "Beam-PoW". -/
theorem C14_newBeam (P : Prims) (header soln : List Byte) (fuel : Nat) (hf : 6 ≤ fuel) :
    newBeam.verify P fuel header soln = .ok (true, none) ↔
      header.length = 40 ∧ soln.length = 104 ∧
        IsSolution (key P [66, 101, 97, 109, 45, 80, 111, 87] header (soln.drop 100)) (indices soln) :=
  C14_verify_iff P newBeam (by decide) header soln fuel hf

/-- the vector is a solution in the sense of the specification -/
example : IsSolution (key beamPrims [66, 101, 97, 109, 45, 80, 111, 87] beamHeader [0, 0, 0, 0]) (indices beamSoln) :=
  ((C14_newBeam beamPrims beamHeader beamSoln 6 (by decide)).1 beam_vector).2.2

/-- **C15.** Accepted solutions have 32 distinct indices below `2^25`. -/
theorem C15_distinct (P : Prims) (c : Client) (hp : c.personal.length ≤ 8) (header soln : List Byte) (fuel : Nat) (hf : 6 ≤ fuel)
    (hv : c.verify P fuel header soln = .ok (true, none)) :
    (indices soln).length = 32 ∧ (indices soln).Nodup ∧ ∀ i ∈ indices soln, i < 2 ^ 25 := by
  obtain ⟨_, _, hs⟩ := (C14_verify_iff P c hp header soln fuel hf).1 hv
  exact ⟨hs.length, hs.distinct, indices_lt soln⟩

example : (indices beamSoln).Nodup := (C15_distinct beamPrims newBeam (by decide) beamHeader beamSoln 6 (by decide) beam_vector).2.1

/-- Swapping the halves of any aligned block of an accepted solution gives a solution that is not accepted. -/
theorem C15_canonical (P : Prims) (c : Client) (hp : c.personal.length ≤ 8) (header soln soln' : List Byte) (fuel : Nat) (hf : 6 ≤ fuel)
    (hv : c.verify P fuel header soln = .ok (true, none)) (r w : Nat) (hr : r < 5) (hw : w < 2 ^ (5 - (r + 1)))
    (hs : indices soln' = swapSiblings (indices soln) r w) : c.verify P fuel header soln' ≠ .ok (true, none) := by
  obtain ⟨_, _, hs1⟩ := (C14_verify_iff P c hp header soln fuel hf).1 hv
  intro hv'
  obtain ⟨_, _, hs2⟩ := (C14_verify_iff P c hp header soln' fuel hf).1 hv'
  have ho := hs2.ordered
  rw [hs] at ho
  exact swap_not_ordered (k := 5) hs1.length hr hw hs1.ordered ho

/-- Such a swapped solution always exists, with any extra nonce. -/
theorem C15_swapped_exists (soln nonce : List Byte) (hn : nonce.length = 4) (r w : Nat) (hr : r < 5) (hw : w < 2 ^ (5 - (r + 1))) :
    ∃ soln' : List Byte, soln'.length = 104 ∧ indices soln' = swapSiblings (indices soln) r w ∧ soln'.drop 100 = nonce := by
  have hl : (indices soln).length = 2 ^ 5 := indices_length soln
  apply soln_surj _ (swap_length hl hr hw) _ nonce hn
  intro i hi
  apply indices_lt soln
  simp only [swapSiblings, List.mem_append] at hi
  rcases hi with ((hi | hi) | hi) | hi
  · exact List.mem_of_mem_take hi
  · exact block_mem hi
  · exact block_mem hi
  · exact List.mem_of_mem_drop hi

example : ∃ soln', soln'.length = 104 ∧ newBeam.verify beamPrims 6 beamHeader soln' ≠ .ok (true, none) := by
  obtain ⟨s, h1, h2, _⟩ := C15_swapped_exists beamSoln [0, 0, 0, 0] rfl 0 0 (by decide) (by decide)
  exact ⟨s, h1, C15_canonical beamPrims newBeam (by decide) beamHeader beamSoln s 6 (by decide) beam_vector 0 0 (by decide) (by decide) h2⟩

/-- **C16.** Every list of 32 indices below `2^25` together with four nonce bytes is the decoding of exactly one 104-byte solution. -/
theorem C16_bijection (ixs : List Nat) (hl : ixs.length = 32) (hlt : ∀ i ∈ ixs, i < 2 ^ 25) (nonce : List Byte) (hn : nonce.length = 4) :
    ∃! soln : List Byte, soln.length = 104 ∧ soln.drop 100 = nonce ∧
      indicesFromMinimal soln = .ok (ixs.map (BitVec.ofNat 32)) := by
  obtain ⟨soln, h1, h2, h3⟩ := soln_surj ixs hl hlt nonce hn
  refine ⟨soln, ⟨h1, h3, by rw [indices_eq soln h1, h2]⟩, ?_⟩
  rintro s' ⟨k1, k2, k3⟩
  apply soln_inj s' soln k1 h1
  · rw [indices_eq s' k1] at k3
    have h5 : (indices s').map (BitVec.ofNat 32) = ixs.map (BitVec.ofNat 32) := by injection k3
    rw [h2]
    apply List.ext_getElem?
    intro i
    have h6 := congrArg (fun l => l[i]?) h5
    simp only [List.getElem?_map] at h6
    cases ha : (indices s')[i]? with
    | none => rw [ha] at h6; cases hb : ixs[i]? with
      | none => rfl
      | some b => rw [hb] at h6; simp at h6
    | some a =>
      cases hb : ixs[i]? with
      | none => rw [ha, hb] at h6; simp at h6
      | some b =>
        rw [ha, hb] at h6
        simp only [Option.map_some, Option.some.injEq] at h6
        rw [(ofNat_inj32 (indices_lt s' a (List.mem_of_getElem? ha)) (hlt b (List.mem_of_getElem? hb))).1 h6]
  · rw [k2, h3]

example : ∃! soln : List Byte, soln.length = 104 ∧ soln.drop 100 = [1, 2, 3, 4] ∧
    indicesFromMinimal soln = .ok ((List.range 32).map (BitVec.ofNat 32)) :=
  C16_bijection (List.range 32) (by simp) (fun i hi => Nat.lt_trans (List.mem_range.1 hi) (by decide)) [1, 2, 3, 4] rfl

/-- The last four bytes enter the hashed state verbatim, after the header. -/
theorem C16_extraNonce (P : Prims) (c : Client) (hp : c.personal.length ≤ 8) (header soln : List Byte) (hl : soln.length = 104) :
    initializePrePow P c.personal header soln =
      .ok (let h := P.blake2bRaw (header ++ soln.drop 100) (c.personal ++ [0xC0, 1, 0, 0] ++ [5, 0, 0, 0]) 32
        [leWord64 h 0, leWord64 h 1, leWord64 h 2, leWord64 h 3]) := by
  rw [prePow_eq P c.personal header soln hp hl]
  rfl

/-- **C17.** `Verify` returns normally for every header and solution. -/
theorem C17_total (P : Prims) (c : Client) (hp : c.personal.length ≤ 8) (header soln : List Byte) (fuel : Nat) (hf : 6 ≤ fuel) :
    ∃ r, c.verify P fuel header soln = .ok r := by
  unfold Client.verify
  by_cases h1 : header.length = 40
  · rw [if_neg (by omega)]
    by_cases h2 : soln.length = 104
    · rw [if_neg (by omega)]
      rcases verify_spec P c.personal header soln hp h2 fuel hf with ⟨h3, _⟩ | ⟨h3 | ⟨er, h3⟩, _⟩
      · exact ⟨_, h3⟩
      · exact ⟨_, h3⟩
      · exact ⟨_, h3⟩
    · rw [if_pos h2]; exact ⟨_, rfl⟩
  · rw [if_pos h1]; exact ⟨_, rfl⟩

theorem C17_wrong_length (P : Prims) (c : Client) (header soln : List Byte) (fuel : Nat) (h : header.length ≠ 40 ∨ soln.length ≠ 104) :
    ∃ e, c.verify P fuel header soln = .ok (false, some e) := by
  unfold Client.verify
  by_cases h1 : header.length = 40
  · rw [if_neg (by omega), if_pos (by omega)]; exact ⟨_, rfl⟩
  · rw [if_pos h1]; exact ⟨_, rfl⟩

example : beamAccepted (newBeam.verify beamPrims 6 beamHeader (beamSoln.take 103)) = false := by decide +kernel

end Verif.Props
