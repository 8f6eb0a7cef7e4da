import Verif.Proof.EquihashFacts
import Verif.Proof.EquihashLong

/-! # Properties of Equihash verification (C07-C13, C84) -/

set_option autoImplicit false

namespace Verif.Props

open Go Equihash Spec Spec.Equihash Spec.Wagner

/-- the abstract parameters of a client -/
def eqParams (c : Client) : Params := ⟨c.n.toNat, c.k.toNat, c.personal, c.twist⟩

/-- the five clients constructed by the package -/
def eqShipped : List Client := [newFlux, newBitcoinGold, newZClassic, newZCash, newAion]

/-- the shipped clients are well-formed -/
theorem eqShipped_wf : ∀ c ∈ eqShipped, (eqParams c).WF := by
  intro c hc
  simp only [eqShipped, List.mem_cons, List.not_mem_nil, or_false] at hc
  rcases hc with rfl | rfl | rfl | rfl | rfl <;>
    exact ⟨by decide, by decide, by decide, by decide, by decide, by decide, by decide, by decide, by decide, by decide⟩

theorem eqLen_lt {c : Client} (h : (eqParams c).WF) : (eqParams c).solLen < 2 ^ 32 := by
  have := h.small; unfold Params.solLen; omega

/-- **C84.** A solution of 4 GiB or more is refused with the length error, except when its length is the right one modulo 2^32: then
`Verify` panics. This is independent of the hash function, of the header and of the bytes of the solution. -/
theorem C84_long (P : Prims) (c : Client) (h : (eqParams c).WF) (header soln : List Byte) (hlong : 2 ^ 32 ≤ soln.length) (fuel : Nat) :
    (soln.length % 2 ^ 32 = (eqParams c).solLen → c.verify P fuel header soln = .error (.panic .index)) ∧
    (soln.length % 2 ^ 32 ≠ (eqParams c).solLen → c.verify P fuel header soln = .ok (false, some .minimalLen)) := by
  have e : c.verify P fuel header soln = _ := verify_long P header h soln hlong fuel
  exact ⟨fun hm => by rw [e, if_pos hm], fun hm => by rw [e, if_neg hm]⟩

/-- **C07.** `Verify` returns `(true, nil)` exactly on the encodings of the Wagner solutions of the Zcash specification. -/
theorem C07_verify_iff (P : Prims) (c : Client) (h : (eqParams c).WF) (header soln : List Byte) (fuel : Nat) (hf : 64 ≤ fuel) :
    c.verify P fuel header soln = .ok (true, none) ↔
      soln.length = (eqParams c).solLen ∧ IsSolution P (eqParams c) header (indices (eqParams c) soln) := by
  by_cases h32 : 2 ^ 32 ≤ soln.length
  · have hl := eqLen_lt h
    obtain ⟨c1, c2⟩ := C84_long P c h header soln h32 fuel
    refine ⟨fun e => ?_, fun e => by omega⟩
    by_cases hm : soln.length % 2 ^ 32 = (eqParams c).solLen
    · rw [c1 hm] at e; simp at e
    · rw [c2 hm] at e; simp at e
  replace h32 := Nat.lt_of_not_le h32
  have := verify_spec P header h soln h32 fuel hf
  simp only at this
  rcases this with ⟨h1, h2⟩ | ⟨h1, h2⟩
  · exact ⟨fun _ => h2, fun _ => h1⟩
  · constructor
    · intro e
      exfalso
      have e' : verify P fuel (eqParams c).n (eqParams c).k (eqParams c).personal header soln (eqParams c).twist = .ok (true, none) := e
      rcases h1 with h1 | ⟨er, h1⟩ <;> rw [e'] at h1 <;> simp at h1
    · exact fun e => absurd e h2

/-- The shipped clients have the published parameters. -/
theorem C07_published : eqShipped.map eqParams = [flux, bitcoinGold, zclassic, zcash, aion] := by decide

/-- The same for the five shipped clients. -/
theorem C07_shipped (P : Prims) (c : Client) (hc : c ∈ eqShipped) (header soln : List Byte) (fuel : Nat) (hf : 64 ≤ fuel) :
    c.verify P fuel header soln = .ok (true, none) ↔
      soln.length = (eqParams c).solLen ∧ IsSolution P (eqParams c) header (indices (eqParams c) soln) :=
  C07_verify_iff P c (eqShipped_wf c hc) header soln fuel hf

/-- No fuel beyond 64 changes anything, and rejection is a regular return. -/
theorem C07_reject (P : Prims) (c : Client) (h : (eqParams c).WF) (header soln : List Byte) (h32 : soln.length < 2 ^ 32)
    (fuel : Nat) (hf : 64 ≤ fuel)
    (hn : ¬ (soln.length = (eqParams c).solLen ∧ IsSolution P (eqParams c) header (indices (eqParams c) soln))) :
    ∃ e, c.verify P fuel header soln = .ok (false, e) := by
  have := verify_spec P header h soln h32 fuel hf
  simp only at this
  rcases this with ⟨_, h2⟩ | ⟨h1 | ⟨er, h1⟩, _⟩
  · exact absurd h2 hn
  · exact ⟨_, h1⟩
  · exact ⟨_, h1⟩

/-- the accepted solution of the toy instance: indices 0..7 in nine-bit groups -/
def toySol : List Byte := [0, 0, 64, 64, 48, 32, 20, 12, 7]
/-- a small well-formed parameter set -/
def toyEq : Client := ⟨32, 3, [], false⟩
theorem toyEq_wf : (eqParams toyEq).WF :=
  ⟨by decide, by decide, by decide, by decide, by decide, by decide, by decide, by decide, by decide, by decide⟩

-- accepted and rejected runs of the model with the all-zero hash
example : toyEq.verify Prims.zero 64 [] toySol = .ok (true, none) := by decide +kernel
example : indices (eqParams toyEq) toySol = [0, 1, 2, 3, 4, 5, 6, 7] := by decide +kernel
example : toyEq.verify Prims.zero 64 [] [0, 0, 64, 64, 48, 32, 20, 12, 6] = .ok (false, some .duplicate) := by decide +kernel
example : toyEq.verify Prims.zero 64 [] [0, 128, 0, 64, 48, 32, 20, 12, 7] = .ok (false, some .order) := by decide +kernel
example : toyEq.verify Prims.zero 64 [] [0, 128, 0] = .ok (false, some .minimalLen) := by decide +kernel

/-- **C08.** An accepted solution consists of `2^k` distinct indices below `2^(c+1)` and the `n`-bit leaf strings of these
indices xor to zero. -/
theorem C08_accepted (P : Prims) (c : Client) (h : (eqParams c).WF) (header soln : List Byte) (fuel : Nat)
    (hf : 64 ≤ fuel) (hv : c.verify P fuel header soln = .ok (true, none)) :
    (indices (eqParams c) soln).length = 2 ^ c.k.toNat ∧ (indices (eqParams c) soln).Nodup ∧
      (∀ i ∈ indices (eqParams c) soln, i < 2 ^ ((eqParams c).c + 1)) ∧
      xorOf (leaf P (eqParams c) header) (indices (eqParams c) soln) = 0 := by
  obtain ⟨_, hs⟩ := (C07_verify_iff P c h header soln fuel hf).1 hv
  refine ⟨hs.length, hs.distinct, ?_, xor_leaves P header h hs⟩
  intro i hi
  simp only [indices, List.mem_map, List.mem_range] at hi
  obtain ⟨j, _, rfl⟩ := hi
  exact bitGroup_lt _ _ _

example : (indices (eqParams toyEq) toySol).Nodup :=
  (C08_accepted Prims.zero toyEq toyEq_wf [] toySol 64 (by decide) (by decide +kernel)).2.1

/-- **C09.** Every list of `2^k` indices below `2^(c+1)` is the decoding of exactly one byte string of the solution length. -/
theorem C09_bijection (c : Client) (h : (eqParams c).WF) (ixs : List Nat) (hl : ixs.length = 2 ^ c.k.toNat)
    (hlt : ∀ i ∈ ixs, i < 2 ^ ((eqParams c).c + 1)) :
    ∃! soln : List Byte, soln.length = (eqParams c).solLen ∧
      indicesFromMinimal c.n.toNat c.k.toNat soln = .ok (.ok (ixs.map (BitVec.ofNat 32))) := by
  have hsmall : (eqParams c).solLen < 2 ^ 32 := by have := h.small; unfold Params.solLen; omega
  have hdec : ∀ soln : List Byte, soln.length = (eqParams c).solLen →
      indicesFromMinimal c.n.toNat c.k.toNat soln = .ok (.ok ((indices (eqParams c) soln).map (BitVec.ofNat 32))) := by
    intro soln hsl
    have := decode_eq h soln (by omega)
    rw [if_pos hsl] at this
    exact this
  obtain ⟨soln, h1, h2⟩ := indices_surj h ixs hl hlt
  refine ⟨soln, ⟨h1, by rw [hdec soln h1, h2]⟩, ?_⟩
  rintro s' ⟨h3, h4⟩
  apply indices_inj h s' soln h3 h1
  rw [hdec s' h3] at h4
  rw [h2]
  have h5 : (indices (eqParams c) s').map (BitVec.ofNat 32) = ixs.map (BitVec.ofNat 32) := by simpa using h4
  have hc := h.c_hi
  have hp : 2 ^ ((eqParams c).c + 1) ≤ 2 ^ 26 := Nat.pow_le_pow_right (by omega) (by omega)
  apply List.ext_getElem
  · rw [indices_length, hl]; rfl
  · intro i hi hi'
    have h6 := congrArg (fun l => l[i]?) h5
    simp only [List.getElem?_map, List.getElem?_eq_getElem hi, List.getElem?_eq_getElem hi', Option.map_some, Option.some.injEq] at h6
    exact (ofNat_inj32 (indices_lt h s' _ (List.getElem_mem hi)) (Nat.lt_of_lt_of_le (hlt _ (List.getElem_mem hi')) hp)).1 h6

/-- Different accepted solutions decode to different index lists. -/
theorem C09_injective (P : Prims) (c : Client) (h : (eqParams c).WF) (header s1 s2 : List Byte)
    (fuel : Nat) (hf : 64 ≤ fuel) (v1 : c.verify P fuel header s1 = .ok (true, none))
    (v2 : c.verify P fuel header s2 = .ok (true, none)) (hne : s1 ≠ s2) : indices (eqParams c) s1 ≠ indices (eqParams c) s2 :=
  fun he => hne (indices_inj h s1 s2 ((C07_verify_iff P c h header s1 fuel hf).1 v1).1
    ((C07_verify_iff P c h header s2 fuel hf).1 v2).1 he)

example : indicesFromMinimal 32 3 toySol = .ok (.ok [0, 1, 2, 3, 4, 5, 6, 7]) := by decide +kernel

/-- **C10.** Exchanging the halves of any aligned block of an accepted solution gives a solution that is not accepted; such a
solution always exists. -/
theorem C10_canonical (P : Prims) (c : Client) (h : (eqParams c).WF) (header soln soln' : List Byte)
    (fuel : Nat) (hf : 64 ≤ fuel) (hv : c.verify P fuel header soln = .ok (true, none))
    (r w : Nat) (hr : r < c.k.toNat) (hw : w < 2 ^ (c.k.toNat - (r + 1)))
    (hs : indices (eqParams c) soln' = swapSiblings (indices (eqParams c) soln) r w) :
    c.verify P fuel header soln' ≠ .ok (true, none) := by
  obtain ⟨_, hs1⟩ := (C07_verify_iff P c h header soln fuel hf).1 hv
  intro hv'
  obtain ⟨_, hs2⟩ := (C07_verify_iff P c h header soln' fuel hf).1 hv'
  rw [hs] at hs2
  exact swap_not_ordered (k := (eqParams c).k) hs1.length hr hw hs1.ordered hs2.ordered

theorem C10_swapped_exists (c : Client) (h : (eqParams c).WF) (soln : List Byte) (r w : Nat) (hr : r < c.k.toNat)
    (hw : w < 2 ^ (c.k.toNat - (r + 1))) :
    ∃ soln' : List Byte, soln'.length = (eqParams c).solLen ∧
      indices (eqParams c) soln' = swapSiblings (indices (eqParams c) soln) r w := by
  have hl : (indices (eqParams c) soln).length = 2 ^ (eqParams c).k := indices_length soln
  apply indices_surj h
  · exact swap_length hl hr hw
  · intro i hi
    have : i ∈ indices (eqParams c) soln := by
      simp only [swapSiblings, List.mem_append] at hi
      rcases hi with ((hi | hi) | hi) | hi
      · exact List.mem_of_mem_take hi
      · exact block_mem hi
      · exact block_mem hi
      · exact List.mem_of_mem_drop hi
    simp only [indices, List.mem_map, List.mem_range] at this
    obtain ⟨j, _, rfl⟩ := this
    exact bitGroup_lt _ _ _

example : ∃ s' : List Byte, toyEq.verify Prims.zero 64 [] s' ≠ .ok (true, none) ∧
    indices (eqParams toyEq) s' = [0, 1, 2, 3, 6, 7, 4, 5] := by
  obtain ⟨s', h1, h2⟩ := C10_swapped_exists toyEq toyEq_wf toySol 1 1 (by decide) (by decide)
  exact ⟨s', C10_canonical Prims.zero toyEq toyEq_wf [] toySol s' 64 (by decide) (by decide +kernel) 1 1
    (by decide) (by decide) h2, by rw [h2]; decide +kernel⟩

/-- **C11.** On the shipped clients `Verify` terminates normally for every header and every solution, except those 4 GiB (or a multiple of
4 GiB) longer than a solution. -/
theorem C11_total (P : Prims) (c : Client) (hc : c ∈ eqShipped) (header soln : List Byte) (fuel : Nat) (hf : 64 ≤ fuel) :
    (∃ r, c.verify P fuel header soln = .ok r) ↔ ¬ ∃ m, 0 < m ∧ soln.length = (eqParams c).solLen + m * 2 ^ 32 := by
  have hl := eqLen_lt (eqShipped_wf c hc)
  by_cases h32 : 2 ^ 32 ≤ soln.length
  · obtain ⟨c1, c2⟩ := C84_long P c (eqShipped_wf c hc) header soln h32 fuel
    by_cases hm : soln.length % 2 ^ 32 = (eqParams c).solLen
    · rw [c1 hm]
      refine ⟨fun ⟨r, e⟩ => by simp at e, fun e => absurd ⟨soln.length / 2 ^ 32, ?_, ?_⟩ e⟩
      · exact Nat.div_pos h32 (by decide)
      · have := Nat.mod_add_div soln.length (2 ^ 32)
        rw [Nat.mul_comm]; omega
    · refine ⟨fun _ => ?_, fun _ => ⟨_, c2 hm⟩⟩
      rintro ⟨m, _, e⟩
      rw [e, Nat.add_mul_mod_self_right] at hm
      exact hm (Nat.mod_eq_of_lt hl)
  · refine ⟨fun _ => ?_, fun _ => ?_⟩
    · rintro ⟨m, hm, e⟩
      have : 1 * 2 ^ 32 ≤ m * 2 ^ 32 := Nat.mul_le_mul_right _ hm
      omega
    · by_cases hs : soln.length = (eqParams c).solLen ∧ IsSolution P (eqParams c) header (indices (eqParams c) soln)
      · exact ⟨_, (C07_shipped P c hc header soln fuel hf).2 hs⟩
      · obtain ⟨e, he⟩ := C07_reject P c (eqShipped_wf c hc) header soln (Nat.lt_of_not_le h32) fuel hf hs
        exact ⟨_, he⟩

/-- **C84.** The shipped clients panic on every solution 4 GiB too long, … -/
theorem C84_shipped (P : Prims) (c : Client) (hc : c ∈ eqShipped) (header soln : List Byte) (m : Nat) (hm : 0 < m)
    (hl : soln.length = (eqParams c).solLen + m * 2 ^ 32) (fuel : Nat) : c.verify P fuel header soln = .error (.panic .index) := by
  have hlt := eqLen_lt (eqShipped_wf c hc)
  have : 1 * 2 ^ 32 ≤ m * 2 ^ 32 := Nat.mul_le_mul_right _ hm
  refine (C84_long P c (eqShipped_wf c hc) header soln (by omega) fuel).1 ?_
  rw [hl, Nat.add_mul_mod_self_right]
  exact Nat.mod_eq_of_lt hlt

/-- … in particular when anything of 4 GiB is appended to a solution they accept. -/
theorem C84_appended (P : Prims) (c : Client) (hc : c ∈ eqShipped) (header soln junk : List Byte) (fuel : Nat) (hf : 64 ≤ fuel)
    (hv : c.verify P fuel header soln = .ok (true, none)) (hj : junk.length = 2 ^ 32) :
    c.verify P fuel header (soln ++ junk) = .error (.panic .index) := by
  refine C84_shipped P c hc header _ 1 (by omega) ?_ fuel
  rw [List.length_append, hj, ((C07_shipped P c hc header soln fuel hf).1 hv).1, Nat.one_mul]

/-- the indices 0..15 in 26-bit groups -/
def fluxSol : List Byte := [0, 0, 0, 0, 0, 0, 16, 0, 0, 8, 0, 0, 3, 0, 0, 1, 0, 0, 0, 80, 0, 0, 24, 0, 0, 7, 0, 0, 2, 0, 0, 0, 144, 0, 0, 40, 0, 0, 11, 0, 0, 3, 0, 0, 0, 208, 0, 0, 56, 0, 0, 15]

example : newFlux.verify Prims.zero 64 [1, 2, 3] fluxSol = .ok (true, none) := by decide +kernel
example : newAion.verify Prims.zero 64 [1, 2, 3] fluxSol = .ok (false, some .minimalLen) := by decide +kernel

/-- **C12.** `expandArray` unpacks the successive `b`-bit big-endian groups of its input, each to `pad` zero bytes followed by
the group in big-endian bytes, and zero-fills the buffer. (When the computed output length equals the input length the code
returns its input; that case is the next theorem.) -/
theorem C12_expandArray (input : List Byte) (b pad : Nat) (hb : 8 ≤ b) (hg : b + 8 - Nat.gcd 8 b ≤ 32) (hpad : pad ≤ 4)
    (hsz : 8 * ((b + 7) / 8 + pad) * input.length < 2 ^ 32)
    (hne : 8 * ((b + 7) / 8 + pad) * input.length / b ≠ input.length) :
    ∃ tail, expandArray input b pad = .ok (.ok (((List.range (8 * input.length / b)).flatMap fun g =>
        List.replicate pad 0 ++ beEncode ((b + 7) / 8) (bitGroup input b g)) ++ List.replicate tail 0)) ∧
      8 * input.length / b * ((b + 7) / 8 + pad) + tail = 8 * ((b + 7) / 8 + pad) * input.length / b := by
  have hl : input.length < 2 ^ 32 := by
    have h1 : 1 ≤ 8 * ((b + 7) / 8 + pad) := by omega
    have h2 := Nat.mul_le_mul_right input.length h1
    omega
  have := expandArray_eq input b pad hb hg hsz hpad hl
  rw [if_neg hne] at this
  refine ⟨_, this, ?_⟩
  have hfit : 8 * input.length / b * ((b + 7) / 8 + pad) ≤ 8 * ((b + 7) / 8 + pad) * input.length / b := by
    rw [Nat.le_div_iff_mul_le (by omega)]
    have h3 : 8 * input.length / b * b ≤ 8 * input.length := Nat.div_mul_le_self _ _
    calc 8 * input.length / b * ((b + 7) / 8 + pad) * b = 8 * input.length / b * b * ((b + 7) / 8 + pad) := by ring
      _ ≤ 8 * input.length * ((b + 7) / 8 + pad) := Nat.mul_le_mul_right _ h3
      _ = _ := by ring
  omega

/-- For a whole number of bytes per group, no padding and a whole number of groups, the identity branch is the same function. -/
theorem C12_identity (input : List Byte) (w m : Nat) (hw : 1 ≤ w) (hw4 : w ≤ 4) (hm : input.length = w * m)
    (hsz : 8 * w * input.length < 2 ^ 32) :
    expandArray input (8 * w) 0 = .ok (.ok ((List.range m).flatMap fun g => beEncode w (bitGroup input (8 * w) g))) := by
  have hg : Nat.gcd 8 (8 * w) = 8 := Nat.gcd_eq_left (Nat.dvd_mul_right 8 w)
  have e1 : (8 * w + 7) / 8 = w := by omega
  have hl : input.length < 2 ^ 32 := by
    have h2 := Nat.mul_le_mul_right input.length (show 1 ≤ 8 * w by omega)
    omega
  have := expandArray_eq input (8 * w) 0 (by omega) (by rw [hg]; omega) (by rw [e1]; exact hsz) (by omega) hl
  rw [this, e1, Nat.add_zero, Nat.mul_div_cancel_left _ (by omega), if_pos rfl]
  congr 2
  exact (unpacked_id input w m hm).symm

/-- Outside the accumulator bound the guard `8 ≤ b ≤ 32` still admits the call, but bits are lost. -/
theorem C12_lossy (b : Nat) (hb : b ∈ [27, 29, 30, 31]) : ∃ input out : List Byte,
    expandArray input b 0 = .ok (.ok out) ∧ 8 * 4 * input.length / b ≠ input.length ∧
      out.take (8 * input.length / b * 4) ≠ (List.range (8 * input.length / b)).flatMap fun g => beEncode 4 (bitGroup input b g) := by
  refine ⟨List.replicate 32 255, (match expandArray (List.replicate 32 255) b 0 with | .ok (.ok o) => o | _ => []), ?_⟩
  simp only [List.mem_cons, List.not_mem_nil, or_false] at hb
  rcases hb with rfl | rfl | rfl | rfl <;> decide +kernel

example : expandArray [0xAB, 0xCD, 0xEF] 12 1 = .ok (.ok [0, 0x0A, 0xBC, 0, 0x0D, 0xEF]) := by decide +kernel
example : expandArray [1, 2, 3, 4] 16 0 = .ok (.ok [1, 2, 3, 4]) := by decide +kernel

/-- **C13.** The group hash: plain BLAKE2b, or with `twist` the lane sums over the offsets from `g` with its low four bits
cleared up to `g`, with the low three bits of every 16th byte cleared (`Spec.Equihash.groupHash`). -/
theorem C13_generateHash (P : Prims) (c : Client) (h : (eqParams c).WF) (header : List Byte) (g : U32) (hg : g.toNat < 2 ^ 32 - 1)
    (fuel : Nat) (hf : 17 ≤ fuel) :
    generateHash P fuel header (c.personal ++ leEncode 4 c.n.toNat ++ leEncode 4 c.k.toNat) g (eqParams c).digest c.twist =
      .ok (groupHash P (eqParams c) header g.toNat) :=
  generateHash_eq P h header g hg fuel hf

/-- a hash primitive that returns its input, cyclically -/
def echo : Prims := { Prims.zero with
  blake2bRaw := fun d _ n => (List.range n).map fun i => d.getD (i % d.length) 0
  blake2bRaw_length := by intros; simp }

-- with this primitive the header is one word of the block and the offset the other
example : (generateHash echo 17 [9, 9, 9, 255] (newFlux.personal ++ [125, 0, 0, 0] ++ [4, 0, 0, 0]) 2 64 true) =
    .ok ((List.range 8).flatMap fun _ => [27, 27, 27, 253, 3, 0, 0, 0]) := by decide +kernel

-- 1344 + 4294967296 zero bytes
example (P : Prims) (header : List Byte) :
    newZCash.verify P 64 header (List.replicate (1344 + 2 ^ 32) 0) = .error (.panic .index) :=
  C84_shipped P newZCash (by simp [eqShipped]) header _ 1 (by decide)
    (by rw [List.length_replicate, show (eqParams newZCash).solLen = 1344 by decide, Nat.one_mul]) 64
example (P : Prims) (header : List Byte) :
    newZCash.verify P 64 header (List.replicate (1345 + 2 ^ 32) 0) = .ok (false, some .minimalLen) :=
  (C84_long P newZCash (eqShipped_wf _ (by simp [eqShipped])) header _ (by rw [List.length_replicate]; omega) 64).2
    (by rw [List.length_replicate, show (eqParams newZCash).solLen = 1344 by decide]; omega)
-- the accepted solution followed by 4 GiB of any bytes
example (junk : List Byte) (hj : junk.length = 2 ^ 32) :
    newFlux.verify Prims.zero 64 [1, 2, 3] (fluxSol ++ junk) = .error (.panic .index) :=
  C84_appended Prims.zero newFlux (by simp [eqShipped]) _ _ _ 64 (by decide) (by decide +kernel) hj

end Verif.Props
