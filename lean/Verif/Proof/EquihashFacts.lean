import Verif.Proof.EquihashVerify
import Verif.Proof.Packing

/-! # Consequences of the Equihash conditions; the solution encoding is a bijection -/

set_option autoImplicit false

namespace Verif.Equihash

open Go Spec Spec.Equihash Spec.Wagner Packing

variable {q : Params} (P : Prims) (header : List Byte)

theorem xorOf_testBit (f : Nat → Nat) (l : List Nat) (t s c : Nat) (ht : t < c) :
    (xorOf f l).testBit (s + t) = (xorOf (fun i => f i / 2 ^ s % 2 ^ c) l).testBit t := by
  induction l with
  | nil => simp [xorOf]
  | cons a l ih =>
    have e1 : xorOf f (a :: l) = f a ^^^ xorOf f l := rfl
    have e2 : xorOf (fun i => f i / 2 ^ s % 2 ^ c) (a :: l) = (f a / 2 ^ s % 2 ^ c) ^^^ xorOf (fun i => f i / 2 ^ s % 2 ^ c) l := rfl
    rw [e1, e2, Nat.testBit_xor, Nat.testBit_xor, ih, Nat.testBit_mod_two_pow, Nat.testBit_div_two_pow]
    simp [ht, Nat.add_comm]

theorem leaf_lt (i : Nat) : leaf P q header i < 2 ^ q.n := by
  unfold leaf
  rw [Nat.div_lt_iff_lt_mul (Nat.two_pow_pos _), ← Nat.pow_add]
  have hn := n_le_nb q
  rw [show q.n + (8 * q.nb - q.n) = 8 * q.nb by omega]
  have hl : ∀ l : List Byte, beValue (l.take q.nb) < 2 ^ (8 * q.nb) := by
    intro l
    rw [beValue_eq]
    refine Nat.lt_of_lt_of_le (beNat_lt _) ?_
    rw [pow256]
    apply Nat.pow_le_pow_right (by omega)
    have := List.length_take_le q.nb l
    omega
  exact hl _

/-- the full leaf strings xor to zero -/
theorem xor_leaves (h : q.WF) {ixs : List Nat} (hs : IsSolution P q header ixs) : xorOf (leaf P q header) ixs = 0 := by
  have hc : ∀ r ≤ q.k, xorOf (fun i => chunk P q header i r) ixs = 0 := by
    intro r hr
    rcases Nat.lt_or_ge r q.k with hlt | hge
    · exact xor_up _ hs.length (r + 1) hlt (fun w hw => hs.collide r hlt w hw)
    · obtain rfl : r = q.k := by omega
      exact hs.zero
  have hlt : xorOf (leaf P q header) ixs < 2 ^ q.n := xorOf_lt _ q.n (leaf_lt P header) ixs
  apply Nat.eq_of_testBit_eq
  intro t
  rw [Nat.zero_testBit]
  rcases Nat.lt_or_ge t q.n with ht | ht
  · have hclo := h.c_lo
    have hdiv := h.div
    have htd : t / q.c < q.k + 1 := by
      rw [Nat.div_lt_iff_lt_mul (by omega)]; omega
    have hmod := Nat.mod_lt t (show 0 < q.c by omega)
    have hda := Nat.div_add_mod t q.c
    have hsh : q.n - (q.k - t / q.c + 1) * q.c = q.c * (t / q.c) := by
      have e : q.k + 1 = (q.k - t / q.c + 1) + t / q.c := by omega
      have : q.n = (q.k - t / q.c + 1) * q.c + q.c * (t / q.c) := by
        conv_lhs => rw [hdiv, e]
        ring
      omega
    have := xorOf_testBit (leaf P q header) ixs (t % q.c) (q.c * (t / q.c)) q.c hmod
    rw [hda] at this
    rw [this]
    have hz := hc (q.k - t / q.c) (Nat.sub_le _ _)
    simp only [chunk] at hz
    rw [hsh] at hz
    rw [hz, Nat.zero_testBit]
  · exact Nat.testBit_lt_two_pow (Nat.lt_of_lt_of_le hlt (Nat.pow_le_pow_right (by omega) ht))

/-! ### the encoding -/

theorem bitGroup_digit (h : q.WF) (soln : List Byte) (hl : soln.length = q.solLen) (g : Nat) :
    bitGroup soln (q.c + 1) g = beNat soln / (2 ^ (q.c + 1)) ^ (2 ^ q.k - 1 - g) % 2 ^ (q.c + 1) := by
  have hsl := solLen_mul h
  unfold bitGroup
  rw [beValue_eq, hl, hsl, ← Nat.pow_mul]
  congr 3
  rw [← Nat.sub_mul, Nat.mul_comm]
  congr 1
  omega

theorem pow_solLen (h : q.WF) : 256 ^ q.solLen = (2 ^ (q.c + 1)) ^ 2 ^ q.k := by
  rw [pow256, solLen_mul h, ← Nat.pow_mul, Nat.mul_comm]

theorem indices_inj (h : q.WF) (a b : List Byte) (ha : a.length = q.solLen) (hb : b.length = q.solLen)
    (he : indices q a = indices q b) : a = b := by
  have hn : beNat a = beNat b := by
    apply digits_inj (2 ^ (q.c + 1)) (Nat.two_pow_pos _) (2 ^ q.k)
    · rw [← pow_solLen h, ← ha]; exact beNat_lt a
    · rw [← pow_solLen h, ← hb]; exact beNat_lt b
    · intro g hg
      rw [← bitGroup_digit h a ha, ← bitGroup_digit h b hb]
      have := congrArg (fun l => l[g]?) he
      simpa [indices, hg] using this
  exact beNat_inj a b (by omega) hn

theorem indices_surj (h : q.WF) (ixs : List Nat) (hl : ixs.length = 2 ^ q.k) (hlt : ∀ i ∈ ixs, i < 2 ^ (q.c + 1)) :
    ∃ soln : List Byte, soln.length = q.solLen ∧ indices q soln = ixs := by
  refine ⟨beEncode q.solLen (pack (2 ^ (q.c + 1)) ixs), by simp, ?_⟩
  have hp := pack_lt (2 ^ (q.c + 1)) ixs hlt
  apply List.ext_getElem
  · rw [indices_length, hl]
  · intro g h1 h2
    simp only [indices, List.getElem_map, List.getElem_range]
    rw [bitGroup_digit h _ (by simp), beNat_beEncode, pow_solLen h, ← hl, Nat.mod_eq_of_lt hp]
    exact pack_digit _ ixs hlt g h2

end Verif.Equihash
