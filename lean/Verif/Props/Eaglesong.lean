import Verif.Proof.EaglesongBij
import Verif.Proof.EaglesongPad

/-! # Eaglesong: properties C56-C58 -/

set_option autoImplicit false

namespace Verif.Props

open Go Eaglesong

/-- **C56** For every number of rounds up to 43, `permute` never panics on a sixteen-word state and is a bijection of those states. -/
theorem C56_permute_bijective (n : Nat) (hn : n ≤ 43) (t : List U32) (ht : t.length = 16) :
    ∃! s : List U32, s.length = 16 ∧ permute n s = .ok t := by
  obtain ⟨g, hg⟩ := permutation_bij n
  have h := hg t ht
  refine ⟨g t, ⟨h.2.1, by rw [permute_eq n hn _ h.2.1, h.2.2.2]⟩, ?_⟩
  rintro s ⟨hs, e⟩
  rw [permute_eq n hn s hs] at e
  have e' : Spec.Eaglesong.permutation n s = t := Except.ok.inj e
  rw [← e', (hg s hs).2.2.1]

/-- **C56** the value: `permute` runs the first `n` rounds of the specification -/
theorem C56_permute_spec (n : Nat) (hn : n ≤ 43) (s : List U32) (hs : s.length = 16) :
    permute n s = .ok (Spec.Eaglesong.permutation n s) ∧ (Spec.Eaglesong.permutation n s).length = 16 :=
  ⟨permute_eq n hn s hs, permutation_length n s hs⟩

/-- **C56** With more than 43 rounds the injection constants run out and `permute` panics. -/
theorem C56_too_many_rounds (n : Nat) (hn : 43 < n) (s : List U32) (hs : s.length = 16) : permute n s = .error (.panic .index) := by
  have h44 : permute 43 s = .ok (Spec.Eaglesong.permutation 43 s) := permute_eq 43 (by omega) s hs
  have hl := permutation_length 43 s hs
  have hr : roundStep 43 (Spec.Eaglesong.permutation 43 s) = .error (.panic .index) := by
    unfold roundStep
    rw [temp_loop _ hl, ok_bind, copy_loop _ _ (matrix_length _) hl, ok_bind, circ_loop _ (matrix_length _), ok_bind]
    have hcl := constants_length
    have hl16 := circulant_length (Spec.Eaglesong.matrix (Spec.Eaglesong.permutation 43 s))
    have : injectStep 43 0 (Spec.Eaglesong.circulant (Spec.Eaglesong.matrix (Spec.Eaglesong.permutation 43 s))) = .error (.panic .index) := by
      unfold injectStep
      rw [idx_ok _ _ (by omega), ok_bind, constants_eq, idx_err _ _ (by omega)]
      rfl
    rw [forRange, show 16 - 0 = 15 + 1 from rfl, loop, this]
    rfl
  unfold permute forRange at *
  rw [Nat.sub_zero] at *
  obtain ⟨d, rfl⟩ : ∃ d, n = 43 + (d + 1) := ⟨n - 44, by omega⟩
  rw [loop_add, h44, ok_bind, loop, Nat.zero_add, hr]
  rfl

/-- **C57** For the Nervos parameters `Compute` returns, for every input, the digest of the specification, which has 32 bytes. (No machine has
an input of 2^59 bytes.) -/
theorem C57_compute (input : List Byte) (hl : input.length < 2 ^ 59) :
    newNervos.compute input = .ok (Spec.Eaglesong.digest 43 0x06 input) ∧ (Spec.Eaglesong.digest 43 0x06 input).length = 32 :=
  ⟨eaglesong_eq 43 (by omega) 0x06 input hl, digest_length 43 0x06 input⟩

/-- **C57** The same with fewer rounds and any delimiter. -/
theorem C57_rounds_delim (c : Client) (hr : c.rounds ≤ 43) (hc : c.capacity = 32) (h256 : c.rate = 256) (input : List Byte) (hl : input.length < 2 ^ 59) :
    c.compute input = .ok (Spec.Eaglesong.digest c.rounds.toNat c.delim input) := by
  unfold Client.compute
  rw [hc, h256, eaglesong_eq c.rounds hr _ _ hl]

/-- **C57** `New` accepts a zero rate, and then every call panics with a division by zero. -/
theorem C57_zero_rate (c : Client) (h : c.rate = 0) (input : List Byte) : c.compute input = .error (.panic .divZero) := by
  unfold Client.compute eaglesong
  simp only []
  rw [if_pos h]
  rfl

/-- **C58** The claim that different inputs are absorbed differently is false: zero bytes in front of the bytes of an incomplete last word
do not change the digest. -/
theorem C58_collision (a b : List Byte) (z : Nat) (ha : a.length % 4 = 0) (hz : z + b.length ≤ 3)
    (hl : a.length < 2 ^ 58) : newNervos.compute (a ++ (List.replicate z 0 ++ b)) = newNervos.compute (a ++ b) := by
  rw [(C57_compute _ (by simp; omega)).1, (C57_compute _ (by simp; omega)).1]
  exact congrArg Except.ok (digest_of_alike 43 6 _ _ ⟨a, b, z, 0, rfl, by simp, ha, hz, by omega⟩)

/-- **C58** in particular, up to three zero bytes may be appended to an input whose length is a multiple of four -/
theorem C58_append_zeros (a : List Byte) (z : Nat) (ha : a.length % 4 = 0) (hz : z ≤ 3) (hl : a.length < 2 ^ 58) :
    newNervos.compute (a ++ List.replicate z 0) = newNervos.compute a := by
  have := C58_collision a [] z ha (by simpa using hz) hl
  simpa using this

/-- **C58** Those are the only pairs of inputs absorbed alike: the sequences of absorbed words of two inputs are equal exactly if the inputs
differ at most in the number of zero bytes at the start of the incomplete last word. -/
theorem C58_absorbed_iff (x y : List Byte) :
    (∀ w, Spec.Eaglesong.messageWord 0x06 x w = Spec.Eaglesong.messageWord 0x06 y w) ↔
      ∃ (a b : List Byte) (z z' : Nat), x = a ++ (List.replicate z 0 ++ b) ∧ y = a ++ (List.replicate z' 0 ++ b) ∧
        a.length % 4 = 0 ∧ z + b.length ≤ 3 ∧ z' + b.length ≤ 3 :=
  ⟨alike_of_words 0x06 (by decide) x.length x y (Nat.le_refl _), words_of_alike 0x06 x y⟩

/-- **C58** Inputs of equal length that are absorbed alike are equal. -/
theorem C58_equal_length (x y : List Byte) (hl : x.length = y.length)
    (h : ∀ w, Spec.Eaglesong.messageWord 0x06 x w = Spec.Eaglesong.messageWord 0x06 y w) : x = y := by
  obtain ⟨a, b, z, z', rfl, rfl, _, _, _⟩ := (C58_absorbed_iff x y).mp h
  have : z = z' := by simpa using hl
  rw [this]

/-! ## the hypotheses are met -/

/-- an actual collision: one zero byte, appended -/
example : newNervos.compute ([1, 2, 3, 4] ++ List.replicate 1 0) = newNervos.compute [1, 2, 3, 4] :=
  C58_append_zeros [1, 2, 3, 4] 1 rfl (by decide) (by decide)

/-- `[1]` and `[2]` are not absorbed alike -/
example : Spec.Eaglesong.messageWord 0x06 [1] 0 ≠ Spec.Eaglesong.messageWord 0x06 [2] 0 := by decide

/-- the permutation is not the identity -/
example : Spec.Eaglesong.permutation 1 (List.replicate 16 0) ≠ List.replicate 16 0 := by decide +kernel

/-- /repo/eaglesong/eaglesong_test.go: the digest of "Hello, world!\n" -/
theorem eaglesong_vector :
    Spec.Eaglesong.digest 43 0x06 [0x48, 0x65, 0x6c, 0x6c, 0x6f, 0x2c, 0x20, 0x77, 0x6f, 0x72, 0x6c, 0x64, 0x21, 0x0a] =
      [0x64, 0x86, 0x7e, 0x24, 0x41, 0xd1, 0x62, 0x61, 0x5d, 0xc2, 0x43, 0x0b, 0x6b, 0xcb, 0x4d, 0x3f,
       0x4b, 0x95, 0xe4, 0xd0, 0xdb, 0x52, 0x9f, 0xca, 0x1e, 0xec, 0xe7, 0x3c, 0x07, 0x7d, 0x72, 0xd6] := by
  decide +kernel

end Verif.Props
