import Verif.Props.Progpow
import Verif.Props.Keccak

/-! # The seed states of KAWPOW, FiroPoW and ProgPoW: property C69 -/

set_option autoImplicit false

namespace Verif.Props

open Go Progpow Crypto

theorem f800_injective (l l' : List U32) (hl : l.length = 25) (hl' : l'.length = 25) (h : Spec.Keccak.f800 l = Spec.Keccak.f800 l') : l = l' :=
  (C69_bijective _ (f800_length l)).unique ⟨hl, keccakF800_eq l hl⟩ ⟨hl', by rw [keccakF800_eq l' hl', h]⟩

theorem absorbSeed_inj (hash hash' : List Byte) (hh : hash.length = 32) (hh' : hash'.length = 32) (nonce nonce' : U64) (pad : List U32)
    (h : Spec.Progpow.absorbSeed hash nonce.toNat pad = Spec.Progpow.absorbSeed hash' nonce'.toNat pad) : hash = hash' ∧ nonce = nonce' := by
  rw [Spec.Progpow.absorbSeed, Spec.Progpow.absorbSeed] at h
  have h1 := List.append_cancel_right h
  obtain ⟨h2, h3⟩ := List.append_inj h1 (by simp)
  constructor
  · have hw : ∀ b : List Byte, b.length = 32 → (List.range 8).map (Spec.leWord32 b) = Dag.wordView b := by
      intro b hb
      rw [← Dag.words_eq, Spec.Ethash.words, hb]
    rw [hw hash hh, hw hash' hh'] at h2
    have := congrArg bytesLE h2
    rwa [Dag.bytesLE_wordView _ (by omega), Dag.bytesLE_wordView _ (by omega)] at this
  · injection h3 with h3 h4
    injection h4 with h4 _
    have h3 := congrArg BitVec.toNat h3
    have h4 := congrArg BitVec.toNat h4
    simp only [BitVec.toNat_ofNat] at h3 h4
    apply BitVec.eq_of_toNat_eq
    have := nonce.isLt
    have := nonce'.isLt
    omega

/-- **C69** Different pairs of a header hash and a nonce give KAWPOW, FiroPoW and ProgPoW 0.9.4 different seed states. -/
theorem C69_seed (hash hash' : List Byte) (hh : hash.length = 32) (hh' : hash'.length = 32) (nonce nonce' : U64)
    (init : List Byte → U64 → Go (List U32 × U64)) (hi : init ∈ [kawpowInitialize, firopowInitialize, progpow094Initialize])
    (s : List U32) (a b : U64) (h : init hash nonce = .ok (s, a)) (h' : init hash' nonce' = .ok (s, b)) : hash = hash' ∧ nonce = nonce' := by
  have key : ∀ (pad : List U32), pad.length = 15 →
      (∀ (x : List Byte) (n : U64), x.length = 32 → ∃ c : U64, init x n = .ok (Spec.Keccak.f800 (Spec.Progpow.absorbSeed x n.toNat pad), c)) →
      hash = hash' ∧ nonce = nonce' := by
    intro pad hp hc
    obtain ⟨c, hc1⟩ := hc hash nonce hh
    obtain ⟨c', hc2⟩ := hc hash' nonce' hh'
    rw [h] at hc1
    rw [h'] at hc2
    injection hc1 with hc1
    injection hc2 with hc2
    injection hc1 with hc1 _
    injection hc2 with hc2 _
    refine absorbSeed_inj hash hash' hh hh' nonce nonce' pad (f800_injective _ _ ?_ ?_ (hc1.symm.trans hc2)) <;>
      simp [Spec.Progpow.absorbSeed, hp]
  simp only [List.mem_cons, List.not_mem_nil, or_false] at hi
  have hz : (List.replicate 25 (0 : U32)).length = 25 ∧ (List.replicate 8 (0 : U32)).length = 8 := by simp
  rcases hi with rfl | rfl | rfl
  · refine key Spec.Progpow.kawpow.pad1 (by rw [kawpow_pad1]; rfl) fun x n hx => ?_
    obtain ⟨⟨c, hc, _⟩, _⟩ := C25_kawpow x hx n _ _ hz.1 hz.2
    exact ⟨c, hc⟩
  · refine key Spec.Progpow.firopow.pad1 rfl fun x n hx => ?_
    obtain ⟨⟨c, hc, _⟩, _⟩ := C25_firopow x hx n _ _ hz.1 hz.2
    exact ⟨c, hc⟩
  · refine key Spec.Progpow.progpow094.pad1 (by simp [Spec.Progpow.progpow094]) fun x n hx => ?_
    obtain ⟨⟨c, hc, _⟩, _⟩ := C25_progpow094 x hx n _ _ hz.1 hz.2
    exact ⟨c, hc⟩

/-- the nonces 1 and 2 of one header hash: the seed states exist and differ -/
example : ∃ s s' : List U32, ∃ a b : U64, kawpowInitialize (List.replicate 32 7) 1 = .ok (s, a) ∧
    kawpowInitialize (List.replicate 32 7) 2 = .ok (s', b) ∧ s ≠ s' := by
  have hz : (List.replicate 25 (0 : U32)).length = 25 ∧ (List.replicate 8 (0 : U32)).length = 8 := by simp
  obtain ⟨⟨a, h1, _⟩, _⟩ := C25_kawpow (List.replicate 32 7) (by simp) 1 _ _ hz.1 hz.2
  obtain ⟨⟨b, h2, _⟩, _⟩ := C25_kawpow (List.replicate 32 7) (by simp) 2 _ _ hz.1 hz.2
  refine ⟨_, _, a, b, h1, h2, fun he => ?_⟩
  rw [← he] at h2
  have := (C69_seed _ _ (by simp) (by simp) 1 2 _ (by simp) _ a b h1 h2).2
  exact absurd this (by decide)

end Verif.Props
