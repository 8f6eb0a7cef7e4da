import Verif.Proof.KeccakBij

/-! # KeccakF800: properties C24 and C69 -/

set_option autoImplicit false

namespace Verif.Props

open Go Crypto

/-- **C24** `KeccakF800` never panics and computes Keccak-p[800, 22] as FIPS 202 defines it. -/
theorem C24_keccakF800 (l : List U32) (h : l.length = 25) :
    keccakF800 l = .ok (Spec.Keccak.f800 l) ∧ (Spec.Keccak.f800 l).length = 25 :=
  ⟨keccakF800_eq l h, f800_length l⟩

/-- the published image of the all-zero state -/
def f800Zero : List U32 :=
  [0xE531D45D, 0xF404C6FB, 0x23A0BF99, 0xF1F8452F, 0x51FFD042]

def f800Check (l : List U32) (w : List U32) : Bool := match keccakF800 l with
  | .ok r => r.take 5 == w
  | .error _ => false

example : f800Check (List.replicate 25 0) f800Zero = true := by decide +kernel

/-- the round constants and rotation offsets of the specification are the familiar ones -/
example : Spec.Keccak.roundConstant 1 = 0x8082#32 ∧ Spec.Keccak.offset 1 0 = 1 ∧ Spec.Keccak.offset 2 0 = 190 := by decide +kernel

/-- **C69** `KeccakF800` is a bijection of the states: every state of 25 words is the image of exactly one. -/
theorem C69_bijective (m : List U32) (hm : m.length = 25) : ∃! l : List U32, l.length = 25 ∧ keccakF800 l = .ok m := by
  have hto : ∀ l : List U32, l.length = 25 → Spec.Keccak.toWords (Spec.Keccak.ofWords l) = l := by
    intro l hl
    obtain ⟨s, rfl⟩ := list25 l hl
    exact toWords_ofWords s
  have hof : ∀ A : Spec.Keccak.State, Spec.Keccak.ofWords (Spec.Keccak.toWords A) = A := by
    intro A
    funext x y
    fin_cases x <;> fin_cases y <;> rfl
  obtain ⟨A, hA⟩ := (rounds_bij 22).2 (Spec.Keccak.ofWords m)
  refine ⟨Spec.Keccak.toWords A, ⟨rfl, ?_⟩, ?_⟩
  · rw [keccakF800_eq _ rfl, Spec.Keccak.f800, hof, hA, hto m hm]
  · rintro l ⟨hl, h⟩
    rw [keccakF800_eq l hl] at h
    injection h with h
    have h2 : Spec.Keccak.rounds 22 (Spec.Keccak.ofWords l) = Spec.Keccak.ofWords m := by
      rw [← h, Spec.Keccak.f800, hof]
    have h3 := (rounds_bij 22).1 (h2.trans hA.symm)
    rw [← hto l hl, h3]

/-- the preimage that C69 promises for the image of the all-zero state is the all-zero state -/
example : ∃ m : List U32, m.length = 25 ∧ keccakF800 (List.replicate 25 0) = .ok m ∧
    ∀ l : List U32, l.length = 25 → keccakF800 l = .ok m → l = List.replicate 25 0 := by
  obtain ⟨h1, h2⟩ := C24_keccakF800 (List.replicate 25 0) rfl
  exact ⟨_, h2, h1, fun l hl h => (C69_bijective _ h2).unique ⟨hl, h⟩ ⟨rfl, h1⟩⟩

end Verif.Props
