import Verif.Proof.EaglesongGen
import Verif.Proof.Eaglesong

/-! # C108: the injection constants of Eaglesong and the function that generates them -/

set_option autoImplicit false

namespace Verif.Props

open Go Hasher Spec.Sponge Spec.KeccakF

/-- **C108** `generateInjectionConstants` gives the words of the sponge's output for the phrase, the lowest byte first, for every permutation and number
of rounds. -/
theorem C108_words (f : List Byte → List Byte) (hf : ∀ x : List Byte, x.length = 200 → (f x).length = 200) (n : Nat) :
    generateInjectionConstants f n = .ok ((List.range (n * 16)).map fun i =>
      BitVec.ofNat 32 (number ((List.range 4).map fun k => output f 136 0x1f seedPhrase (4 * i + k)))) := by
  rw [generate_eq f hf n]
  congr 2
  funext i
  unfold leWordAt
  congr 1
  simp only [List.range_succ, List.range_zero, List.nil_append, List.cons_append, List.map_cons, List.map_nil, number, Nat.add_zero]
  omega

/-- **C108** The constants for fewer rounds are the first of those for more. -/
theorem C108_prefix (f : List Byte → List Byte) (hf : ∀ x : List Byte, x.length = 200 → (f x).length = 200) (m n : Nat) (h : m ≤ n) :
    generateInjectionConstants f m = List.take (m * 16) <$> generateInjectionConstants f n := by
  rw [generate_eq f hf, generate_eq f hf]
  change _ = Except.ok _
  rw [← List.map_take, List.take_range, Nat.min_eq_left (by omega)]

/-- **C108** With Keccak-f[1600] the table in the source is what the function generates: for each number of rounds up to the 43 of the Nervos instance. -/
theorem C108_table (n : Nat) (hn : n ≤ 43) : generateInjectionConstants keccakF n = .ok (Eaglesong.injectionConstants.take (n * 16)) := by
  rw [C108_prefix keccakF (fun x _ => keccakF_length x) n 43 hn, generate_eq keccakF fun x _ => keccakF_length x, words_eq]
  rfl

/-- **C108** So the constants in the specification that the permutation is proved to meet (C56) are those of the phrase. -/
theorem C108_specification : generateInjectionConstants keccakF 43 = .ok Spec.Eaglesong.constants := by
  rw [C108_table 43 (by decide), List.take_of_length_le (by decide +kernel), Eaglesong.constants_eq]

example : generateInjectionConstants keccakF 43 = .ok Eaglesong.injectionConstants := by
  rw [C108_table 43 (by decide), List.take_of_length_le (by decide +kernel)]

/-- the first constant -/
example : (generateInjectionConstants keccakF 43).toOption.map (·.take 1) = some [0x6e9e40ae] := by
  rw [C108_table 43 (by decide)]
  decide +kernel

end Verif.Props
