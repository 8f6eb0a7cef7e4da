import Verif.Go.Basic

/-! # How much of what it is given a function looks at

`f` is a function of something large `o` (a table, a cache, a hash function) that is asked through `ask`. -/

set_option autoImplicit false

namespace Verif.Spec

variable {O ι β α : Type}

/-- For every `o` there are at most `n` questions whose answers fix `f o`: everything that answers them as `o` does has the same value. -/
def DeterminedBy (ask : O → ι → β) (n : Nat) (f : O → α) : Prop :=
  ∀ o, ∃ asked : List ι, asked.length ≤ n ∧ ∀ o', (∀ q ∈ asked, ask o' q = ask o q) → f o' = f o

/-- the evaluations of the external hash functions -/
inductive Evaluation where
  | blake2b (data personal : List Byte) (size : Nat)
  | blake2b256 (data : List Byte)
  | keccak256 (data : List Byte)
  | keccak512 (data : List Byte)
  | cshake256 (data personal : List Byte) (size : Nat)

/-- their results -/
def evaluate (P : Prims) : Evaluation → List Byte
  | .blake2b d p n => P.blake2bRaw d p n
  | .blake2b256 d => P.blake2b256 d
  | .keccak256 d => P.keccak256 d
  | .keccak512 d => P.keccak512 d
  | .cshake256 d p n => P.cshake256 d p n

/-- the slices of a given length -/
abbrev Sized (n : Nat) := { l : List U32 // l.length = n }

/-- the word at an index, if there is one -/
def word {n : Nat} (l : Sized n) (i : Nat) : Option U32 := l.1[i]?

/-- `make([]uint32, n)` -/
def Sized.zeros (n : Nat) : Sized n := ⟨List.replicate n 0, List.length_replicate⟩

/-- what a lookup function returns for an index -/
def item (lookup : U32 → Go (List U32)) (i : U32) : Go (List U32) := lookup i

end Verif.Spec
