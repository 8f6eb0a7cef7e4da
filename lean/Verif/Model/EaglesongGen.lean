import Verif.Model.Hasher

/-! # Model of `generateInjectionConstants` in /repo/eaglesong/eaglesong_constants.go

The function has no caller in the repository. `sha3.ShakeSum256` is not in the repository: it makes a SHAKE256 object, writes the data and fills
the slice. The permutation is a parameter. -/

set_option autoImplicit false

namespace Verif.Hasher

open Go

/-- sha3.ShakeSum256 for a slice of `size` bytes -/
def shakeSum256 (f : List Byte → List Byte) (size : Nat) (data : List Byte) : Go (List Byte) := do
  let h ← write ⟨f, 136, 0x1f, 64⟩ fresh data
  pure (read ⟨f, 136, 0x1f, 64⟩ h size).1

/-- eaglesong_constants.go:132-136, all of it ASCII -/
def seedPhrase : List Byte :=
  ("The various ways in which the knowledge on which people base their plan is" ++
  " communicated to them is the crucial problem for any theory explaining the economic" ++
  " process, and the problem of what is the best way to utilizing knowledge initially " ++
  "dispersed among all the people is at least one of the main problems of economic policy" ++
  " - or of designing an efficient economic system.").toList.map fun c => BitVec.ofNat 8 c.toNat

/-- eaglesong_constants.go:144-147, one iteration -/
def constantStep (hash : List Byte) (i : Nat) (constants : List U32) : Go (List U32) := do
  let x ← idx constants i
  let x := x + 1 * (← idx hash (i * 4 + 0)).setWidth 32
  let x := x + 256 * (← idx hash (i * 4 + 1)).setWidth 32
  let x := x + 65536 * (← idx hash (i * 4 + 2)).setWidth 32
  let x := x + 16777216 * (← idx hash (i * 4 + 3)).setWidth 32
  upd constants i x

/-- eaglesong_constants.go:128-151, for a number of rounds that is not negative (`make` panics otherwise) -/
def generateInjectionConstants (f : List Byte → List Byte) (numRounds : Nat) : Go (List U32) := do
  let numConstants := numRounds * 16
  let numBytes := numConstants * 4
  let hash ← shakeSum256 f numBytes seedPhrase
  forRange 0 numConstants (List.replicate numConstants 0) (constantStep hash)

end Verif.Hasher
