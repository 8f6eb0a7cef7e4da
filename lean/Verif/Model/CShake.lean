import Verif.Model.Hasher
import Verif.Spec.CShake

/-! # Model of /repo/internal/crypto/{keccak,shakehash}.go with the hash objects

golang.org/x/crypto/sha3 is not in the repository: `NewCShake256` is described after its documentation, which refers to the standard for the
string put before the input (`Spec.CShake.front`), with SHAKE256 if both strings are empty. `Sum` works on a copy of the object. -/

set_option autoImplicit false

namespace Verif.Hasher

open Go

/-- `Sum(nil)`: the digest, read from a copy -/
def sum (K : Kind) (s : Sponge) : List Byte := (read K s K.outputLen).1

/-- keccak.go:12-17 `Keccak256` -/
def keccak256 (f : List Byte → List Byte) (b : List Byte) : Go (List Byte) := do
  let h ← write (legacyKeccak256 f) fresh b
  pure (sum (legacyKeccak256 f) h)

/-- keccak.go:19-24 `Keccak512` -/
def keccak512 (f : List Byte → List Byte) (b : List Byte) : Go (List Byte) := do
  let h ← write (legacyKeccak512 f) fresh b
  pure (sum (legacyKeccak512 f) h)

/-- sha3.NewCShake256 -/
def newCShake256 (f : List Byte → List Byte) (name custom : List Byte) : Go (Kind × Sponge) := do
  if name = [] ∧ custom = [] then return (⟨f, 136, 0x1f, 64⟩, fresh)
  let h ← write ⟨f, 136, 0x04, 64⟩ fresh (Spec.CShake.front name custom)
  return (⟨f, 136, 0x04, 64⟩, h)

/-- shakehash.go:7-14 `CShake256`, for a size that is not negative -/
def cshake256 (f : List Byte → List Byte) (data personal : List Byte) (size : Nat) : Go (List Byte) := do
  let (K, h) ← newCShake256 f [] personal
  let h ← write K h data
  pure (read K h size).1

end Verif.Hasher
