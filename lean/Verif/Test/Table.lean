import Verif.Go.Basic

/-! # Hash functions given by a finite table

For the concrete cases beside the theorems: `Prims` whose outputs on the inputs of a published test vector are the true digests
(computed with an independent implementation), and zero elsewhere. -/

set_option autoImplicit false

namespace Verif.Test

open Go

/-- `l` cut or padded with zeros to `n` bytes -/
def fixLen (n : Nat) (l : List Byte) : List Byte := (l ++ List.replicate n 0).take n

theorem fixLen_length (n : Nat) (l : List Byte) : (fixLen n l).length = n := by simp [fixLen]

/-- BLAKE2b from a table of (data, personalisation, digest) -/
def tableB (t : List (List Byte × List Byte × List Byte)) : Prims :=
  { Prims.zero with
    blake2bRaw := fun d p n => fixLen n (((t.find? fun e => e.1 == d && e.2.1 == p).map (·.2.2)).getD [])
    blake2bRaw_length := fun _ _ _ _ _ => fixLen_length _ _ }

end Verif.Test
