import Verif.Go.Basic

/-! # Model of /repo/heavyhash/{client,heavyhash,matrix}.go and /repo/internal/crypto/{xoshiro256plusplus,shakehash}.go

The Go arrays `[64][64]uint16`, `[64][64]float64`, `[64]bool`, `[64]uint16` are lists. -/

set_option autoImplicit false

namespace Verif.Heavy

open Go

/-- xoshiro256plusplus.go:3-5 -/
def rotl (a b : U64) : U64 := (a <<< b) ||| (a >>> (64 - b))

/-- xoshiro256plusplus.go:7-12 -/
structure Xoshiro where
  s0 : U64
  s1 : U64
  s2 : U64
  s3 : U64
  deriving DecidableEq, Repr

/-- xoshiro256plusplus.go:14-23 -/
def newXoshiro (s0 s1 s2 s3 : U64) : Xoshiro := { s0 := s0, s1 := s1, s2 := s2, s3 := s3 }

/-- xoshiro256plusplus.go:25-38; the receiver, mutated in place, is returned with the value -/
def Xoshiro.next (h : Xoshiro) : Xoshiro × U64 :=
  let value := rotl (h.s0 + h.s3) 23 + h.s0
  let state := h.s1 <<< 17
  let h := { h with s2 := h.s2 ^^^ h.s0 }
  let h := { h with s3 := h.s3 ^^^ h.s1 }
  let h := { h with s1 := h.s1 ^^^ h.s2 }
  let h := { h with s0 := h.s0 ^^^ h.s3 }
  let h := { h with s2 := h.s2 ^^^ state }
  let h := { h with s3 := rotl h.s3 45 }
  (h, value)

/-- shakehash.go:7-14 -/
def cshake256 (P : Prims) (data personal : List Byte) (size : Nat) : List Byte := P.cshake256 data personal size

/-- heavyhash.go:12 -/
def size : Nat := 64
/-- heavyhash.go:13 -/
def iterations : Nat := size / 4

/-- The arithmetic used by `calculateRank`: conversion from `uint16`, division, `x - p * c` and the two comparisons of `math.Abs(x)` with
`1e-9`. In Go this is `float64`, and the language allows `x - p * c` to be rounded once or twice; the model is stated for any such
operations, `Model/HeavyFloat.lean` gives the two that Go has. -/
structure Num (F : Type) where
  ofU16 : U16 → F
  div : F → F → F
  /-- `mulSub x p c` is `x - p * c` (matrix.go:66) -/
  mulSub : F → F → F → F
  /-- `math.Abs(x) > epsilon` (matrix.go:12, :48) -/
  big : F → Bool
  /-- `math.Abs(x) <= epsilon` (matrix.go:61); with `float64` the negation of `big` unless `x` is NaN -/
  small : F → Bool

section Rank
variable {F : Type} (N : Num F)

/-- matrix.go:47-51, one iteration of the pivot search; `break` returns `j` -/
def pivotStep (copied : List (List F)) (rowsSelected : List Bool) (i j : Nat) (_ : Unit) : Go (Step Unit Nat) := do
  let sel ← idx rowsSelected j
  let row ← idx copied j
  let x ← idx row i
  if !sel && N.big x then pure (.ret j) else pure (.cont ())

/-- matrix.go:46-51: the value of `j` after the search (`size` when nothing was found) -/
def findPivot (copied : List (List F)) (rowsSelected : List Bool) (i : Nat) : Go Nat := do
  match ← forRangeE 0 size () (pivotStep N copied rowsSelected i) with
  | .cont _ => pure size
  | .ret j => pure j

/-- matrix.go:57: `copied[j][k] /= copied[j][i]`, on row `j` -/
def divStep (i k : Nat) (row : List F) : Go (List F) := do
  let x ← idx row k
  let d ← idx row i
  upd row k (N.div x d)

/-- matrix.go:66: `copied[k][l] -= copied[j][l] * copied[k][i]`, on row `k`, `pivot` being row `j ≠ k` -/
def subStep (pivot : List F) (i l : Nat) (row : List F) : Go (List F) := do
  let x ← idx row l
  let p ← idx pivot l
  let c ← idx row i
  upd row l (N.mulSub x p c)

/-- matrix.go:60-68, one iteration -/
def elimStep (i j k : Nat) (copied : List (List F)) : Go (List (List F)) := do
  if k = j then pure copied
  else do
    let row ← idx copied k
    let c ← idx row i
    if N.small c then pure copied
    else do
      let pivot ← idx copied j
      let row ← forRange (i + 1) size row (subStep N pivot i)
      upd copied k row

/-- the variables of `calculateRank` -/
structure RankState (F : Type) where
  copied : List (List F)
  rank : Nat
  rowsSelected : List Bool

/-- matrix.go:45-70, one iteration of the outer loop -/
def rankStep (i : Nat) (s : RankState F) : Go (RankState F) := do
  let j ← findPivot N s.copied s.rowsSelected i
  if j ≠ size then do
    let rowsSelected ← upd s.rowsSelected j true
    let row ← idx s.copied j
    let row ← forRange (i + 1) size row (divStep N i)
    let copied ← upd s.copied j row
    let copied ← forRange 0 size copied (elimStep N i j)
    pure { copied := copied, rank := s.rank + 1, rowsSelected := rowsSelected }
  else pure s

/-- matrix.go:35-73; the copying loops 37-41 convert every entry -/
def calculateRank (mat : List (List U16)) : Go Nat := do
  let copied := mat.map fun row => row.map N.ofU16
  let s ← forRange 0 size { copied := copied, rank := 0, rowsSelected := List.replicate size false } (rankStep N)
  pure s.rank

end Rank

/-- matrix.go:26: `mat[i][j+k] = uint16(value >> (4 * k) & 0x0f)`, on row `i` -/
def nibbleStep (value : U64) (j k : Nat) (row : List U16) : Go (List U16) :=
  upd row (j + k) (((value >>> (4 * k)) &&& 0x0f).setWidth 16)

/-- matrix.go:23-28, one iteration (`j = iterations * q`), on row `i` -/
def wordStep (q : Nat) (s : List U16 × Xoshiro) : Go (List U16 × Xoshiro) := do
  let (h, value) := s.2.next
  let row ← forRange 0 iterations s.1 (nibbleStep value (iterations * q))
  pure (row, h)

/-- matrix.go:22-29, one iteration; `j` runs over the `size / iterations` multiples of `iterations` -/
def rowStep (i : Nat) (s : List (List U16) × Xoshiro) : Go (List (List U16) × Xoshiro) := do
  let row ← idx s.1 i
  let (row, h) ← forRange 0 (size / iterations) (row, s.2) wordStep
  let mat ← upd s.1 i row
  pure (mat, h)

/-- matrix.go:21-30, one evaluation of the loop condition and, when it holds, of the body -/
def matrixStep {F : Type} (N : Num F) (s : List (List U16) × Xoshiro) : Go (Step (List (List U16) × Xoshiro) (List (List U16))) := do
  let r ← calculateRank N s.1
  if r ≠ size then do
    let s' ← forRange 0 size s rowStep
    pure (.cont s')
  else pure (.ret s.1)

/-- matrix.go:17-33 -/
def newMatrix {F : Type} (N : Num F) (fuel : Nat) (s0 s1 s2 s3 : U64) : Go (List (List U16)) :=
  let hasher := newXoshiro s0 s1 s2 s3
  let mat := List.replicate size (List.replicate size (0 : U16))
  forever fuel (mat, hasher) (matrixStep N)

/-- heavyhash.go:33-36, one iteration -/
def vectorStep (header : List Byte) (i : Nat) (v : List U16) : Go (List U16) := do
  let b ← idx header i
  let v ← upd v (i * 2) ((b >>> 4).setWidth 16)
  upd v (i * 2 + 1) ((b &&& 0x0f).setWidth 16)

/-- heavyhash.go:42, one iteration -/
def dotStep (row v : List U16) (j : Nat) (s : U16) : Go U16 := do
  let m ← idx row j
  let x ← idx v j
  pure (s + m * x)

/-- heavyhash.go:39-45, one iteration -/
def productStep (mat : List (List U16)) (v : List U16) (i : Nat) (p : List U16) : Go (List U16) := do
  let row ← idx mat i
  let s ← forRange 0 size 0 (dotStep row v)
  upd p i (s >>> 10)

/-- heavyhash.go:50, one iteration -/
def digestStep (header : List Byte) (p : List U16) (i : Nat) (digest : List Byte) : Go (List Byte) := do
  let b ← idx header i
  let hi ← idx p (i * 2)
  let lo ← idx p (i * 2 + 1)
  upd digest i (b ^^^ ((hi <<< 4).setWidth 8 ||| lo.setWidth 8))

/-- heavyhash.go:55-57, iteration `i` with `j = len(digest)-1-i`: swap -/
def swapStep (i : Nat) (b : List Byte) : Go (List Byte) := do
  let x ← idx b i
  let y ← idx b (b.length - 1 - i)
  let b ← upd b i y
  upd b (b.length - 1 - i) x

/-- heavyhash.go:16-60. `timestamp` is the 64-bit pattern of the `int64`. -/
def heavyHash {F : Type} (N : Num F) (P : Prims) (fuel : Nat) (hash : List Byte) (timestamp nonce : U64) : Go (List Byte) := do
  let s0 ← getU64 .little (← slc hash 0 8)
  let s1 ← getU64 .little (← slc hash 8 16)
  let s2 ← getU64 .little (← slc hash 16 24)
  let s3 ← getU64 .little (← slc hash 24 32)
  let mat ← newMatrix N fuel s0 s1 s2 s3
  let header := List.replicate (32 + 8 + 32 + 8) (0 : Byte)
  let header := (hash.take 32) ++ header.drop (hash.take 32).length
  let header ← putU64 .little header 32 timestamp
  let header ← putU64 .little header 72 nonce
  let header := cshake256 P header ("ProofOfWorkHash".toList.map fun ch => BitVec.ofNat 8 ch.toNat) 32
  let v ← forRange 0 (size / 2) (List.replicate size (0 : U16)) (vectorStep header)
  let p ← forRange 0 size (List.replicate size (0 : U16)) (productStep mat v)
  let digest ← forRange 0 32 (List.replicate 32 (0 : Byte)) (digestStep header p)
  let digest := cshake256 P digest ("HeavyHash".toList.map fun ch => BitVec.ofNat 8 ch.toNat) 32
  forRange 0 (digest.length / 2) digest swapStep

/-- client.go:19-27; `none` is the error "hash must be 32 bytes" -/
def compute {F : Type} (N : Num F) (P : Prims) (fuel : Nat) (hash : List Byte) (timestamp nonce : U64) : Go (Option (List Byte)) :=
  if hash.length ≠ 32 then pure none
  else do
    let digest ← heavyHash N P fuel hash timestamp nonce
    pure (some digest)

end Verif.Heavy
