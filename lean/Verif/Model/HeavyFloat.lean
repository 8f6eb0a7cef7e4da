import Verif.Model.Heavy
import Verif.Go.Float64

/-! # The arithmetic of `calculateRank` in Go (/repo/heavyhash/matrix.go) -/

set_option autoImplicit false

namespace Verif.Heavy

open Go

/-- matrix.go:12: the constant `1e-9` as a `float64`, in units of `2^-1074` -/
def epsilon : Nat := F64.roundNat F64.one (10 ^ 9)

/-- matrix.go with `float64` operations rounded one by one (Go on amd64 below GOAMD64=v3) -/
def separate : Num F64 where
  ofU16 x := F64.ofNat x.toNat
  div := F64.div
  mulSub x p c := F64.sub x (F64.mul p c)
  big := F64.absGt epsilon
  small := F64.absLe epsilon

/-- matrix.go with `x - p * c` (line 66) fused into one operation, which the language allows ("Floating-point operators") and the compiler
does on arm64, ppc64le, s390x and riscv64 -/
def fused : Num F64 where
  ofU16 x := F64.ofNat x.toNat
  div := F64.div
  mulSub := F64.fusedMulSub
  big := F64.absGt epsilon
  small := F64.absLe epsilon

end Verif.Heavy
