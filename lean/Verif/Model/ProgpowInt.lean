import Verif.Model.Progpow

/-! # `Hash` of /repo/internal/progpow with counts of any sign

`Model/Progpow.lean` has natural numbers for the fields of `Config` of type `int`. -/

set_option autoImplicit false

namespace Verif.Progpow

open Go

/-- algorithm.go:19-28, the counts as the integers that they are -/
structure IntConfig where
  periodLength : U64
  dagLoads : Int
  cacheBytes : U32
  laneCount : Int
  registerCount : Int
  roundCount : Int
  roundCacheAccesses : Int
  roundMathOperations : Int

/-- the configuration with 0 for negative counts -/
def IntConfig.nat (c : IntConfig) : Config :=
  ⟨c.periodLength, c.dagLoads.toNat, c.cacheBytes, c.laneCount.toNat, c.registerCount.toNat, c.roundCount.toNat, c.roundCacheAccesses.toNat,
    c.roundMathOperations.toNat⟩

/-- algorithm.go:114-142 `Hash`. `make` panics for a negative length (the panic of the run time is `explicit` here): at line 34 for the number
of lanes, at line 41 for that of registers if there is a lane. A loop up to a negative count (lines 59, 61, 71, 118) is as good as none. Without a
lane the number of registers has no effect but on the size of two arrays (mixrng.go:48-49) before the division by zero at line 53. -/
def hashInt (c : IntConfig) (height seed datasetSize : U64) (lookup : Lookup) (l1 : List U32) : Go (List Byte) :=
  if c.laneCount < 0 then panic .explicit
  else if 0 < c.laneCount ∧ c.registerCount < 0 then panic .explicit
  else hash c.nat height seed datasetSize lookup l1

end Verif.Progpow
