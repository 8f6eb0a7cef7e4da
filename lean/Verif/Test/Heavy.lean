import Verif.Model.Heavy
import Verif.Test.Table

/-! # Conformance of the HeavyHash model with the vectors of /repo/heavyhash/*_test.go

Evaluated, not proved: `Float` is the IEEE double of the running machine. Digests of cSHAKE-256 come from an independent
implementation. -/

set_option autoImplicit false

namespace Verif.Test

open Heavy

/-- `float64` arithmetic -/
def floatNum : Num Float where
  ofU16 x := Float.ofNat x.toNat
  div := Float.div
  mulSub x p c := x - p * c
  big x := x.abs > 1e-9
  small x := x.abs ≤ 1e-9

def firstLast (r : Go (List (List U16))) : List (List Nat) :=
  match r with
  | .ok m => [(m.getD 0 []).map (·.toNat), (m.getD 63 []).map (·.toNat)]
  | .error _ => []

#guard firstLast (newMatrix floatNum 100 0 0 0 1) == [[0, 0, 0, 0, 0, 8, 0, 0, 0, 0, 0, 0, 0, 0, 0, 0, 1, 1, 0, 0, 0, 8, 0, 0, 0, 0, 0, 0, 0, 0, 0, 0, 1, 1, 0, 0, 0, 8, 0, 0, 0, 0, 0, 2, 2, 0, 0, 0, 0, 2, 0, 0, 0, 0, 4, 4, 0, 0, 0, 2, 2, 0, 0, 0],
  [8, 7, 8, 7, 7, 5, 15, 8, 2, 0, 6, 5, 3, 4, 5, 4, 8, 4, 9, 9, 2, 5, 2, 0, 2, 12, 3, 7, 7, 7, 10, 11, 10, 5, 7, 3, 11, 14, 14, 9, 3, 5, 14, 4, 0, 13, 7, 9, 15, 9, 8, 9, 0, 4, 7, 4, 7, 4, 9, 8, 6, 8, 1, 10]]
#guard firstLast (newMatrix floatNum 100 124123 591204 959691 959109) == [[11, 13, 4, 14, 1, 0, 0, 11, 3, 4, 8, 0, 0, 0, 0, 0, 10, 4, 1, 12, 0, 8, 13, 9, 1, 2, 3, 0, 0, 0, 0, 0, 13, 10, 11, 13, 14, 5, 7, 2, 3, 0, 0, 2, 14, 11, 4, 4, 11, 5, 15, 12, 9, 13, 2, 8, 6, 0, 11, 0, 4, 0, 14, 0],
  [1, 9, 3, 4, 0, 6, 7, 14, 10, 13, 13, 6, 9, 6, 10, 0, 1, 3, 0, 7, 6, 13, 0, 7, 15, 8, 8, 7, 1, 2, 0, 8, 9, 0, 4, 4, 11, 13, 9, 8, 10, 4, 8, 1, 2, 3, 6, 2, 5, 8, 4, 0, 13, 14, 6, 6, 9, 12, 0, 3, 7, 13, 10, 0]]
#guard firstLast (newMatrix floatNum 100 59013294024 99520455 512351 9599690203505) == [[12, 12, 7, 6, 7, 15, 9, 5, 2, 11, 11, 12, 11, 6, 4, 6, 2, 14, 4, 15, 12, 9, 0, 6, 13, 6, 7, 13, 1, 5, 11, 5, 7, 1, 10, 14, 11, 11, 11, 9, 0, 4, 1, 5, 0, 13, 8, 6, 1, 6, 12, 11, 14, 5, 6, 11, 1, 11, 15, 6, 13, 1, 1, 15],
  [7, 13, 5, 5, 1, 7, 15, 13, 9, 10, 11, 14, 3, 9, 5, 2, 6, 5, 6, 6, 2, 9, 3, 2, 0, 0, 15, 13, 9, 8, 9, 2, 9, 6, 7, 0, 15, 13, 2, 2, 6, 5, 3, 6, 12, 14, 13, 7, 12, 13, 2, 10, 7, 9, 14, 7, 3, 11, 3, 3, 4, 12, 9, 7]]

/-- cSHAKE-256 from a table of (data, customisation, digest) -/
def tableS (t : List (List Byte × List Byte × List Byte)) : Prims :=
  { Prims.zero with
    cshake256 := fun d p n => fixLen n (((t.find? fun e => e.1 == d && e.2.1 == p).map (·.2.2)).getD [])
    cshake256_length := fun _ _ _ => fixLen_length _ _ }

def isDigest (r : Go (Option (List Byte))) (d : List Byte) : Bool := match r with | .ok (some x) => x == d | _ => false

#guard isDigest (compute floatNum (tableS [([129, 85, 58, 105, 90, 5, 136, 153, 140, 65, 55, 146, 231, 76, 232, 184, 248, 160, 150, 214, 75, 62, 228, 115, 135, 55, 36, 52, 72, 92, 11, 111, 73, 124, 168, 140, 132, 1, 0, 0, 0, 0, 0, 0, 0, 0, 0, 0, 0, 0, 0, 0, 0, 0, 0, 0, 0, 0, 0, 0, 0, 0, 0, 0, 0, 0, 0, 0, 0, 0, 0, 0, 124, 22, 186, 14, 0, 0, 132, 47],
    [80, 114, 111, 111, 102, 79, 102, 87, 111, 114, 107, 72, 97, 115, 104], [140, 238, 67, 168, 210, 189, 214, 174, 254, 24, 114, 128, 205, 12, 67, 41, 236, 2, 255, 117, 68, 150, 35, 174, 242, 36, 144, 136, 129, 183, 169, 104]),
    ([191, 221, 112, 235, 225, 142, 229, 157, 205, 91, 86, 179, 254, 63, 119, 26, 223, 49, 204, 70, 119, 165, 16, 154, 177, 23, 163, 187, 178, 132, 154, 91], [72, 101, 97, 118, 121, 72, 97, 115, 104],
    [64, 252, 225, 14, 38, 108, 161, 43, 250, 63, 219, 236, 56, 89, 190, 143, 138, 204, 215, 132, 197, 2, 31, 133, 110, 104, 38, 23, 0, 0, 0, 0])]) 100
  [129, 85, 58, 105, 90, 5, 136, 153, 140, 65, 55, 146, 231, 76, 232, 184, 248, 160, 150, 214, 75, 62, 228, 115, 135, 55, 36, 52, 72, 92, 11, 111] 1668807162953 3423861616955496060)
  [0, 0, 0, 0, 23, 38, 104, 110, 133, 31, 2, 197, 132, 215, 204, 138, 143, 190, 89, 56, 236, 219, 63, 250, 43, 161, 108, 38, 14, 225, 252, 64]
#guard isDigest (compute floatNum (tableS [([151, 133, 196, 208, 226, 68, 179, 86, 65, 21, 253, 17, 14, 142, 96, 138, 104, 139, 136, 3, 186, 171, 159, 166, 148, 142, 159, 123, 160, 84, 15, 76, 165, 148, 172, 140, 132, 1, 0, 0, 0, 0, 0, 0, 0, 0, 0, 0, 0, 0, 0, 0, 0, 0, 0, 0, 0, 0, 0, 0, 0, 0, 0, 0, 0, 0, 0, 0, 0, 0, 0, 0, 15, 208, 253, 15, 0, 0, 132, 47],
    [80, 114, 111, 111, 102, 79, 102, 87, 111, 114, 107, 72, 97, 115, 104], [241, 82, 87, 117, 177, 244, 68, 133, 126, 195, 85, 117, 220, 138, 20, 150, 204, 204, 244, 16, 83, 227, 131, 231, 181, 253, 245, 131, 178, 148, 183, 197]),
    ([194, 17, 100, 70, 130, 199, 7, 182, 93, 240, 102, 70, 239, 185, 39, 213, 255, 255, 183, 35, 96, 208, 176, 212, 150, 206, 199, 176, 129, 167, 132, 246], [72, 101, 97, 118, 121, 72, 97, 115, 104],
    [49, 147, 38, 104, 98, 202, 36, 105, 184, 56, 45, 197, 97, 94, 235, 187, 35, 85, 46, 85, 30, 97, 40, 124, 109, 246, 67, 9, 0, 0, 0, 0])]) 100
  [151, 133, 196, 208, 226, 68, 179, 86, 65, 21, 253, 17, 14, 142, 96, 138, 104, 139, 136, 3, 186, 171, 159, 166, 148, 142, 159, 123, 160, 84, 15, 76] 1668807431333 3423861616976711695)
  [0, 0, 0, 0, 9, 67, 246, 109, 124, 40, 97, 30, 85, 46, 85, 35, 187, 235, 94, 97, 197, 45, 56, 184, 105, 36, 202, 98, 104, 38, 147, 49]
#guard isDigest (compute floatNum (tableS [([47, 108, 234, 146, 127, 109, 202, 67, 87, 201, 170, 180, 172, 139, 121, 87, 227, 163, 73, 204, 49, 125, 70, 49, 242, 101, 147, 185, 15, 50, 114, 86, 181, 141, 174, 140, 132, 1, 0, 0, 0, 0, 0, 0, 0, 0, 0, 0, 0, 0, 0, 0, 0, 0, 0, 0, 0, 0, 0, 0, 0, 0, 0, 0, 0, 0, 0, 0, 0, 0, 0, 0, 152, 43, 213, 5, 0, 0, 132, 47],
    [80, 114, 111, 111, 102, 79, 102, 87, 111, 114, 107, 72, 97, 115, 104], [101, 55, 108, 126, 94, 240, 38, 95, 46, 161, 52, 107, 49, 19, 15, 131, 235, 6, 107, 42, 182, 204, 159, 107, 140, 125, 163, 112, 99, 104, 83, 57]),
    ([86, 4, 95, 76, 109, 195, 21, 108, 28, 146, 7, 88, 2, 32, 44, 177, 216, 53, 89, 25, 133, 239, 172, 88, 191, 79, 144, 66, 65, 91, 96, 10], [72, 101, 97, 118, 121, 72, 97, 115, 104],
    [216, 227, 110, 205, 237, 15, 72, 111, 243, 25, 20, 44, 177, 80, 250, 88, 40, 57, 96, 246, 89, 232, 78, 82, 132, 236, 196, 24, 0, 0, 0, 0])]) 100
  [47, 108, 234, 146, 127, 109, 202, 67, 87, 201, 170, 180, 172, 139, 121, 87, 227, 163, 73, 204, 49, 125, 70, 49, 242, 101, 147, 185, 15, 50, 114, 86] 1668807560629 3423861616806275992)
  [0, 0, 0, 0, 24, 196, 236, 132, 82, 78, 232, 89, 246, 96, 57, 40, 88, 250, 80, 177, 44, 20, 25, 243, 111, 72, 15, 237, 205, 110, 227, 216]

end Verif.Test
