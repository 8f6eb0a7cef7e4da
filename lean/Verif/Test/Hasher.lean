import Verif.Model.Hasher
import Verif.Spec.Sponge

/-! # The sponge with Keccak-f[1600] against published digests -/

set_option autoImplicit false

namespace Verif.Test.Hasher

open Verif.Go Verif.Hasher

/-- the round constants -/
def rc : List (BitVec 64) := [0x0000000000000001, 0x0000000000008082, 0x800000000000808a, 0x8000000080008000, 0x000000000000808b, 0x0000000080000001,
  0x8000000080008081, 0x8000000000008009, 0x000000000000008a, 0x0000000000000088, 0x0000000080008009, 0x000000008000000a, 0x000000008000808b,
  0x800000000000008b, 0x8000000000008089, 0x8000000000008003, 0x8000000000008002, 0x8000000000000080, 0x000000000000800a, 0x800000008000000a,
  0x8000000080008081, 0x8000000000008080, 0x0000000080000001, 0x8000000080008008]

/-- rotation offsets of lane `x + 5 y` -/
def rot : List Nat := [0, 1, 62, 28, 27, 36, 44, 6, 55, 20, 3, 10, 43, 25, 39, 41, 45, 15, 21, 8, 18, 2, 61, 56, 14]

def round (a : Array (BitVec 64)) (c : BitVec 64) : Array (BitVec 64) :=
  let g := fun (a : Array (BitVec 64)) x y => a.getD (x % 5 + 5 * (y % 5)) 0
  let p := (Array.range 5).map fun x => g a x 0 ^^^ g a x 1 ^^^ g a x 2 ^^^ g a x 3 ^^^ g a x 4
  let a := (Array.range 25).map fun i => a.getD i 0 ^^^ p.getD ((i % 5 + 4) % 5) 0 ^^^ (p.getD ((i % 5 + 1) % 5) 0).rotateLeft 1
  let a := (Array.range 25).map fun i => (a.getD i 0).rotateLeft (rot.getD i 0)
  let b := (Array.range 25).map fun i => g a (i % 5 + 3 * (i / 5)) (i % 5)
  let a := (Array.range 25).map fun i => b.getD i 0 ^^^ (~~~ g b (i % 5 + 1) (i / 5) &&& g b (i % 5 + 2) (i / 5))
  a.set! 0 (a.getD 0 0 ^^^ c)

/-- Keccak-f[1600] on bytes -/
def f1600 (s : List Byte) : List Byte :=
  let a := (Array.range 25).map fun i => BitVec.ofNat 64 (leNat ((s.drop (8 * i)).take 8))
  (rc.foldl round a).toList.flatMap fun w => leBytes 8 w

def hex (s : List Byte) : String := String.join (s.map fun b => String.ofList [Nat.digitChar (b.toNat / 16), Nat.digitChar (b.toNat % 16)])

def abc : List Byte := [0x61, 0x62, 0x63]

#guard hex (Spec.Sponge.digest f1600 136 1 32 []) == "c5d2460186f7233c927e7db2dcc703c0e500b653ca82273b7bfad8045d85a470"
#guard hex (Spec.Sponge.digest f1600 136 1 32 abc) == "4e03657aea45a94fc7d47ba826c8d667c0d1e6e33a64a036ec44f58fa12d6c45"
#guard hex (Spec.Sponge.digest f1600 72 1 64 []) ==
  "0eab42de4c3ceb9235fc91acffe746b29c29a8c366b7c60e4e67c466f36a4304c00fa9caf9d87976ba469bcbe06713b435f091ef2769fb160cdab33d3670680e"

/-- the second digest of a reused object, with the boundary cases of the padding -/
def second (K : Kind) (d : List Byte) : Option (List Byte) :=
  match call K fresh (List.replicate 64 0) abc with
  | .ok (_, s) => match call K s (List.replicate 64 7) d with
    | .ok (r, _) => some r
    | .error _ => none
  | .error _ => none

#guard [0, 1, 70, 71, 72, 73, 143, 144].all fun n =>
  second (legacyKeccak512 f1600) (List.replicate n 5) == some (Spec.Sponge.digest f1600 72 1 64 (List.replicate n 5))
#guard [135, 136, 137].all fun n =>
  second (legacyKeccak256 f1600) (List.replicate n 5) == some (Spec.Sponge.digest f1600 136 1 32 (List.replicate n 5) ++ List.replicate 32 7)

end Verif.Test.Hasher
