import Verif.Test.Table

/-! # An executable Keccak sponge for the conformance tests

No theorem depends on this file: it only supplies `Prims` whose Keccak functions are the real ones, so that the test vectors
of /repo can be run through the model. -/

set_option autoImplicit false

namespace Verif.Test

open Go

def rc1600 : Array UInt64 := #[
  0x0000000000000001, 0x0000000000008082, 0x800000000000808a, 0x8000000080008000, 0x000000000000808b, 0x0000000080000001,
  0x8000000080008081, 0x8000000000008009, 0x000000000000008a, 0x0000000000000088, 0x0000000080008009, 0x000000008000000a,
  0x000000008000808b, 0x800000000000008b, 0x8000000000008089, 0x8000000000008003, 0x8000000000008002, 0x8000000000000080,
  0x000000000000800a, 0x800000008000000a, 0x8000000080008081, 0x8000000000008080, 0x0000000080000001, 0x8000000080008008]

def rotc : Array UInt64 := #[0, 1, 62, 28, 27, 36, 44, 6, 55, 20, 3, 10, 43, 25, 39, 41, 45, 15, 21, 8, 18, 2, 61, 56, 14]

def rotl64 (x n : UInt64) : UInt64 := if n == 0 then x else (x <<< n) ||| (x >>> (64 - n))

def keccakF1600 (s0 : Array UInt64) : Array UInt64 := Id.run do
  let mut s := s0
  for r in [0:24] do
    let mut c : Array UInt64 := #[]
    for x in [0:5] do
      c := c.push (s[x]! ^^^ s[x + 5]! ^^^ s[x + 10]! ^^^ s[x + 15]! ^^^ s[x + 20]!)
    let mut b := s
    for x in [0:5] do
      let d := c[(x + 4) % 5]! ^^^ rotl64 c[(x + 1) % 5]! 1
      for y in [0:5] do
        b := b.set! (y + 5 * ((2 * x + 3 * y) % 5)) (rotl64 (s[x + 5 * y]! ^^^ d) rotc[x + 5 * y]!)
    for y in [0:5] do
      for x in [0:5] do
        s := s.set! (x + 5 * y) (b[x + 5 * y]! ^^^ ((~~~ b[(x + 1) % 5 + 5 * y]!) &&& b[(x + 2) % 5 + 5 * y]!))
    s := s.set! 0 (s[0]! ^^^ rc1600[r]!)
  return s

/-- sponge with the given rate in bytes and domain byte -/
def sponge (rate : Nat) (dom : UInt8) (n : Nat) (data : List Byte) : List Byte := Id.run do
  let mut p : Array UInt8 := (data.map fun b => UInt8.ofNat b.toNat).toArray
  p := p.push dom
  for _ in [0:(rate - p.size % rate) % rate] do
    p := p.push 0
  p := p.set! (p.size - 1) (p[p.size - 1]! ^^^ 0x80)
  let mut s : Array UInt64 := Array.replicate 25 0
  for blk in [0:p.size / rate] do
    for i in [0:rate] do
      let v : UInt64 := (p[blk * rate + i]!).toUInt64 <<< (UInt64.ofNat (8 * (i % 8)))
      s := s.set! (i / 8) (s[i / 8]! ^^^ v)
    s := keccakF1600 s
  let mut out : List Byte := []
  for i in [0:n] do
    out := BitVec.ofNat 8 ((s[i / 8]! >>> (UInt64.ofNat (8 * (i % 8)))).toNat) :: out
  return out.reverse

/-- legacy Keccak-256 and Keccak-512; the other functions are zero -/
def keccakPrims : Prims :=
  { Prims.zero with
    keccak256 := fun d => fixLen 32 (sponge 136 1 32 d)
    keccak512 := fun d => fixLen 64 (sponge 72 1 64 d)
    keccak256_length := fun _ => fixLen_length _ _
    keccak512_length := fun _ => fixLen_length _ _ }

def hex (s : String) : List Byte :=
  let d (c : Char) : Nat := if c.isDigit then c.toNat - 48 else c.toNat - 87
  let rec go : List Char → List Byte
    | a :: b :: l => BitVec.ofNat 8 (16 * d a + d b) :: go l
    | _ => []
  go s.toList

#guard keccakPrims.keccak256 [] == hex "c5d2460186f7233c927e7db2dcc703c0e500b653ca82273b7bfad8045d85a470"
#guard keccakPrims.keccak512 [] == hex "0eab42de4c3ceb9235fc91acffe746b29c29a8c366b7c60e4e67c466f36a4304c00fa9caf9d87976ba469bcbe06713b435f091ef2769fb160cdab33d3670680e"

end Verif.Test
