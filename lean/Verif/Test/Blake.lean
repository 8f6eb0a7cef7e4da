import Verif.Test.Sponge

/-! # BLAKE2b (RFC 7693), for the conformance tests

An executable implementation written from the RFC, with sequential mode, no key and no salt, and a personalisation string. It is used only
to run the model on test vectors. -/

set_option autoImplicit false

namespace Verif.Test.Blake

open Verif Go

def iv : Array UInt64 := #[0x6a09e667f3bcc908, 0xbb67ae8584caa73b, 0x3c6ef372fe94f82b, 0xa54ff53a5f1d36f1, 0x510e527fade682d1,
  0x9b05688c2b3e6c1f, 0x1f83d9abfb41bd6b, 0x5be0cd19137e2179]

def sigma : Array (Array Nat) := #[
  #[0, 1, 2, 3, 4, 5, 6, 7, 8, 9, 10, 11, 12, 13, 14, 15],
  #[14, 10, 4, 8, 9, 15, 13, 6, 1, 12, 0, 2, 11, 7, 5, 3],
  #[11, 8, 12, 0, 5, 2, 15, 13, 10, 14, 3, 6, 7, 1, 9, 4],
  #[7, 9, 3, 1, 13, 12, 11, 14, 2, 6, 5, 10, 4, 0, 15, 8],
  #[9, 0, 5, 7, 2, 4, 10, 15, 14, 1, 11, 12, 6, 8, 3, 13],
  #[2, 12, 6, 10, 0, 11, 8, 3, 4, 13, 7, 5, 15, 14, 1, 9],
  #[12, 5, 1, 15, 14, 13, 4, 10, 0, 7, 6, 3, 9, 2, 8, 11],
  #[13, 11, 7, 14, 12, 1, 3, 9, 5, 0, 15, 4, 8, 6, 2, 10],
  #[6, 15, 14, 9, 11, 3, 0, 8, 12, 2, 13, 7, 1, 4, 10, 5],
  #[10, 2, 8, 4, 7, 6, 1, 5, 15, 11, 9, 14, 3, 12, 13, 0]]

def rotr (x n : UInt64) : UInt64 := (x >>> n) ||| (x <<< (64 - n))

def mixG (v : Array UInt64) (a b c d : Nat) (x y : UInt64) : Array UInt64 := Id.run do
  let mut v := v
  v := v.set! a (v[a]! + v[b]! + x)
  v := v.set! d (rotr (v[d]! ^^^ v[a]!) 32)
  v := v.set! c (v[c]! + v[d]!)
  v := v.set! b (rotr (v[b]! ^^^ v[c]!) 24)
  v := v.set! a (v[a]! + v[b]! + y)
  v := v.set! d (rotr (v[d]! ^^^ v[a]!) 16)
  v := v.set! c (v[c]! + v[d]!)
  v := v.set! b (rotr (v[b]! ^^^ v[c]!) 63)
  return v

def compress (h : Array UInt64) (m : Array UInt64) (t : Nat) (last : Bool) : Array UInt64 := Id.run do
  let mut v := h ++ iv
  v := v.set! 12 (v[12]! ^^^ UInt64.ofNat t)
  if last then v := v.set! 14 (~~~ v[14]!)
  for r in [0:12] do
    let s := sigma[r % 10]!
    v := mixG v 0 4 8 12 m[s[0]!]! m[s[1]!]!
    v := mixG v 1 5 9 13 m[s[2]!]! m[s[3]!]!
    v := mixG v 2 6 10 14 m[s[4]!]! m[s[5]!]!
    v := mixG v 3 7 11 15 m[s[6]!]! m[s[7]!]!
    v := mixG v 0 5 10 15 m[s[8]!]! m[s[9]!]!
    v := mixG v 1 6 11 12 m[s[10]!]! m[s[11]!]!
    v := mixG v 2 7 8 13 m[s[12]!]! m[s[13]!]!
    v := mixG v 3 4 9 14 m[s[14]!]! m[s[15]!]!
  let mut out := h
  for i in [0:8] do
    out := out.set! i (h[i]! ^^^ v[i]! ^^^ v[i + 8]!)
  return out

def word (b : Array Byte) (o : Nat) : UInt64 := Id.run do
  let mut x : UInt64 := 0
  for k in [0:8] do
    x := x ||| (UInt64.ofNat ((b[o + k]?).getD 0).toNat <<< UInt64.ofNat (8 * k))
  return x

def blake2b (data person : List Byte) (n : Nat) : List Byte := Id.run do
  let p := person.toArray
  let b := data.toArray
  let mut h := iv
  h := h.set! 0 (h[0]! ^^^ 0x01010000 ^^^ UInt64.ofNat n)
  h := h.set! 6 (h[6]! ^^^ word p 0)
  h := h.set! 7 (h[7]! ^^^ word p 8)
  let blocks := max 1 ((b.size + 127) / 128)
  for i in [0:blocks] do
    let m := (Array.range 16).map fun j => word b (128 * i + 8 * j)
    h := compress h m (min b.size (128 * (i + 1))) (i + 1 == blocks)
  return (List.range n).map fun j => BitVec.ofNat 8 ((h[j / 8]! >>> UInt64.ofNat (8 * (j % 8))).toNat % 256)

theorem blake2b_length (d p : List Byte) (n : Nat) : (blake2b d p n).length = n := by simp [blake2b]

/-- the hash functions of the tests -/
def prims : Prims :=
  { Verif.Test.keccakPrims with
    blake2bRaw := blake2b
    blake2b256 := fun d => blake2b d [] 32
    blake2bRaw_length := fun _ _ _ _ _ => blake2b_length _ _ _
    blake2b256_length := fun _ => blake2b_length _ _ _ }

def hex := Verif.Test.hex

-- RFC 7693, appendix A
#guard blake2b (hex "616263") [] 64 == hex "ba80a53f981c4d0d6a2797b69f12f6e94c212f14685ac4b74b12bb6fdbffa2d17d87c5392aab792dc252d5de4533cc9518d38aa8dbf1925ab92386edd4009923"

end Verif.Test.Blake
