import Verif.Go.Basic
import Verif.Model.EaglesongConst

/-! # Model of /repo/eaglesong/{client,eaglesong}.go

The `int` parameters of `New` are integers of any sign from -2^63 to 2^63 - 1. The sum that bounds the absorbing loop wraps around; the other
operations on `int` cannot, as long as input and output fit into memory. The loop bodies take natural numbers: they run only for a positive
rate (a theorem, C76), and a negative number of rounds is as good as none. That `make` may fail for lack of memory is not modelled. -/

set_option autoImplicit false

namespace Verif.Eaglesong

open Go

/-- eaglesong.go:10, one iteration, on `temp[j]` -/
def matStep (state : List U32) (j k : Nat) (acc : U32) : Go U32 := do
  let b ← idx bitMatrix (k * 16 + j)
  let x ← idx state k
  pure (acc ^^^ (b * x))

/-- eaglesong.go:8-12, one iteration of the outer loop -/
def tempStep (state : List U32) (j : Nat) (temp : List U32) : Go (List U32) := do
  let t ← idx temp j
  let t ← forRange 0 16 t (matStep state j)
  upd temp j t

/-- eaglesong.go:14-16, one iteration -/
def copyStep (temp : List U32) (j : Nat) (state : List U32) : Go (List U32) := do
  let t ← idx temp j
  upd state j t

/-- eaglesong.go:19-25, one iteration; the shift counts are `int`, `32 - c` is not negative for the coefficients in the table -/
def circStep (j : Nat) (state : List U32) : Go (List U32) := do
  let value ← idx state j
  let c1 ← idx coefficients (3 * j + 1)
  let c2 ← idx coefficients (3 * j + 2)
  let x ← idx state j
  let x := x ^^^ (value <<< c1)
  let x := x ^^^ (value >>> (32 - c1))
  let x := x ^^^ (value <<< c2)
  let x := x ^^^ (value >>> (32 - c2))
  upd state j x

/-- eaglesong.go:28-30, one iteration -/
def injectStep (i j : Nat) (state : List U32) : Go (List U32) := do
  let x ← idx state j
  let c ← idx injectionConstants (i * 16 + j)
  upd state j (x ^^^ c)

/-- eaglesong.go:33-38, one iteration (`j = 2 q`) -/
def araStep (q : Nat) (state : List U32) : Go (List U32) := do
  let j := 2 * q
  let a ← idx state j
  let b ← idx state (j + 1)
  let state ← upd state j (a + b)
  let a ← idx state j
  let state ← upd state j ((a <<< 8) ^^^ (a >>> 24))
  let b ← idx state (j + 1)
  let state ← upd state (j + 1) ((b <<< 24) ^^^ (b >>> 8))
  let a ← idx state j
  let b ← idx state (j + 1)
  upd state (j + 1) (a + b)

/-- eaglesong.go:6-39, one iteration -/
def roundStep (i : Nat) (state : List U32) : Go (List U32) := do
  let temp ← forRange 0 16 (List.replicate 16 (0 : U32)) (tempStep state)
  let state ← forRange 0 16 state (copyStep temp)
  let state ← forRange 0 16 state circStep
  let state ← forRange 0 16 state (injectStep i)
  forRange 0 8 state araStep

/-- eaglesong.go:5-40; the slice, mutated in place, is returned -/
def permute (rounds : Nat) (state : List U32) : Go (List U32) := forRange 0 rounds state roundStep

/-- eaglesong.go:48-54, one iteration -/
def byteStep (input : List Byte) (delim : Byte) (base k : Nat) (integer : U32) : Go U32 :=
  if base + k < input.length then do
    let b ← idx input (base + k)
    pure ((integer <<< 8) ^^^ b.setWidth 32)
  else if base + k = input.length then pure ((integer <<< 8) ^^^ delim.setWidth 32)
  else pure integer

/-- eaglesong.go:46-57, one iteration -/
def absorbStep (rate : Nat) (delim : Byte) (input : List Byte) (i j : Nat) (state : List U32) : Go (List U32) := do
  let integer ← forRange 0 4 (0 : U32) (byteStep input delim (i * rate / 8 + j * 4))
  let x ← idx state j
  upd state j (x ^^^ integer)

/-- eaglesong.go:45-60, one iteration -/
def blockStep (rounds rate : Nat) (delim : Byte) (input : List Byte) (i : Nat) (state : List U32) : Go (List U32) := do
  let state ← forRange 0 (rate / 32) state (absorbStep rate delim input i)
  permute rounds state

/-- eaglesong.go:67, one iteration -/
def outByteStep (x : U32) (base k : Nat) (output : List Byte) : Go (List Byte) :=
  upd output (base + k) (((x >>> (8 * k)) &&& 0xff).setWidth 8)

/-- eaglesong.go:65-69, one iteration -/
def outWordStep (rate : Nat) (state : List U32) (i j : Nat) (output : List Byte) : Go (List Byte) := do
  let x ← idx state j
  forRange 0 4 output (outByteStep x (i * rate / 8 + j * 4))

/-- eaglesong.go:64-72, one iteration; the state is `output` and `state` -/
def squeezeStep (rounds rate : Nat) (i : Nat) (s : List Byte × List U32) : Go (List Byte × List U32) := do
  let output ← forRange 0 (rate / 32) s.1 (outWordStep rate s.2 i)
  let state ← permute rounds s.2
  pure (output, state)

/-- the `int` that an exact result becomes on a 64-bit machine -/
def wrap (x : Int) : Int := (x + 2 ^ 63) % 2 ^ 64 - 2 ^ 63

/-- eaglesong.go:42-75. The divisions are Go's, rounding towards zero: a zero `rate` (:45) or one strictly between -8 and 8 (:64) divides by
zero. `make` panics for a negative capacity (the panic of the run time is `explicit` here). -/
def eaglesong (rounds capacity rate : Int) (delim : Byte) (input : List Byte) : Go (List Byte) := do
  let state := List.replicate 16 (0 : U32)
  if rate = 0 then panic .divZero
  else do
    let state ← forRange 0 ((wrap (((input.length : Int) + 1) * 8 + rate - 1)).tdiv rate).toNat state (blockStep rounds.toNat rate.toNat delim input)
    if capacity < 0 then panic .explicit
    else if rate.tdiv 8 = 0 then panic .divZero
    else do
      let s ← forRange 0 (capacity.tdiv (rate.tdiv 8)).toNat (List.replicate capacity.toNat (0 : Byte), state) (squeezeStep rounds.toNat rate.toNat)
      pure s.1

/-- client.go:3-9 -/
structure Client where
  rounds : Int
  capacity : Int
  rate : Int
  length : Int
  delim : Byte

/-- client.go:11-21 -/
def new (rounds capacity rate length : Int) (delim : Byte) : Client := ⟨rounds, capacity, rate, length, delim⟩

/-- client.go:23-25 -/
def newNervos : Client := new 43 32 256 32 0x06

/-- client.go:27-29 -/
def Client.compute (c : Client) (input : List Byte) : Go (List Byte) := eaglesong c.rounds c.capacity c.rate c.delim input

end Verif.Eaglesong
