import Verif.Model.InMem.Ethash
import Verif.Model.Heavy
import Verif.Model.Eaglesong
import Verif.Model.Cuckoo

/-! # Models of HeavyHash, Eaglesong and Cuckoo Cycle with memory

As in `Verif.Model.Heavy`, `Verif.Model.Eaglesong` and `Verif.Model.Cuckoo`, but slices are references into a heap. Arrays (`[64]uint16`,
`[64][64]uint16`, `[4]uint64`) are values in Go too. -/

set_option autoImplicit false

namespace Verif

open Go

namespace Heavy.InMem

/-- shakehash.go:7-14 `CShake256`: the output is a new slice of `size` bytes -/
def cshake256 (P : Prims) (data : Slice .byte) (personal : List Byte) (size : Nat) : Mem (Slice .byte) := do
  let xs ← Mem.contents data
  Mem.fresh .byte (P.cshake256 xs personal size)

/-- heavyhash.go:33-36, one iteration -/
def vectorStep (header : Slice .byte) (i : Nat) (v : List U16) : Mem (List U16) := do
  let b ← Mem.idx header i
  let v ← Mem.lift (Go.upd v (i * 2) (BitVec.setWidth 16 ((b : Byte) >>> 4)))
  Mem.lift (Go.upd v (i * 2 + 1) (BitVec.setWidth 16 ((b : Byte) &&& 0x0f)))

/-- heavyhash.go:16-60 -/
def heavyHash {F : Type} (N : Num F) (P : Prims) (fuel : Nat) (hash : Slice .byte) (timestamp nonce : U64) : Mem (Slice .byte) := do
  let r ← Mem.slc hash 0 8
  let s0 ← Mem.getU64 .little r
  let r ← Mem.slc hash 8 16
  let s1 ← Mem.getU64 .little r
  let r ← Mem.slc hash 16 24
  let s2 ← Mem.getU64 .little r
  let r ← Mem.slc hash 24 32
  let s3 ← Mem.getU64 .little r
  let mat ← Mem.lift (newMatrix N fuel s0 s1 s2 s3)
  let header ← Mem.make .byte (32 + 8 + 32 + 8)
  Mem.slc header 0 32 >>= fun part => Mem.copy part hash
  Mem.slc header 32 40 >>= fun part => Mem.put64 .little part timestamp
  Mem.slc header 72 80 >>= fun part => Mem.put64 .little part nonce
  let header ← cshake256 P header ("ProofOfWorkHash".toList.map fun ch => BitVec.ofNat 8 ch.toNat) 32
  let v ← Mem.forRange 0 (size / 2) (List.replicate size (0 : U16)) (vectorStep header)
  let p ← Mem.lift (Go.forRange 0 size (List.replicate size (0 : U16)) (productStep mat v))
  let digest ← Mem.make .byte 32
  Mem.each 0 digest.len fun i => do
    let b ← Mem.idx header i
    let hi ← Mem.lift (Go.idx p (i * 2))
    let lo ← Mem.lift (Go.idx p (i * 2 + 1))
    Mem.upd digest i ((b : Byte) ^^^ ((hi <<< 4).setWidth 8 ||| lo.setWidth 8))
  let digest ← cshake256 P digest ("HeavyHash".toList.map fun ch => BitVec.ofNat 8 ch.toNat) 32
  Mem.each 0 (digest.len / 2) fun i => do
    let x ← Mem.idx digest i
    let y ← Mem.idx digest (digest.len - 1 - i)
    Mem.upd digest i y
    Mem.upd digest (digest.len - 1 - i) x
  pure digest

/-- client.go:19-27 `Compute`; `none` is the error -/
def compute {F : Type} (N : Num F) (P : Prims) (fuel : Nat) (hash : Slice .byte) (timestamp nonce : U64) : Mem (Option (Slice .byte)) :=
  if hash.len ≠ 32 then pure none
  else do
    let digest ← heavyHash N P fuel hash timestamp nonce
    pure (some digest)

end Heavy.InMem

namespace Eaglesong.InMem

/-- eaglesong.go:6-39, one iteration; the tables are read only, and are values here. As in `Eaglesong.tempStep` and `Eaglesong.circStep` a cell that
is updated by consecutive assignments (:10, :21-24) is written once. -/
def roundStep (state : Slice .word) (i : Nat) : Mem Unit := do
  let temp ← Mem.make .word 16
  Mem.each 0 16 fun j => do
    let t ← Mem.idx temp j
    let t ← Mem.forRange 0 16 (t : U32) fun k acc => do
      let b ← Mem.lift (Go.idx bitMatrix (k * 16 + j))
      let x ← Mem.idx state k
      pure (acc ^^^ (b * x))
    Mem.upd temp j t
  Mem.each 0 16 fun j => do
    let t ← Mem.idx temp j
    Mem.upd state j t
  Mem.each 0 16 fun j => do
    let value ← Mem.idx state j
    let value : U32 := value
    let c1 ← Mem.lift (Go.idx coefficients (3 * j + 1))
    let c2 ← Mem.lift (Go.idx coefficients (3 * j + 2))
    let x ← Mem.idx state j
    let x : U32 := x
    let x := x ^^^ (value <<< c1)
    let x := x ^^^ (value >>> (32 - c1))
    let x := x ^^^ (value <<< c2)
    let x := x ^^^ (value >>> (32 - c2))
    Mem.upd state j x
  Mem.each 0 16 fun j => do
    let x ← Mem.idx state j
    let c ← Mem.lift (Go.idx injectionConstants (i * 16 + j))
    Mem.upd state j ((x : U32) ^^^ c)
  Mem.each 0 8 fun q => do
    let j := 2 * q
    let a ← Mem.idx state j
    let b ← Mem.idx state (j + 1)
    Mem.upd state j ((a : U32) + b)
    let a ← Mem.idx state j
    Mem.upd state j (((a : U32) <<< 8) ^^^ ((a : U32) >>> 24))
    let b ← Mem.idx state (j + 1)
    Mem.upd state (j + 1) (((b : U32) <<< 24) ^^^ ((b : U32) >>> 8))
    let a ← Mem.idx state j
    let b ← Mem.idx state (j + 1)
    Mem.upd state (j + 1) ((a : U32) + b)

/-- eaglesong.go:5-40 -/
def permute (rounds : Nat) (state : Slice .word) : Mem Unit := Mem.each 0 rounds (roundStep state)

/-- eaglesong.go:48-54, one iteration -/
def byteStep (input : Slice .byte) (delim : Byte) (base k : Nat) (integer : U32) : Mem U32 :=
  if base + k < input.len then do
    let b ← Mem.idx input (base + k)
    pure ((integer <<< 8) ^^^ BitVec.setWidth 32 (b : Byte))
  else if base + k = input.len then pure ((integer <<< 8) ^^^ delim.setWidth 32)
  else pure integer

/-- eaglesong.go:45-60, one iteration -/
def blockStep (rounds rate : Nat) (delim : Byte) (input : Slice .byte) (state : Slice .word) (i : Nat) : Mem Unit := do
  Mem.each 0 (rate / 32) fun j => do
    let integer ← Mem.forRange 0 4 (0 : U32) (byteStep input delim (i * rate / 8 + j * 4))
    let x ← Mem.idx state j
    Mem.upd state j (x ^^^ integer)
  permute rounds state

/-- eaglesong.go:64-72, one iteration -/
def squeezeStep (rounds rate : Nat) (output : Slice .byte) (state : Slice .word) (i : Nat) : Mem Unit := do
  Mem.each 0 (rate / 32) fun j => do
    let x ← Mem.idx state j
    Mem.each 0 4 fun k => Mem.upd output (i * rate / 8 + j * 4 + k) (BitVec.setWidth 8 (((x : U32) >>> (8 * k)) &&& 0xff))
  permute rounds state

/-- eaglesong.go:42-75 -/
def eaglesong (rounds capacity rate : Int) (delim : Byte) (input : Slice .byte) : Mem (Slice .byte) := do
  let state ← Mem.make .word 16
  if rate = 0 then Mem.lift (panic .divZero)
  else do
    Mem.each 0 ((wrap (((input.len : Int) + 1) * 8 + rate - 1)).tdiv rate).toNat (blockStep rounds.toNat rate.toNat delim input state)
    if capacity < 0 then Mem.lift (panic .explicit)
    else do
      let output ← Mem.make .byte capacity.toNat
      if rate.tdiv 8 = 0 then Mem.lift (panic .divZero)
      else do
        Mem.each 0 (capacity.tdiv (rate.tdiv 8)).toNat (squeezeStep rounds.toNat rate.toNat output state)
        pure output

end Eaglesong.InMem

namespace Cuckoo.InMem

open Siphash (Keys)

/-- cuckoo.go:10-14, cuckaroo.go:10-14 -/
def checkEdge (c : Client) (edges : Slice .dword) (n : Nat) : Mem (Option Err) := do
  let e ← Mem.idx edges n
  if (e : U64) > c.edgeMask then
    pure (some .tooBig)
  else if (n : Int) < 0 then do
    let p ← Mem.idx edges (n - 1)
    if (e : U64) ≤ p then pure (some .tooSmall) else pure none
  else pure none

/-- cuckoo.go:9-21, one iteration; the state is `(xor0, xor1)` -/
def cuckooBody (c : Client) (keys : Keys) (edges uvs : Slice .dword) (n : Nat) (s : U64 × U64) : Mem (Step (U64 × U64) Err) := do
  match ← checkEdge c edges n with
  | some err => pure (.ret err)
  | none =>
    let e ← Mem.idx edges n
    let u ← Mem.lift (callNode c.sipnode c.edgeMask keys e 0)
    Mem.upd uvs (2 * n) u
    let x ← Mem.idx uvs (2 * n)
    let xor0 : U64 := s.1 ^^^ x
    let v ← Mem.lift (callNode c.sipnode c.edgeMask keys e 1)
    Mem.upd uvs (2 * n + 1) v
    let x ← Mem.idx uvs (2 * n + 1)
    let xor1 : U64 := s.2 ^^^ x
    pure (.cont (xor0, xor1))

/-- cuckaroo.go:9-21, one iteration -/
def cuckarooBody (c : Client) (keys : Keys) (edges uvs : Slice .dword) (n : Nat) (s : U64 × U64) : Mem (Step (U64 × U64) Err) := do
  match ← checkEdge c edges n with
  | some err => pure (.ret err)
  | none =>
    let e ← Mem.idx edges n
    let edge ← Mem.lift (callBlock c.sipblock keys e)
    Mem.upd uvs (2 * n) (edge &&& c.edgeMask)
    let x ← Mem.idx uvs (2 * n)
    let xor0 : U64 := s.1 ^^^ x
    Mem.upd uvs (2 * n + 1) ((edge >>> 32) &&& c.edgeMask)
    let x ← Mem.idx uvs (2 * n + 1)
    let xor1 : U64 := s.2 ^^^ x
    pure (.cont (xor0, xor1))

/-- cuckoo.go:32-45 = cuckaroo.go:32-45, one iteration -/
def innerStep (uvs : Slice .dword) (proofSize i : Nat) (s : Nat × Nat) : Mem (Step (Nat × Nat) (Option Nat)) :=
  if 2 * proofSize = 0 then Mem.lift (panic .divZero)
  else
    let k := (s.1 + 2) % (2 * proofSize)
    if k = i then pure (.ret (some s.2))
    else do
      let a ← Mem.idx uvs k
      let b ← Mem.idx uvs i
      if (a : U64) = b then
        if s.2 ≠ i then pure (.ret none) else pure (.cont (k, k))
      else pure (.cont (k, s.2))

/-- cuckoo.go:28-57 = cuckaroo.go:28-57, one iteration -/
def outerStep (uvs : Slice .dword) (proofSize fuel : Nat) (s : Nat × Nat) : Mem (Step (Nat × Nat) (Except Err Nat)) := do
  match ← Mem.forever fuel (s.1, s.1) (innerStep uvs proofSize s.1) with
  | none => pure (.ret (.error .branch))
  | some j =>
    if j = s.1 then pure (.ret (.error .deadEnd))
    else
      let i := j ^^^ 1
      let n := s.2 + 1
      if i = 0 then pure (.ret (.ok n)) else pure (.cont (i, n))

/-- cuckoo.go:23-63 = cuckaroo.go:23-63 -/
def walk (c : Client) (fuel : Nat) (uvs : Slice .dword) (xors : U64 × U64) : Mem (Bool × Option Err) :=
  if xors.1 ||| xors.2 ≠ 0 then pure (false, some .notMatching)
  else do
    match ← Mem.forever fuel (0, 0) (outerStep uvs c.proofSize.toNat fuel) with
    | .error err => pure (false, some err)
    | .ok n => if (n : Int) ≠ c.proofSize then pure (false, some .shortCycle) else pure (true, none)

/-- cuckoo.go:5-64 -/
def cuckoo (c : Client) (fuel : Nat) (keys : Keys) (edges : Slice .dword) : Mem (Bool × Option Err) := do
  let L := c.proofSize.toNat
  let uvs ← Mem.make .dword (2 * L)
  match ← Mem.forRangeE 0 L (0, 0) (cuckooBody c keys edges uvs) with
  | .ret err => pure (false, some err)
  | .cont s => walk c fuel uvs s

/-- cuckaroo.go:5-64 -/
def cuckaroo (c : Client) (fuel : Nat) (keys : Keys) (edges : Slice .dword) : Mem (Bool × Option Err) := do
  let L := c.proofSize.toNat
  let uvs ← Mem.make .dword (2 * L)
  match ← Mem.forRangeE 0 L (0, 0) (cuckarooBody c keys edges uvs) with
  | .ret err => pure (false, some err)
  | .cont s => walk c fuel uvs s

/-- client.go:65-71 -/
def headerKeys (P : Prims) (header : Slice .byte) : Mem Keys := do
  let hash ← Crypto.InMem.blake2b256 P header
  let r ← Mem.slc hash 0 8
  let k0 ← Mem.getU64 .little r
  let r ← Mem.slc hash 8 16
  let k1 ← Mem.getU64 .little r
  let r ← Mem.slc hash 16 24
  let k2 ← Mem.getU64 .little r
  let r ← Mem.slc hash 24 32
  let k3 ← Mem.getU64 .little r
  pure ⟨k0, k1, k2, k3⟩

/-- client.go:59-81 `Verify` -/
def verify (P : Prims) (c : Client) (fuel : Nat) (header : Slice .byte) (sols : Slice .dword) : Mem (Bool × Option Err) :=
  if (sols.len : Int) ≠ c.proofSize then pure (false, some .wrongLength)
  else do
    let keys ← headerKeys P header
    match c.variant with
    | .cuckoo => cuckoo c fuel keys sols
    | .cuckaroo => cuckaroo c fuel keys sols
    | _ => pure (false, some .unsupported)

end Cuckoo.InMem

end Verif
