/-!
# The fragment of Go semantics used by the model

Nothing in this file models a file of /repo: it fixes how Go itself is read.

* `uint8`, `uint16`, `uint32`, `uint64` are `BitVec 8/16/32/64`; `+ - *` wrap, `<<`/`>>` by an amount `≥` the
  width give `0`, conversions truncate or zero-extend (`BitVec.setWidth`), exactly as in the Go specification.
* a slice is a `List`; `len = cap` unless a definition says otherwise.
* run-time panics and non-termination are the error side of `Except Stop`.
-/

set_option autoImplicit false

namespace Verif

abbrev Byte := BitVec 8
abbrev U16 := BitVec 16
abbrev U32 := BitVec 32
abbrev U64 := BitVec 64

/-- The run-time panics that the modelled code can raise. -/
inductive Panic where
  /-- index out of range -/
  | index
  /-- slice bounds out of range -/
  | slice
  /-- integer divide by zero -/
  | divZero
  /-- nil pointer dereference -/
  | nilDeref
  /-- negative shift amount -/
  | negShift
  /-- an explicit call of `panic` -/
  | explicit
  deriving DecidableEq, Repr

/-- Why a computation yields no value: it panicked, or a loop was still running when its fuel was used up. -/
inductive Stop where
  | panic (p : Panic)
  | fuel
  deriving DecidableEq, Repr

/-- A Go computation. -/
abbrev Go (α : Type) := Except Stop α

namespace Go

variable {α β σ : Type}

def panic (p : Panic) : Go α := .error (.panic p)

/-- `l[i]` (read). -/
def idx (l : List α) (i : Nat) : Go α :=
  match l[i]? with
  | some a => .ok a
  | none => .error (.panic .index)

/-- `l[i] = a`. -/
def upd (l : List α) (i : Nat) (a : α) : Go (List α) :=
  if i < l.length then .ok (l.set i a) else .error (.panic .index)

/-- `l[lo:hi]`. -/
def slc (l : List α) (lo hi : Nat) : Go (List α) :=
  if lo ≤ hi ∧ hi ≤ l.length then .ok ((l.take hi).drop lo) else .error (.panic .slice)

/-- `copy(dst[off:], src)`: writes `min (len dst - off) (len src)` elements; `dst[off:]` panics when `off > len dst`. -/
def copyAt (dst : List α) (off : Nat) (src : List α) : Go (List α) :=
  if off ≤ dst.length then
    .ok (dst.take off ++ src.take (dst.length - off) ++ dst.drop (off + src.length))
  else .error (.panic .slice)

/-- integer division that panics on a zero divisor (unsigned) -/
def udiv {w : Nat} (a b : BitVec w) : Go (BitVec w) :=
  if b = 0 then .error (.panic .divZero) else .ok (a / b)

/-- integer remainder that panics on a zero divisor (unsigned) -/
def umod {w : Nat} (a b : BitVec w) : Go (BitVec w) :=
  if b = 0 then .error (.panic .divZero) else .ok (a % b)

/-- `n` iterations of a counting loop starting at `i`. -/
def loop : Nat → Nat → σ → (Nat → σ → Go σ) → Go σ
  | 0, _, s, _ => .ok s
  | n + 1, i, s, f => do
    let s' ← f i s
    loop n (i + 1) s' f

/-- `for i := lo; i < hi; i++ { s = f(i, s) }` -/
def forRange (lo hi : Nat) (s : σ) (f : Nat → σ → Go σ) : Go σ := loop (hi - lo) lo s f

/-- Outcome of one loop iteration whose body may `return` from the enclosing function. -/
inductive Step (σ β : Type) where
  | cont (s : σ)
  | ret (b : β)

def loopE : Nat → Nat → σ → (Nat → σ → Go (Step σ β)) → Go (Step σ β)
  | 0, _, s, _ => .ok (.cont s)
  | n + 1, i, s, f => do
    match ← f i s with
    | .cont s' => loopE n (i + 1) s' f
    | .ret b => .ok (.ret b)

/-- a counting loop whose body may return from the enclosing function -/
def forRangeE (lo hi : Nat) (s : σ) (f : Nat → σ → Go (Step σ β)) : Go (Step σ β) := loopE (hi - lo) lo s f

/-- `for { body }`: runs until the body breaks (`ret`), at most `fuel` iterations. -/
def forever : Nat → σ → (σ → Go (Step σ β)) → Go β
  | 0, _, _ => .error .fuel
  | n + 1, s, f => do
    match ← f s with
    | .cont s' => forever n s' f
    | .ret b => .ok b

/-! ## encoding/binary -/

/-- value of a byte string read little-endian -/
def leNat : List Byte → Nat
  | [] => 0
  | b :: bs => b.toNat + 256 * leNat bs

/-- value of a byte string read big-endian -/
def beNat (bs : List Byte) : Nat := bs.foldl (fun a b => a * 256 + b.toNat) 0

/-- the `n` low bytes of a word, little-endian -/
def leBytes {w : Nat} (n : Nat) (v : BitVec w) : List Byte := (List.range n).map fun i => (v >>> (8 * i)).setWidth 8

/-- the `n` low bytes of a word, big-endian -/
def beBytes {w : Nat} (n : Nat) (v : BitVec w) : List Byte := (leBytes n v).reverse

/-- the two implementations of `binary.ByteOrder` -/
inductive ByteOrder where
  | little
  | big
  deriving DecidableEq, Repr

def bytesOf {w : Nat} : ByteOrder → Nat → BitVec w → List Byte
  | .little => leBytes
  | .big => beBytes

def natOf : ByteOrder → List Byte → Nat
  | .little => leNat
  | .big => beNat

/-- `order.Uint32(b)`: panics when `len(b) < 4` -/
def getU32 (o : ByteOrder) (b : List Byte) : Go U32 :=
  if 4 ≤ b.length then .ok (BitVec.ofNat 32 (natOf o (b.take 4))) else .error (.panic .index)

/-- `order.Uint64(b)` -/
def getU64 (o : ByteOrder) (b : List Byte) : Go U64 :=
  if 8 ≤ b.length then .ok (BitVec.ofNat 64 (natOf o (b.take 8))) else .error (.panic .index)

/-- `order.PutUint32(b[off:], v)` -/
def putU32 (o : ByteOrder) (b : List Byte) (off : Nat) (v : U32) : Go (List Byte) :=
  if b.length < off then .error (.panic .slice)
  else if b.length < off + 4 then .error (.panic .index)
  else .ok (b.take off ++ bytesOf o 4 v ++ b.drop (off + 4))

/-- `order.PutUint64(b[off:], v)` -/
def putU64 (o : ByteOrder) (b : List Byte) (off : Nat) (v : U64) : Go (List Byte) :=
  if b.length < off then .error (.panic .slice)
  else if b.length < off + 8 then .error (.panic .index)
  else .ok (b.take off ++ bytesOf o 8 v ++ b.drop (off + 8))

end Go

/-- External hash functions (modules outside /repo: github.com/dchest/blake2b and golang.org/x/crypto/sha3).
They are arbitrary functions on byte strings; only their output length is assumed. -/
structure Prims where
  /-- BLAKE2b with a personalisation string and a digest size of 1..64 bytes -/
  blake2bRaw : List Byte → List Byte → Nat → List Byte
  /-- BLAKE2b-256 (`blake2b.Sum256`) -/
  blake2b256 : List Byte → List Byte
  /-- legacy Keccak-256 -/
  keccak256 : List Byte → List Byte
  /-- legacy Keccak-512 -/
  keccak512 : List Byte → List Byte
  /-- cSHAKE-256 with empty function name, customisation string, output size -/
  cshake256 : List Byte → List Byte → Nat → List Byte
  blake2bRaw_length : ∀ d p n, 1 ≤ n → n ≤ 64 → (blake2bRaw d p n).length = n
  blake2b256_length : ∀ d, (blake2b256 d).length = 32
  keccak256_length : ∀ d, (keccak256 d).length = 32
  keccak512_length : ∀ d, (keccak512 d).length = 64
  cshake256_length : ∀ d p n, (cshake256 d p n).length = n

/-- A trivial instance: the length assumptions are satisfiable. -/
def Prims.zero : Prims where
  blake2bRaw _ _ n := List.replicate n 0
  blake2b256 _ := List.replicate 32 0
  keccak256 _ := List.replicate 32 0
  keccak512 _ := List.replicate 64 0
  cshake256 _ _ n := List.replicate n 0
  blake2bRaw_length := by simp
  blake2b256_length := by simp
  keccak256_length := by simp
  keccak512_length := by simp
  cshake256_length := by simp

instance : Inhabited Prims := ⟨Prims.zero⟩

end Verif
