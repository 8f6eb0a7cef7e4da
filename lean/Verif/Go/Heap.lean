import Mathlib.Logic.Function.Basic
import Verif.Go.Basic

/-! # Arrays, slices and the heap

Nothing in this file models a file of /repo: it fixes how Go's slices are read where the sharing of memory matters. A slice refers to a part of
an array; several slices may refer to the same cells. `append` writes behind the slice where the capacity allows it, and otherwise makes a new
array whose spare capacity the implementation chooses: here the heap carries a supply of choices, about which nothing is assumed. -/

set_option autoImplicit false

namespace Verif.Go

/-- the types of cells: `byte`, `uint32`, `uint64` and `big.Int` (which is never negative here) -/
inductive Ty where
  | byte
  | word
  | dword
  | big
  deriving DecidableEq, Repr

/-- the contents of a cell -/
abbrev Ty.Val : Ty → Type
  | .byte => Byte
  | .word => U32
  | .dword => U64
  | .big => Nat

/-- the zero value -/
def Ty.zero : (t : Ty) → t.Val
  | .byte => (0 : Byte)
  | .word => (0 : U32)
  | .dword => (0 : U64)
  | .big => (0 : Nat)

/-- Memory: the arrays of each type in the order of their allocation, and the spare cells that the next arrays made by `append` or by functions
outside the model will have. -/
structure Heap where
  store : (t : Ty) → List (List t.Val)
  spare : (t : Ty) → Nat → List t.Val

/-- a slice: array, offset, length and capacity -/
structure Slice (t : Ty) where
  arr : Nat
  off : Nat
  len : Nat
  cap : Nat
  deriving DecidableEq, Repr

/-- a computation with memory; when it stops, the memory is still there (a caller may recover from a panic, other goroutines go on) -/
def Mem (α : Type) := Heap → Except (Stop × Heap) (α × Heap)

namespace Mem

variable {α β σ : Type} {t : Ty}

def pure (a : α) : Mem α := fun h => .ok (a, h)

def bind (m : Mem α) (k : α → Mem β) : Mem β := fun h => do
  let (a, h') ← m h
  k a h'

instance : Monad Mem where
  pure := pure
  bind := bind

/-- a computation without memory -/
def lift (g : Go α) : Mem α := fun h =>
  match g with
  | .ok a => .ok (a, h)
  | .error p => .error (p, h)

/-- the array of a slice -/
def array (s : Slice t) : Mem (List t.Val) := fun h =>
  match (h.store t)[s.arr]? with
  | some a => .ok (a, h)
  | none => .error (.panic .nilDeref, h)

/-- overwrite cells -/
def _root_.Verif.Go.Heap.poke (h : Heap) (t : Ty) (arr pos : Nat) (vs : List t.Val) : Heap :=
  { h with store := Function.update h.store t ((h.store t).modify arr fun a => a.take pos ++ vs ++ a.drop (pos + vs.length)) }

/-- a new array -/
def _root_.Verif.Go.Heap.add (h : Heap) (t : Ty) (a : List t.Val) : Heap :=
  { h with store := Function.update h.store t (h.store t ++ [a]) }

/-- the next spare cells -/
def _root_.Verif.Go.Heap.next (h : Heap) (t : Ty) : Heap :=
  { h with spare := Function.update h.spare t fun i => h.spare t (i + 1) }

/-- `make([]T, n)` -/
def make (t : Ty) (n : Nat) : Mem (Slice t) := fun h =>
  .ok (⟨(h.store t).length, 0, n, n⟩, h.add t (List.replicate n t.zero))

/-- `make([]T, n, c)`, for `n ≤ c` -/
def makeCap (t : Ty) (n c : Nat) : Mem (Slice t) := fun h =>
  .ok (⟨(h.store t).length, 0, n, c⟩, h.add t (List.replicate c t.zero))

/-- a new slice with these contents, as functions outside the model return it: the capacity is not known -/
def fresh (t : Ty) (xs : List t.Val) : Mem (Slice t) := fun h =>
  let extra := h.spare t 0
  .ok (⟨(h.store t).length, 0, xs.length, xs.length + extra.length⟩, (h.add t (xs ++ extra)).next t)

/-- a composite literal `[]T{...}` or `new(T)` -/
def lit (t : Ty) (xs : List t.Val) : Mem (Slice t) := fun h =>
  .ok (⟨(h.store t).length, 0, xs.length, xs.length⟩, h.add t xs)

/-- the elements of a slice -/
def contents (s : Slice t) : Mem (List t.Val) := do
  let a ← array s
  pure ((a.drop s.off).take s.len)

/-- `s[i]` -/
def idx (s : Slice t) (i : Nat) : Mem t.Val := do
  let xs ← contents s
  lift (Go.idx xs i)

/-- overwrite elements of a slice from `i` on; they exist -/
def blit (s : Slice t) (i : Nat) (vs : List t.Val) : Mem Unit := fun h => .ok ((), h.poke t s.arr (s.off + i) vs)

/-- `s[i] = v` -/
def upd (s : Slice t) (i : Nat) (v : t.Val) : Mem Unit :=
  if i < s.len then blit s i [v] else lift (panic .index)

/-- `s[lo:hi]`: up to the capacity -/
def slc (s : Slice t) (lo hi : Nat) : Mem (Slice t) :=
  if lo ≤ hi ∧ hi ≤ s.cap then pure ⟨s.arr, s.off + lo, hi - lo, s.cap - lo⟩ else lift (panic .slice)

/-- `copy(dst, src)`; overlapping memory is read before it is written -/
def copy (dst src : Slice t) : Mem Unit := do
  let xs ← contents src
  blit dst 0 (xs.take dst.len)

/-- `copy(dst[off:], src)` -/
def copyAt (dst : Slice t) (off : Nat) (src : Slice t) : Mem Unit := do
  let d ← slc dst off dst.len
  copy d src

/-- `append(s, src...)` -/
def append (s src : Slice t) : Mem (Slice t) := do
  let xs ← contents src
  if s.len + xs.length ≤ s.cap then do
    blit s s.len xs
    pure ⟨s.arr, s.off, s.len + xs.length, s.cap⟩
  else do
    let old ← contents s
    fresh t (old ++ xs)

/-- `order.Uint32(s)` -/
def getU32 (o : ByteOrder) (s : Slice .byte) : Mem U32 := do
  let xs ← contents s
  lift (Go.getU32 o xs)

/-- `order.Uint64(s)` -/
def getU64 (o : ByteOrder) (s : Slice .byte) : Mem U64 := do
  let xs ← contents s
  lift (Go.getU64 o xs)

/-- `order.PutUint32(s, v)` -/
def put32 (o : ByteOrder) (s : Slice .byte) (v : U32) : Mem Unit :=
  if s.len < 4 then lift (panic .index) else blit s 0 (bytesOf o 4 v)

/-- `order.PutUint64(s, v)` -/
def put64 (o : ByteOrder) (s : Slice .byte) (v : U64) : Mem Unit :=
  if s.len < 8 then lift (panic .index) else blit s 0 (bytesOf o 8 v)

/-- `order.PutUint32(s[off:], v)` -/
def putU32 (o : ByteOrder) (s : Slice .byte) (off : Nat) (v : U32) : Mem Unit := do
  let d ← slc s off s.len
  put32 o d v

/-- `order.PutUint64(s[off:], v)` -/
def putU64 (o : ByteOrder) (s : Slice .byte) (off : Nat) (v : U64) : Mem Unit := do
  let d ← slc s off s.len
  put64 o d v

/-- `n` iterations of a counting loop starting at `i` -/
def loop : Nat → Nat → σ → (Nat → σ → Mem σ) → Mem σ
  | 0, _, s, _ => pure s
  | n + 1, i, s, f => do
    let s' ← f i s
    loop n (i + 1) s' f

/-- `for i := lo; i < hi; i++ { s = f(i, s) }` -/
def forRange (lo hi : Nat) (s : σ) (f : Nat → σ → Mem σ) : Mem σ := loop (hi - lo) lo s f

/-- a loop whose variables are in memory only -/
def each (lo hi : Nat) (f : Nat → Mem Unit) : Mem Unit := forRange lo hi () fun i _ => f i

def loopE : Nat → Nat → σ → (Nat → σ → Mem (Step σ β)) → Mem (Step σ β)
  | 0, _, s, _ => pure (.cont s)
  | n + 1, i, s, f => do
    match ← f i s with
    | .cont s' => loopE n (i + 1) s' f
    | .ret b => pure (.ret b)

/-- a counting loop whose body may return from the enclosing function -/
def forRangeE (lo hi : Nat) (s : σ) (f : Nat → σ → Mem (Step σ β)) : Mem (Step σ β) := loopE (hi - lo) lo s f

/-- `for { body }`: runs until the body breaks (`ret`), at most `fuel` iterations -/
def forever : Nat → σ → (σ → Mem (Step σ β)) → Mem β
  | 0, _, _ => lift (.error .fuel)
  | n + 1, s, f => do
    match ← f s with
    | .cont s' => forever n s' f
    | .ret b => pure b

end Mem

end Verif.Go
