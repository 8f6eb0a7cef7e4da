import Verif.Go.Basic

/-! # Model of /repo/internal/common/bitutil (XORBytes: amd64 and arm64 assembly, generic Go)

The three versions work on one flat byte-addressed memory so that aliasing of the operands is part of the model.
Addresses and the 64-bit registers are integers: a slice length is below 2^63 and no object wraps around the address
space, so none of the additions and subtractions below overflows; a subtraction that went below zero would show up as a
negative register (as it would in the signed comparisons of the assembly). -/

set_option autoImplicit false

namespace Verif.Bitutil

open Go

/-- memory -/
abbrev Mem := Int → Byte

/-- load `w` bytes at `a` and at `b`, xor them, store at `d` (all loads happen before the store) -/
def xorChunk (w : Int) (d a b : Int) (m : Mem) : Mem := fun x =>
  if d ≤ x ∧ x < d + w then m (a + (x - d)) ^^^ m (b + (x - d)) else m x

/-! ## amd64 -/

/-- labels of xor_amd64.s -/
inductive Lbl where
  | entry | aligned | loop16b | loop1b | notAligned | ret
  deriving DecidableEq, Repr

/-- registers AX, DX and memory; BX, SI, CX are never written by the routine -/
structure Amd where
  ax : Int
  dx : Int
  mem : Mem

/-- xor_amd64.s: the instructions from a label up to the next jump taken -/
def amdBlock (bx si cx : Int) (s : Amd) : Lbl → Lbl × Amd
  | .entry =>                                                 -- lines 13-14: TESTQ $15, DX; JNZ not_aligned
    if s.dx % 16 ≠ 0 then (.notAligned, s) else (.aligned, s)
  | .aligned => (.loop16b, { s with ax := 0 })                -- line 17: MOVQ $0, AX
  | .loop16b =>                                               -- lines 20-27
    let s := { s with mem := xorChunk 16 (bx + s.ax) (si + s.ax) (cx + s.ax) s.mem }
    let s := { s with ax := s.ax + 16 }
    if s.dx ≠ s.ax then (.loop16b, s) else (.ret, s)
  | .loop1b =>                                                -- lines 30-40
    let s := { s with dx := s.dx - 1 }
    let s := { s with mem := xorChunk 1 (bx + s.dx) (si + s.dx) (cx + s.dx) s.mem }
    if s.dx % 8 ≠ 0 then (.loop1b, s)
    else if s.dx = 0 then (.ret, s)
    else if s.dx % 16 = 0 then (.aligned, s)
    else (.notAligned, s)                                     -- fall through
  | .notAligned =>                                            -- lines 43-51
    if s.dx % 8 ≠ 0 then (.loop1b, s) else
    let s := { s with dx := s.dx - 8 }
    let s := { s with mem := xorChunk 8 (bx + s.dx) (si + s.dx) (cx + s.dx) s.mem }
    if 16 ≤ s.dx then (.aligned, s) else (.ret, s)
  | .ret => (.ret, s)

/-- run from a label until `RET` -/
def amdRun (bx si cx : Int) : Nat → Lbl → Amd → Go Mem
  | _, .ret, s => .ok s.mem
  | 0, _, _ => .error .fuel
  | fuel + 1, l, s => let r := amdBlock bx si cx s l; amdRun bx si cx fuel r.1 r.2

/-- xor_amd64.s:8-54 `xorBytesSSE2(dst, a, b, n)`; AX is not initialised by the routine (any value `ax0`) -/
def xorBytesSSE2 (fuel : Nat) (ax0 : Int) (dst a b n : Int) (m : Mem) : Go Mem :=
  amdRun dst a b fuel .entry ⟨ax0, n, m⟩

/-! ## arm64 -/

/-- registers R0..R3 (destination, sources, remaining count) and memory -/
structure Arm where
  r0 : Int
  r1 : Int
  r2 : Int
  r3 : Int
  mem : Mem

/-- load `w` bytes at R1 and R2 with post-increment, xor, store at R0 with post-increment -/
def armChunk (w : Int) (s : Arm) : Arm :=
  { s with r0 := s.r0 + w, r1 := s.r1 + w, r2 := s.r2 + w, mem := xorChunk w s.r0 s.r1 s.r2 s.mem }

/-- `TBZ $i, R3, label`: skip the block when bit `i` (weight `w = 2^i`) of R3 is clear; the block handles `w` bytes -/
def armBit (w : Int) (s : Arm) : Arm := if (s.r3 / w) % 2 = 0 then s else armChunk w s

/-- xor_arm64.s:16-26 `loop_64` -/
def armLoop : Nat → Arm → Go Arm
  | 0, _ => .error .fuel
  | fuel + 1, s =>
    let s := armChunk 64 s
    let s := { s with r3 := s.r3 - 64 }
    if 64 ≤ s.r3 then armLoop fuel s else .ok s

/-- xor_arm64.s:27-65 `tail` -/
def armTail (s : Arm) : Arm :=
  if s.r3 = 0 then s else
  let s := armBit 32 s
  let s := armBit 16 s
  let s := armBit 8 s
  let s := armBit 4 s
  let s := armBit 2 s
  armBit 1 s

/-- xor_arm64.s:9-67 `xorBytesARM64(dst, a, b, n)` -/
def xorBytesARM64 (fuel : Nat) (dst a b n : Int) (m : Mem) : Go Mem := do
  let s : Arm := ⟨dst, a, b, n, m⟩
  if s.r3 < 64 then pure (armTail s).mem
  else
    let s ← armLoop fuel s
    pure (armTail s).mem

/-! ## generic -/

/-- one iteration of the loops at xor_generic.go:54-56 (`w` = word size) and 59-61, 66-68 (`w = 1`) -/
def genericStep (w : Nat) (dst a b : Int) (i : Nat) (m : Mem) : Go Mem :=
  .ok (xorChunk w (dst + w * i) (a + w * i) (b + w * i) m)

/-- xor_generic.go:45-62 `fastXORBytes`, machine word of `wordSize` bytes. The reinterpreted word slices keep the byte
lengths as their lengths, so `dw[i]`, `aw[i]`, `bw[i]` with `i < n/wordSize` are in range; `dst[i]`, `a[i]`, `b[i]` with
`i < n` are in range after the assertion in `xorBytes`. -/
def fastXORBytes (wordSize : Nat) (dst a b : Int) (n : Nat) (m : Mem) : Go Mem := do
  let w := n / wordSize
  let m ← forRange 0 w m (genericStep wordSize dst a b)
  forRange (n - n % wordSize) n m (genericStep 1 dst a b)

/-- xor_generic.go:65-69 `safeXORBytes` -/
def safeXORBytes (dst a b : Int) (n : Nat) (m : Mem) : Go Mem := forRange 0 n m (genericStep 1 dst a b)

/-! ## XORBytes -/

/-- a byte slice: address of its first element and its length -/
structure Slice where
  ptr : Int
  len : Nat

/-- the four builds of `XORBytes` -/
inductive Arch where
  | amd64 (ax0 : Int)
  | arm64
  /-- `supportsUnaligned` architectures (xor_generic.go:40), with their word size -/
  | fast (wordSize : Nat)
  | safe

/-- `XORBytes(dst, a, b)`: xor_amd64.go:9-20, xor_arm64.go:9-22, xor_generic.go:16-37. Returns the new memory and the
count. `safeXORBytes` has no up-front assertion: it panics in the loop, after having written `len dst` bytes; since a
panic has no result here the two are the same outcome (the partial write is not modelled). -/
def xorBytes (arch : Arch) (fuel : Nat) (dst a b : Slice) (m : Mem) : Go (Mem × Nat) := do
  let n := if b.len < a.len then b.len else a.len
  if n = 0 then pure (m, 0)
  else if dst.len ≤ n - 1 then panic .index
  else
    let m ← match arch with
      | .amd64 ax0 => xorBytesSSE2 fuel ax0 dst.ptr a.ptr b.ptr n m
      | .arm64 => xorBytesARM64 fuel dst.ptr a.ptr b.ptr n m
      | .fast ws => fastXORBytes ws dst.ptr a.ptr b.ptr n m
      | .safe => safeXORBytes dst.ptr a.ptr b.ptr n m
    pure (m, n)

end Verif.Bitutil
