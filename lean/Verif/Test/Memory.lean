import Verif.Go.Heap

/-! Cases of `append`, `copy` and slicing: what Go prints for the same statements -/

namespace Verif.Go.Test

def empty : Heap := ⟨fun _ => [], fun _ _ => []⟩

/-- the result of a program, or `none` if it panics -/
def result {α : Type} (m : Mem α) : Option α := match m empty with
  | .ok (a, _) => some a
  | .error _ => none

/-- `a := []byte{1, 2, 3}; b := append(a[:2], 9); fmt.Println(a, b)` prints `[1 2 9] [1 2 9]` -/
def inPlace : Mem (List Byte × List Byte) := do
  let a ← Mem.lit .byte [1, 2, 3]
  let front ← Mem.slc a 0 2
  let nine ← Mem.lit .byte [9]
  let b ← Mem.append front nine
  pure (← Mem.contents a, ← Mem.contents b)

#guard result inPlace = some ([1, 2, 9], [1, 2, 9])

/-- `a := []byte{1, 2}; b := append(a, 9); b[0] = 7; fmt.Println(a, b)` prints `[1 2] [7 2 9]` -/
def moved : Mem (List Byte × List Byte) := do
  let a ← Mem.lit .byte [1, 2]
  let nine ← Mem.lit .byte [9]
  let b ← Mem.append a nine
  Mem.upd b 0 7
  pure (← Mem.contents a, ← Mem.contents b)

#guard result moved = some ([1, 2], [7, 2, 9])

/-- `a := []byte{1, 2, 3, 4}; copy(a[1:], a); fmt.Println(a)` prints `[1 1 2 3]` -/
def overlap : Mem (List Byte) := do
  let a ← Mem.lit .byte [1, 2, 3, 4]
  Mem.copyAt a 1 a
  Mem.contents a

#guard result overlap = some [1, 1, 2, 3]

/-- `a := make([]byte, 1, 4); b := a[1:3]; b[0] = 5; fmt.Println(a, b, a[:2])` prints `[0] [5 0] [0 5]` -/
def beyond : Mem (List Byte × List Byte × List Byte) := do
  let a ← Mem.makeCap .byte 1 4
  let b ← Mem.slc a 1 3
  Mem.upd b 0 5
  let c ← Mem.slc a 0 2
  pure (← Mem.contents a, ← Mem.contents b, ← Mem.contents c)

#guard result beyond = some ([0], [5, 0], [0, 5])

/-- `a := make([]byte, 1, 4); a[1] = 5` panics -/
def outside : Mem Unit := do
  let a ← Mem.makeCap .byte 1 4
  Mem.upd a 1 5

#guard result outside = none

/-- `a := make([]byte, 1, 4); _ = a[0:5]` panics -/
def above : Mem (Slice .byte) := do
  let a ← Mem.makeCap .byte 1 4
  Mem.slc a 0 5

#guard result above = none

/-- two appends to one slice with capacity: the second overwrites what the first wrote -/
def twice : Mem (List Byte × List Byte) := do
  let a ← Mem.makeCap .byte 1 4
  let x ← Mem.lit .byte [1]
  let y ← Mem.lit .byte [2]
  let b ← Mem.append a x
  let c ← Mem.append a y
  pure (← Mem.contents b, ← Mem.contents c)

#guard result twice = some ([0, 2], [0, 2])

/-- `binary.BigEndian.PutUint32(a[2:], 0x01020304)` -/
def put : Mem (List Byte) := do
  let a ← Mem.make .byte 7
  Mem.putU32 .big a 2 0x01020304
  Mem.contents a

#guard result put = some [0, 0, 1, 2, 3, 4, 0]

end Verif.Go.Test
