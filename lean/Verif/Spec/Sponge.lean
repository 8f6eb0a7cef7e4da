import Mathlib.Logic.Function.Iterate

/-! # Specification of sponge functions on bytes (FIPS 202, section 4, with whole bytes; the padding byte is a parameter: 0x01 for Keccak) -/

set_option autoImplicit false

namespace Verif.Spec.Sponge

/-- a string xored into the front of a state of 200 bytes -/
def xorInto (s block : List (BitVec 8)) : List (BitVec 8) := (List.range 200).map fun i => s.getD i 0 ^^^ block.getD i 0

/-- the blocks of `r` bytes of a string -/
def blocks (r : Nat) (msg : List (BitVec 8)) : List (List (BitVec 8)) := (List.range (msg.length / r)).map fun i => (msg.drop (r * i)).take r

/-- the state after absorbing the blocks of a string -/
def absorb (f : List (BitVec 8) → List (BitVec 8)) (r : Nat) (msg : List (BitVec 8)) : List (BitVec 8) :=
  (blocks r msg).foldl (fun s b => f (xorInto s b)) (List.replicate 200 0)

/-- the padding of a string of `n` bytes: the first byte, zeros, and the last bit of the block -/
def padding (r : Nat) (ds : BitVec 8) (n : Nat) : List (BitVec 8) :=
  if n % r = r - 1 then [ds ^^^ 0x80] else [ds] ++ List.replicate (r - 2 - n % r) 0 ++ [0x80]

/-- the bytes that can be read from a state: `r` from each of the states that follow -/
def stream (f : List (BitVec 8) → List (BitVec 8)) (r : Nat) (s : List (BitVec 8)) (i : Nat) : BitVec 8 := (f^[i / r] s).getD (i % r) 0

/-- byte `i` of the output for a string -/
def output (f : List (BitVec 8) → List (BitVec 8)) (r : Nat) (ds : BitVec 8) (msg : List (BitVec 8)) (i : Nat) : BitVec 8 :=
  stream f r (absorb f r (msg ++ padding r ds msg.length)) i

/-- the digest of `m` bytes -/
def digest (f : List (BitVec 8) → List (BitVec 8)) (r : Nat) (ds : BitVec 8) (m : Nat) (msg : List (BitVec 8)) : List (BitVec 8) :=
  (List.range m).map (output f r ds msg)

/-- what is done with a hash object: all strings written are forgotten, one is written, or some bytes are read -/
inductive Op where
  | reset
  | write (p : List (BitVec 8))
  | read (m : Nat)

/-- what is known of a hash object: the string written since it was last reset, and how many bytes were read if reading has begun -/
structure Written where
  msg : List (BitVec 8)
  taken : Option Nat

/-- the bytes read at each operation of a series (none for the others); `none` if something is written after reading has begun -/
def outputs (f : List (BitVec 8) → List (BitVec 8)) (r : Nat) (ds : BitVec 8) : List Op → Written → Option (List (List (BitVec 8)))
  | [], _ => some []
  | .reset :: ops, _ => (outputs f r ds ops ⟨[], none⟩).map ([] :: ·)
  | .write p :: ops, w => if w.taken = none then (outputs f r ds ops ⟨w.msg ++ p, none⟩).map ([] :: ·) else none
  | .read m :: ops, w => (outputs f r ds ops ⟨w.msg, some (w.taken.getD 0 + m)⟩).map
      ((List.range m).map (fun j => output f r ds w.msg (w.taken.getD 0 + j)) :: ·)

end Verif.Spec.Sponge
