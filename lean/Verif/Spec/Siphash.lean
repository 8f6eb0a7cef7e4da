/-! # Specification: SipHash (Aumasson, Bernstein), as used by the Cuckoo Cycle family

The round is written as in the reference description: two half-rounds of add, rotate, xor. -/

set_option autoImplicit false

namespace Verif.Spec.Sip

/-- the state `(v0, v1, v2, v3)` -/
structure State where
  v0 : BitVec 64
  v1 : BitVec 64
  v2 : BitVec 64
  v3 : BitVec 64

/-- `a += b; c += d; b = rotl(b,s) ^ a; d = rotl(d,t) ^ c; a = rotl(a,32)` -/
def halfRound (s t : Nat) (a b c d : BitVec 64) : BitVec 64 × BitVec 64 × BitVec 64 × BitVec 64 :=
  ((a + b).rotateLeft 32, b.rotateLeft s ^^^ (a + b), c + d, d.rotateLeft t ^^^ (c + d))

/-- SipRound -/
def round (v : State) : State :=
  let (a, b, c, d) := halfRound 13 16 v.v0 v.v1 v.v2 v.v3
  let (c', b', a', d') := halfRound 17 21 c b a d
  ⟨a', b', c', d'⟩

/-- `n` rounds -/
def rounds : Nat → State → State
  | 0, v => v
  | n + 1, v => rounds n (round v)

/-- one-word SipHash-c-d compression and finalisation starting from an arbitrary state -/
def compress (c d : Nat) (v : State) (m : BitVec 64) : State :=
  let v := rounds c { v with v3 := v.v3 ^^^ m }
  rounds d { v with v0 := v.v0 ^^^ m, v2 := v.v2 ^^^ 0xff }

/-- the hash value: xor of the four lanes -/
def lanes (v : State) : BitVec 64 := v.v0 ^^^ v.v1 ^^^ v.v2 ^^^ v.v3

/-- SipHash-2-4 of one word -/
def sip24 (key : State) (m : BitVec 64) : BitVec 64 := lanes (compress 2 4 key m)

/-- chained SipHash-4-8 states of a cuckaroo block that starts at edge `e0` -/
def chain (key : State) (e0 : BitVec 64) : Nat → State
  | 0 => key
  | n + 1 => compress 4 8 (chain key e0 n) (e0 + BitVec.ofNat 64 n)

/-- value `i` of the block of 64 edges starting at `e0` -/
def blockLane (key : State) (e0 : BitVec 64) (i : Nat) : BitVec 64 := lanes (chain key e0 (i + 1))

/-- The cuckaroo edge value: the edge's lane within its aligned block of 64, xored with the last lane of the block
(the last edge of the block is not xored). -/
def block48 (key : State) (e : BitVec 64) : BitVec 64 :=
  let i := e.toNat % 64
  let e0 := BitVec.ofNat 64 (64 * (e.toNat / 64))
  if i = 63 then blockLane key e0 63 else blockLane key e0 i ^^^ blockLane key e0 63

end Verif.Spec.Sip
