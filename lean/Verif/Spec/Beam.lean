import Verif.Go.Basic
import Verif.Spec.Bytes
import Verif.Spec.Siphash
import Verif.Spec.Wagner

/-! # Specification of BeamHash III

Numbers are written arithmetically (sums, quotients, remainders); only `Prims` is shared with the model. -/

set_option autoImplicit false

namespace Verif.Spec.Beam

open Wagner

/-- size in bits of the work string before round `r + 1` (`r = 5`: what is left at the end) -/
def bits : Nat → Nat
  | 0 => 448
  | 1 => 424
  | 2 => 400
  | 3 => 376
  | 4 => 288
  | _ => 24

/-- the siphash key: BLAKE2b-256 of header ‖ extra nonce, personalised with personal ‖ LE32 448 ‖ LE32 5 -/
def key (P : Prims) (personal header nonce : List (BitVec 8)) : Sip.State :=
  let h := P.blake2bRaw (header ++ nonce) (personal ++ leEncode 4 448 ++ leEncode 4 5) 32
  ⟨leWord64 h 0, leWord64 h 1, leWord64 h 2, leWord64 h 3⟩

variable (K : Sip.State)

/-- the 448-bit work string of a leaf: word `t` is SipHash-2-4 of `8 i + t` -/
def leaf (i : Nat) : Nat :=
  ((List.range 7).map fun t => (Sip.sip24 K (BitVec.ofNat 64 (8 * i + t))).toNat * 2 ^ (64 * t)).sum

/-- the work string `v` of `rem` bits extended by the 25-bit indices of its leaves -/
def extended (rem : Nat) (ixs : List Nat) (v : Nat) : Nat :=
  v + (ixs.mapIdx fun j i => i * 2 ^ (rem + 25 * j)).sum

/-- the mixing word: the sum of the eight words of the 512-bit extended string, each rotated, rotated by 24 -/
def mixWord (rem : Nat) (ixs : List Nat) (v : Nat) : BitVec 64 :=
  (((List.range 8).map fun t => (BitVec.ofNat 64 (extended rem ixs v / 2 ^ (64 * t))).rotateLeft (29 * (t + 1))).sum).rotateLeft 24

/-- the work string with its lowest word replaced by the mixing word -/
def mix (rem : Nat) (ixs : List Nat) (v : Nat) : Nat := v / 2 ^ 64 * 2 ^ 64 + (mixWord rem ixs v).toNat

/-- the work string of a block of `2^r` indices before the mixing step of round `r + 1` -/
def work : Nat → List Nat → Nat
  | 0, l => leaf K (l.headD 0)
  | r + 1, l =>
    let a := l.take (2 ^ r)
    let b := l.drop (2 ^ r)
    (mix (bits r) a (work r a) ^^^ mix (bits r) b (work r b)) / 2 ^ 24 % 2 ^ bits (r + 1)

/-- the work string of a block after the mixing step of round `r + 1` -/
def mixed (r : Nat) (l : List Nat) : Nat := mix (bits r) l (work K r l)

/-- the 32 indices: successive little-endian groups of 25 bits of the first 100 bytes -/
def indices (soln : List (BitVec 8)) : List Nat := (List.range 32).map fun j => bitGroupLE (soln.take 100) 25 j

/-- The BeamHash III conditions on the 32 indices. -/
structure IsSolution (ixs : List Nat) : Prop where
  length : ixs.length = 2 ^ 5
  distinct : ixs.Nodup
  ordered : Ordered 5 ixs
  /-- sibling subtrees agree on the low 24 bits of their mixed work strings -/
  collide : ∀ r < 5, ∀ w < 2 ^ (5 - (r + 1)), mixed K r (block ixs r (2 * w)) % 2 ^ 24 = mixed K r (block ixs r (2 * w + 1)) % 2 ^ 24
  zero : work K 5 ixs = 0

end Verif.Spec.Beam
