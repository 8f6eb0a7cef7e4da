import Verif.Go.Basic
import Verif.Spec.Bytes
import Verif.Spec.Wagner

/-! # Specification of Equihash (Zcash protocol specification, section 7.7.1, and the ZelHash "twist")

Only `Prims` (the opaque hash functions) is shared with the model. -/

set_option autoImplicit false

namespace Verif.Spec.Equihash

open Wagner

structure Params where
  n : Nat
  k : Nat
  personal : List (BitVec 8)
  twist : Bool
  deriving DecidableEq

/-- collision bit length -/
def Params.c (q : Params) : Nat := q.n / (q.k + 1)
/-- bytes per leaf -/
def Params.nb (q : Params) : Nat := (q.n + 7) / 8
/-- leaves per hash call -/
def Params.per (q : Params) : Nat := 512 / q.n
/-- digest size of one hash call -/
def Params.digest (q : Params) : Nat := q.per * q.nb

/-- Parameters for which the scheme is meaningful and the 32-bit arithmetic of an implementation suffices. -/
structure Params.WF (q : Params) : Prop where
  div : q.n = (q.k + 1) * q.c
  c_lo : 8 ≤ q.c
  c_hi : q.c ≤ 25
  n_hi : q.n ≤ 512
  /-- either collision chunks are whole bytes, or the leaf is long enough to be stretched when unpacked -/
  unpack : q.c % 8 = 0 ∨ q.c ≤ (8 * ((q.c + 7) / 8) - q.c) * q.nb
  /-- solutions are whole bytes -/
  bytes : 8 ∣ 2 ^ q.k * (q.c + 1)
  small : 4 * (2 ^ q.k * (q.c + 1)) < 2 ^ 32
  digest_le : q.digest ≤ 64
  personal_le : q.personal.length ≤ 8
  twisted : q.twist = true → q.digest = 64

/-- the length of a solution as computed with 32-bit arithmetic -/
def Params.askedLen (q : Params) : Nat := 2 ^ q.k * (q.c + 1) % 2 ^ 32 / 8

/-- What an implementation needs of the sizes in order to return, whether or not the parameters make sense cryptographically: no condition
relates `n` to a multiple of `k + 1`, and collision lengths for which 32-bit accumulators lose bits are included. -/
structure Params.Fits (q : Params) : Prop where
  c_lo : 7 ≤ q.c
  c_hi : q.c ≤ 31
  n_hi : q.n ≤ 512
  bytes : 8 ∣ 2 ^ q.k * (q.c + 1)
  small : 2 ^ q.k * (q.c + 1) < 2 ^ 30
  digest_le : q.digest ≤ 64
  personal_le : q.personal.length ≤ 8
  twisted : q.twist = true → q.digest = 64 ∧ q.c ≤ 30

/-- the published parameters of the five coins: n, k, personalisation (in bytes), ZelHash twist -/
def flux : Params := ⟨125, 4, [90, 101, 108, 80, 114, 111, 111, 102], true⟩
def bitcoinGold : Params := ⟨144, 5, [66, 103, 111, 108, 100, 80, 111, 87], false⟩
def zclassic : Params := ⟨192, 7, [90, 99, 97, 115, 104, 80, 111, 87], false⟩
def zcash : Params := ⟨200, 9, [90, 99, 97, 115, 104, 80, 111, 87], false⟩
def aion : Params := ⟨210, 9, [65, 73, 79, 78, 48, 80, 111, 87], false⟩

variable (P : Prims) (q : Params) (header : List (BitVec 8))

/-- BLAKE2b of header ‖ LE32 g, personalised with personal ‖ LE32 n ‖ LE32 k -/
def rawHash (g : Nat) : List (BitVec 8) :=
  P.blake2bRaw (header ++ leEncode 4 g) (q.personal ++ leEncode 4 q.n ++ leEncode 4 q.k) q.digest

/-- the group hash: plain, or the ZelHash lane sums with the low three bits of every 16th byte cleared -/
def groupHash (g : Nat) : List (BitVec 8) :=
  if q.twist then
    let lane l := ((List.range (g % 16 + 1)).map fun t => (leWord32 (rawHash P q header (g - g % 16 + t)) l).toNat).sum
    ((List.range 16).flatMap fun l => leEncode 4 (lane l % 2 ^ 32)).mapIdx fun i b => if i % 16 = 15 then b &&& 0xF8 else b
  else rawHash P q header g

/-- the `n`-bit string of leaf `i`, as a number -/
def leaf (i : Nat) : Nat :=
  beValue (((groupHash P q header (i / q.per)).drop (i % q.per * q.nb)).take q.nb) / 2 ^ (8 * q.nb - q.n)

/-- the `r`-th collision chunk of leaf `i` -/
def chunk (i r : Nat) : Nat := leaf P q header i / 2 ^ (q.n - (r + 1) * q.c) % 2 ^ q.c

/-- length in bytes of a solution -/
def Params.solLen (q : Params) : Nat := 2 ^ q.k * (q.c + 1) / 8

/-- the indices packed in a solution: groups of `c + 1` bits, big-endian -/
def indices (soln : List (BitVec 8)) : List Nat := (List.range (2 ^ q.k)).map fun j => bitGroup soln (q.c + 1) j

/-- The Equihash conditions on a list of `2^k` indices. -/
structure IsSolution (ixs : List Nat) : Prop where
  length : ixs.length = 2 ^ q.k
  distinct : ixs.Nodup
  ordered : Ordered q.k ixs
  collide : ∀ r < q.k, ∀ w < 2 ^ (q.k - (r + 1)), xorOf (fun i => chunk P q header i r) (block ixs (r + 1) w) = 0
  zero : xorOf (fun i => chunk P q header i q.k) ixs = 0

end Verif.Spec.Equihash
