import Mathlib.Data.Nat.Find
import Mathlib.Data.Nat.GCD.Basic
import Verif.Spec.Ethash
import Verif.Spec.Siphash

/-! # Specification of Octopus (Conflux protocol specification, "Proof of work")

All arithmetic of the polynomial part is done in the natural numbers modulo the prime `p`. -/

set_option autoImplicit false

namespace Verif.Spec.Octopus

open Spec.Ethash

/-- the prime -/
def p : Nat := 1032193

/-- the largest divisor of `e` that is coprime to `p - 1` -/
def unitPart (e : Nat) : Nat := Nat.findGreatest (fun d => d ∣ e ∧ Nat.Coprime d (p - 1)) e

/-- the generator that a 64-bit number selects -/
def generator (num : Nat) : Nat := 11 ^ unitPart (num % (p - 2) + 1) % p

/-- `c` is the generator selected by the first of `h, h + 1, …` (modulo 2^64) for which the discriminant does not vanish -/
def IsC (a b h c : Nat) : Prop :=
  ∃ k, c = generator ((h + k) % 2 ^ 64) ∧ b * b % p ≠ 4 * a * c % p ∧
    ∀ j, j < k → b * b % p = 4 * a * generator ((h + j) % 2 ^ 64) % p

/-- the four 64-bit words of the hash -/
def word (hash : Bytes) (k : Nat) : BitVec 64 := BitVec.ofNat 64 (leValue ((hash.drop (8 * k)).take 8))

/-- the key -/
def key (hash : Bytes) : Sip.State := ⟨word hash 0, word hash 1, word hash 2, word hash 3⟩

/-- the coefficients of the polynomial of a warp (a block of 32 nonces): SipHash-2-4 of the nonce, followed by 32 more rounds
each of which yields one coefficient -/
def coeff (hash : Bytes) (warp : Nat) (k : Nat) : Nat :=
  (Sip.lanes (Sip.rounds (k / 32 + 1) (Sip.compress 2 4 (key hash) (BitVec.ofNat 64 (32 * warp + k % 32))))).toNat % 2 ^ 32 % p

/-- `∑ coeff k * x ^ k` -/
def polynomial (c : Nat → Nat) (x : Nat) : Nat := ((List.range 1024).map fun k => c k * x ^ k).sum % p

/-- the point of the `t`-th power -/
def point (a b c w t : Nat) : Nat := (a * w ^ (2 * t) + b * w ^ t + c) % p

/-- the 32 values that a nonce has to compute -/
def values (hash : Bytes) (a b c w nonce : Nat) : List Nat :=
  (List.range 32).map fun i => polynomial (coeff hash (nonce / 32)) (point a b c w (nonce % 32 + 32 * i))

/-- FNV of 64-bit words -/
def fnv64 (a b : BitVec 64) : BitVec 64 := (a * 0x01000193) ^^^ b

/-- the values folded to one word -/
def fold (vs : List Nat) : BitVec 64 := vs.foldl (fun r v => fnv64 r (BitVec.ofNat 64 v)) 0

/-- the mix after some accesses, for a dataset of `n` pages of four items given by `L` -/
def accessMix (n : Nat) (L : Nat → List (BitVec 32)) (vs : List Nat) (half : Bytes) : Nat → List (BitVec 32)
  | 0 => words half ++ words half ++ words half ++ words half
  | i + 1 =>
    let mix := accessMix n L vs half i
    let q := (fnv (leWord32 half 0 ^^^ BitVec.ofNat 32 i ^^^ BitVec.ofNat 32 (vs.getD i 0)) (mix.getD i 0)).toNat % n
    List.zipWith fnv mix (L (4 * q) ++ L (4 * q + 1) ++ L (4 * q + 2) ++ L (4 * q + 3))

/-- four words reduced to one -/
def reduce (mix : List (BitVec 32)) (k : Nat) : BitVec 32 :=
  fnv (fnv (fnv (mix.getD (4 * k) 0) (mix.getD (4 * k + 1) 0)) (mix.getD (4 * k + 2) 0)) (mix.getD (4 * k + 3) 0)

/-- the compressed mix -/
def cmix (mix : List (BitVec 32)) : List (BitVec 32) := (List.range 8).map fun i => fnv (reduce mix i) (reduce mix (8 + i))

/-- the digest for a dataset of `n` pages given by `L`, with the parameters `a b c w` -/
def digest (H512 H256 : Bytes → Bytes) (n : Nat) (L : Nat → List (BitVec 32)) (hash : Bytes) (nonce : Nat) (a b c w : Nat) : Bytes :=
  let vs := values hash a b c w nonce
  let half := H512 (hash ++ leEncode 8 (fold vs).toNat)
  H256 (half ++ bytes (cmix (accessMix n L vs half 32)))

end Verif.Spec.Octopus
