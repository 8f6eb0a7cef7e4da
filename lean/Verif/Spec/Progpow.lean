import Verif.Spec.Bytes
import Verif.Spec.Keccak
import Verif.Spec.Ethash

/-! # ProgPoW as published (EIP-1057), and its KAWPOW and FiroPoW variants

The random program of a period is a list of instructions. A lane is a list of registers; every lane runs the same program on its own
registers, and the lanes only meet in the choice of the dataset item and in the final reduction. -/

set_option autoImplicit false

namespace Verif.Spec.Progpow

open Verif.Spec

abbrev W := BitVec 32

/-- FNV-1a -/
def fnv1a (h d : W) : W := (h ^^^ d) * 0x01000193

def fnvBasis : W := 0x811c9dc5

/-- Marsaglia's KISS99 generator: two multiply-with-carry generators, a shift-register generator and a linear congruential one -/
structure Kiss where
  z : W
  w : W
  jsr : W
  jcong : W

namespace Kiss

/-- multiply with carry on 16-bit halves -/
def mwc (m : Nat) (x : W) : W := BitVec.ofNat 32 (m * (x.toNat % 2 ^ 16) + x.toNat / 2 ^ 16)

/-- the shift-register generator SHR3 -/
def shr3 (x : W) : W :=
  let x := x ^^^ (x <<< 17)
  let x := x ^^^ (x >>> 13)
  x ^^^ (x <<< 5)

def step (k : Kiss) : Kiss := ⟨mwc 36969 k.z, mwc 18000 k.w, shr3 k.jsr, BitVec.ofNat 32 (69069 * k.jcong.toNat + 1234567)⟩

/-- the output of a state -/
def out (k : Kiss) : W := ((BitVec.ofNat 32 (k.z.toNat * 2 ^ 16 + k.w.toNat)) ^^^ k.jcong) + k.jsr

end Kiss

/-- the `n`-th output after a state, from 0 -/
def draw (k : Kiss) : Nat → W
  | 0 => k.step.out
  | n + 1 => draw k.step n

/-- number of leading zero bits: the number of `i < 32` such that no bit at or above position `i` is set -/
def clz (a : W) : Nat := (List.range 32).countP fun i => a.toNat < 2 ^ i

/-- number of bits set -/
def popcount (a : W) : Nat := (List.range 32).countP fun i => a.toNat.testBit i

/-- random math: the operation is the selector modulo 11 -/
def math (a b : W) (sel : Nat) : W :=
  [a + b, a * b, BitVec.ofNat 32 (a.toNat * b.toNat / 2 ^ 32), BitVec.ofNat 32 (min a.toNat b.toNat), a.rotateLeft (b.toNat % 32),
    a.rotateRight (b.toNat % 32), a &&& b, a ||| b, a ^^^ b, BitVec.ofNat 32 (clz a + clz b), BitVec.ofNat 32 (popcount a + popcount b)].getD
    (sel % 11) 0

/-- merge new data into a register -/
def merge (a b : W) (sel : Nat) : W :=
  let x := sel / 2 ^ 16 % 31 + 1
  [a * 33 + b, (a ^^^ b) * 33, a.rotateLeft x ^^^ b, a.rotateRight x ^^^ b].getD (sel % 4) 0

/-- the parameters -/
structure Params where
  lanes : Nat
  regs : Nat
  cacheWords : Nat
  rounds : Nat
  cntCache : Nat
  cntMath : Nat

/-- one instruction of the program -/
inductive Instr where
  /-- read the L1 cache at register `src` and merge into `dst` -/
  | cache (src dst sel : Nat)
  /-- combine registers `src1` and `src2` and merge into `dst` -/
  | math (src1 src2 sel1 dst sel2 : Nat)

/-- exchange positions `i` and `j` -/
def swap (l : List Nat) (i j : Nat) : List Nat := (l.set i (l.getD j 0)).set j (l.getD i 0)

/-- Fisher-Yates shuffle of the positions below `i`, for two sequences in turn: first `dst`, then `src` -/
def shuffle : Nat → Kiss → List Nat × List Nat → Kiss × List Nat × List Nat
  | 0, k, s => (k, s)
  | 1, k, s => (k, s)
  | i + 2, k, (src, dst) =>
    let k1 := k.step
    let k2 := k1.step
    shuffle (i + 1) k2 (swap src (i + 1) (k2.out.toNat % (i + 2)), swap dst (i + 1) (k1.out.toNat % (i + 2)))

/-- the generator seeded with the number of the period -/
def seedKiss (prog : Nat) : Kiss :=
  let lo : W := BitVec.ofNat 32 prog
  let hi : W := BitVec.ofNat 32 (prog / 2 ^ 32)
  let z := fnv1a fnvBasis lo
  let w := fnv1a z hi
  let jsr := fnv1a w lo
  ⟨z, w, jsr, fnv1a jsr hi⟩

/-- the state while the program is generated: the generator and the numbers of sources and destinations taken so far -/
structure Gen where
  kiss : Kiss
  srcs : Nat
  dsts : Nat

section
variable (p : Params) (src dst : List Nat)

/-- the next source -/
def nthSrc (i : Nat) : Nat := src.getD (i % p.regs) 0

/-- the next destination -/
def nthDst (i : Nat) : Nat := dst.getD (i % p.regs) 0

/-- a cache instruction -/
def genCache (g : Gen) : Instr × Gen :=
  (.cache (nthSrc p src g.srcs) (nthDst p dst g.dsts) g.kiss.step.out.toNat, ⟨g.kiss.step, g.srcs + 1, g.dsts + 1⟩)

/-- a math instruction: two different sources chosen by one number -/
def genMath (g : Gen) : Instr × Gen :=
  let k1 := g.kiss.step
  let k2 := k1.step
  let k3 := k2.step
  let n := k1.out.toNat % (p.regs * (p.regs - 1))
  let s1 := n % p.regs
  let s2 := n / p.regs
  (.math s1 (if s1 ≤ s2 then s2 + 1 else s2) k2.out.toNat (nthDst p dst g.dsts) k3.out.toNat, ⟨k3, g.srcs, g.dsts + 1⟩)

/-- the instructions of step `i` -/
def genStep (i : Nat) (g : Gen) : List Instr × Gen :=
  let (a, g) := if i < p.cntCache then let (x, g) := genCache p src dst g; ([x], g) else ([], g)
  let (b, g) := if i < p.cntMath then let (x, g) := genMath p dst g; ([x], g) else ([], g)
  (a ++ b, g)

/-- the instructions of steps `i`, …, `i + n - 1` -/
def genSteps : Nat → Nat → Gen → List Instr × Gen
  | 0, _, g => ([], g)
  | n + 1, i, g =>
    let (a, g) := genStep p src dst i g
    let (b, g) := genSteps n (i + 1) g
    (a ++ b, g)

/-- destination and selector of dataset words `i`, …, `i + n - 1`; word 0 always goes to register 0 -/
def genLoads : Nat → Nat → Gen → List (Nat × Nat)
  | 0, _, _ => []
  | n + 1, 0, g => (0, g.kiss.step.out.toNat) :: genLoads n 1 ⟨g.kiss.step, g.srcs, g.dsts⟩
  | n + 1, i + 1, g => (nthDst p dst g.dsts, g.kiss.step.out.toNat) :: genLoads n (i + 2) ⟨g.kiss.step, g.srcs, g.dsts + 1⟩
end

/-- the program of a period: its instructions and the destinations of the `words` dataset words -/
def program (p : Params) (prog words : Nat) : List Instr × List (Nat × Nat) :=
  let (k, src, dst) := shuffle p.regs (seedKiss prog) (List.range p.regs, List.range p.regs)
  let (is, g) := genSteps p src dst (max p.cntCache p.cntMath) 0 ⟨k, 0, 0⟩
  (is, genLoads p dst words 0 g)

/-- merge into one register of a lane -/
def mergeReg (lane : List W) (dst : Nat) (data : W) (sel : Nat) : List W := lane.set dst (merge (lane.getD dst 0) data sel)

/-- one instruction on one lane -/
def exec (p : Params) (l1 : Nat → W) (lane : List W) : Instr → List W
  | .cache src dst sel => mergeReg lane dst (l1 ((lane.getD src 0).toNat % p.cacheWords)) sel
  | .math src1 src2 sel1 dst sel2 => mergeReg lane dst (math (lane.getD src1 0) (lane.getD src2 0) sel1) sel2

/-- the dataset words of a lane are merged one after the other -/
def load (lane : List W) : List (Nat × Nat) → List W → List W
  | (dst, sel) :: ds, w :: ws => load (mergeReg lane dst w sel) ds ws
  | _, _ => lane

/-- one round on all lanes: item `mix[r mod lanes][0] mod items` is read; lane `l` gets part `(l xor r) mod lanes` of it -/
def round (p : Params) (prog words items : Nat) (dag : Nat → List W) (l1 : Nat → W) (r : Nat) (mix : List (List W)) : List (List W) :=
  let item := dag (((mix.getD (r % p.lanes) []).getD 0 0).toNat % items)
  let (is, ds) := program p prog words
  (List.range p.lanes).map fun l =>
    load (is.foldl (exec p l1) (mix.getD l [])) ds ((item.drop ((l ^^^ r) % p.lanes * words)).take words)

/-- the first `n` rounds -/
def roundsUpTo (p : Params) (prog words items : Nat) (dag : Nat → List W) (l1 : Nat → W) (mix : List (List W)) : Nat → List (List W)
  | 0 => mix
  | n + 1 => round p prog words items dag l1 n (roundsUpTo p prog words items dag l1 mix n)

/-- `fill_mix`: the registers of a lane are consecutive outputs of a generator seeded with the seed and the lane number -/
def fillMix (p : Params) (seed : Nat) : List (List W) :=
  let z := fnv1a fnvBasis (BitVec.ofNat 32 seed)
  let w := fnv1a z (BitVec.ofNat 32 (seed / 2 ^ 32))
  (List.range p.lanes).map fun l =>
    let jsr := fnv1a w (BitVec.ofNat 32 l)
    (List.range p.regs).map (draw ⟨z, w, jsr, fnv1a jsr (BitVec.ofNat 32 l)⟩)

/-- the mix hash: each lane is reduced to a word by FNV-1a; word `i` of the result reduces the lanes congruent to `i` modulo 8 -/
def digest (p : Params) (mix : List (List W)) : List W :=
  let lane := mix.map fun regs => regs.foldl fnv1a fnvBasis
  (List.range 8).map fun i => ((List.range p.lanes).filter fun l => l % 8 = i).foldl (fun h l => fnv1a h (lane.getD l 0)) fnvBasis

/-- the words of the mix hash for a period, a 64-bit seed and a dataset of `items` items of `p.lanes * words` words -/
def mixHash (p : Params) (prog words items : Nat) (dag : Nat → List W) (l1 : Nat → W) (seed : Nat) : List W :=
  digest p (roundsUpTo p prog words items dag l1 (fillMix p seed) p.rounds)

/-- the published parameters of ProgPoW 0.9.4, KAWPOW and FiroPoW -/
def standard : Params := { lanes := 16, regs := 32, cacheWords := 4096, rounds := 64, cntCache := 11, cntMath := 18 }

/-- the absorbed state: hash words, nonce (low word first), and fifteen words of padding -/
def absorbSeed (hash : List (BitVec 8)) (nonce : Nat) (pad : List W) : List W :=
  (List.range 8).map (leWord32 hash) ++ [BitVec.ofNat 32 nonce, BitVec.ofNat 32 (nonce / 2 ^ 32)] ++ pad

/-- the state absorbed at the end: eight words of the seed state, the mix hash, and nine words of padding -/
def absorbFinal (seedState mix : List W) (pad : List W) : List W := seedState.take 8 ++ mix ++ pad

/-- a variant: the lengths of its period and its paddings -/
structure Variant where
  period : Nat
  pad1 : List W
  pad2 : List W

def kawpow : Variant where
  period := 3
  pad1 := "rAVENCOINKAWPOW".toList.map fun c => BitVec.ofNat 32 c.toNat
  pad2 := "rAVENCOIN".toList.map fun c => BitVec.ofNat 32 c.toNat

def firopow : Variant where
  period := 1
  pad1 := [1, 0, 0, 0, 0, 0, 0, 0, 0x80008081, 0, 0, 0, 0, 0, 0]
  pad2 := [0, 1, 0, 0, 0, 0, 0, 0, 0x80008081]

def progpow094 : Variant where
  period := 10
  pad1 := List.replicate 15 0
  pad2 := List.replicate 9 0

/-- the whole function: mix hash and final digest -/
def full (v : Variant) (hash : List (BitVec 8)) (height nonce items : Nat) (dag : Nat → List W) (l1 : Nat → W) :
    List (BitVec 8) × List (BitVec 8) :=
  let s := Keccak.f800 (absorbSeed hash nonce v.pad1)
  let seed := (s.getD 0 0).toNat + 2 ^ 32 * (s.getD 1 0).toNat
  let mix := mixHash standard (height / v.period) 4 items dag l1 seed
  (Ethash.bytes mix, Ethash.bytes ((Keccak.f800 (absorbFinal s mix v.pad2)).take 8))

end Verif.Spec.Progpow
