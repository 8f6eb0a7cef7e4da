import Verif.Go.Basic
import Verif.Model.Siphash

/-! # Model of /repo/cuckoo -/

set_option autoImplicit false

namespace Verif.Cuckoo

open Siphash (Keys)

/-- `CuckooVariant` (client.go:10-19). -/
inductive Variant where
  | cuckoo | cuckatoo | cuckaroo | cuckarood | cuckaroom | cuckarooz
  deriving DecidableEq, Repr

/-- The errors of errors.go:7-14, plus the two `fmt.Errorf` results of client.go:61 and client.go:79. -/
inductive Err where
  | tooBig | tooSmall | notMatching | branch | deadEnd | shortCycle | wrongLength | unsupported
  deriving DecidableEq, Repr

/-- `SipNodeFunc` (siphash.go:75); a Go function value may be nil. -/
abbrev SipNodeFunc := U64 → Keys → U64 → U64 → Go U64
/-- `SipBlockFunc` (siphash.go:95). -/
abbrev SipBlockFunc := Keys → U64 → Go U64

/-- `Client` (client.go:21-28). -/
structure Client where
  variant : Variant
  proofSize : Int
  edgeBits : Nat
  edgeMask : U64
  sipnode : Option SipNodeFunc
  sipblock : Option SipBlockFunc

/-- `newClient` (client.go:30-41) for a number of edge bits that is not negative; `newClientGo` below is the function itself. -/
def newClient (variant : Variant) (edgeBits : Nat) (proofSize : Int) (sipnode : Option SipNodeFunc)
    (sipblock : Option SipBlockFunc) : Client :=
  { variant, proofSize, edgeBits, edgeMask := ((1 : U64) <<< edgeBits) - 1, sipnode, sipblock }

/-- `NewCuckoo` (client.go:43-45). -/
def newCuckoo (edgeBits : Nat) (proofSize : Int) (sipnode : Option SipNodeFunc) (sipblock : Option SipBlockFunc) : Client :=
  newClient .cuckoo edgeBits proofSize sipnode sipblock

/-- `NewAeternity` (client.go:47-49). -/
def newAeternity : Client := newCuckoo 29 42 (some fun m k e s => pure (Siphash.sipNode24Legacy m k e s)) none

/-- `NewCuckaroo` (client.go:51-53). -/
def newCuckaroo (edgeBits : Nat) (proofSize : Int) (sipnode : Option SipNodeFunc) (sipblock : Option SipBlockFunc) : Client :=
  newClient .cuckaroo edgeBits proofSize sipnode sipblock

/-- `NewCortex` (client.go:55-57). -/
def newCortex : Client := newCuckaroo 30 42 none (some Siphash.sipBlock48)

/-- `newClient` (client.go:30-41): a negative shift count panics (client.go:35). -/
def newClientGo (variant : Variant) (edgeBits proofSize : Int) (sipnode : Option SipNodeFunc) (sipblock : Option SipBlockFunc) : Go Client :=
  if edgeBits < 0 then Go.panic .negShift
  else pure (newClient variant edgeBits.toNat proofSize sipnode sipblock)

/-- `NewCuckoo` (client.go:43-45). -/
def newCuckooGo (edgeBits proofSize : Int) (sipnode : Option SipNodeFunc) (sipblock : Option SipBlockFunc) : Go Client :=
  newClientGo .cuckoo edgeBits proofSize sipnode sipblock

/-- `NewCuckaroo` (client.go:51-53). -/
def newCuckarooGo (edgeBits proofSize : Int) (sipnode : Option SipNodeFunc) (sipblock : Option SipBlockFunc) : Go Client :=
  newClientGo .cuckaroo edgeBits proofSize sipnode sipblock

/-- calling a nil function value is a nil dereference panic -/
def callNode (f : Option SipNodeFunc) (m : U64) (k : Keys) (e s : U64) : Go U64 :=
  match f with
  | some f => f m k e s
  | none => Go.panic .nilDeref

/-- calling a nil function value is a nil dereference panic -/
def callBlock (f : Option SipBlockFunc) (k : Keys) (e : U64) : Go U64 :=
  match f with
  | some f => f k e
  | none => Go.panic .nilDeref

/-- State of the endpoint loops: `uvs`, `xor0`, `xor1` (cuckoo.go:6-7, cuckaroo.go:6-7). -/
structure Ends where
  uvs : List U64
  xor0 : U64
  xor1 : U64

/-- The range and order checks at the head of the loop body (cuckoo.go:10-14, cuckaroo.go:10-14).
`n` is a Go `int`, so `n < 0` is a comparison of signed integers. -/
def checkEdge (c : Client) (edges : List U64) (n : Nat) : Go (Option Err) := do
  let e ← Go.idx edges n
  if e > c.edgeMask then
    pure (some .tooBig)
  else if (n : Int) < 0 then
    let p ← Go.idx edges (n - 1)
    if e ≤ p then pure (some .tooSmall) else pure none
  else pure none

/-- Loop body of `cuckoo` (cuckoo.go:9-21). -/
def cuckooBody (c : Client) (keys : Keys) (edges : List U64) (n : Nat) (s : Ends) : Go (Go.Step Ends Err) := do
  match ← checkEdge c edges n with
  | some err => pure (.ret err)
  | none =>
    let e ← Go.idx edges n
    let u ← callNode c.sipnode c.edgeMask keys e 0
    let uvs ← Go.upd s.uvs (2 * n) u
    let xor0 := s.xor0 ^^^ (← Go.idx uvs (2 * n))
    let v ← callNode c.sipnode c.edgeMask keys e 1
    let uvs ← Go.upd uvs (2 * n + 1) v
    let xor1 := s.xor1 ^^^ (← Go.idx uvs (2 * n + 1))
    pure (.cont { uvs, xor0, xor1 })

/-- Loop body of `cuckaroo` (cuckaroo.go:9-21). -/
def cuckarooBody (c : Client) (keys : Keys) (edges : List U64) (n : Nat) (s : Ends) : Go (Go.Step Ends Err) := do
  match ← checkEdge c edges n with
  | some err => pure (.ret err)
  | none =>
    let e ← Go.idx edges n
    let edge ← callBlock c.sipblock keys e
    let uvs ← Go.upd s.uvs (2 * n) (edge &&& c.edgeMask)
    let xor0 := s.xor0 ^^^ (← Go.idx uvs (2 * n))
    let uvs ← Go.upd uvs (2 * n + 1) ((edge >>> 32) &&& c.edgeMask)
    let xor1 := s.xor1 ^^^ (← Go.idx uvs (2 * n + 1))
    pure (.cont { uvs, xor0, xor1 })

/-- One iteration of the inner loop (cuckoo.go:32-45 = cuckaroo.go:32-45); state `(k, j)`;
`none` is `return ErrPowBranch`, `some j` is the `break` with the current `j`. -/
def innerStep (uvs : List U64) (proofSize i : Nat) : Nat × Nat → Go (Go.Step (Nat × Nat) (Option Nat)) := fun (k, j) => do
  if 2 * proofSize = 0 then Go.panic .divZero
  else
    let k := (k + 2) % (2 * proofSize)
    if k = i then pure (.ret (some j))
    else
      let a ← Go.idx uvs k
      let b ← Go.idx uvs i
      if a = b then
        if j ≠ i then pure (.ret none) else pure (.cont (k, k))
      else pure (.cont (k, j))

/-- One iteration of the outer loop (cuckoo.go:28-57 = cuckaroo.go:28-57); state `(i, n)`;
the result of the loop is the final `n`, or an error. -/
def outerStep (uvs : List U64) (proofSize fuel : Nat) : Nat × Nat → Go (Go.Step (Nat × Nat) (Except Err Nat)) := fun (i, n) => do
  match ← Go.forever fuel (i, i) (innerStep uvs proofSize i) with
  | none => pure (.ret (.error .branch))
  | some j =>
    if j = i then pure (.ret (.error .deadEnd))
    else
      let i := j ^^^ 1
      let n := n + 1
      if i = 0 then pure (.ret (.ok n)) else pure (.cont (i, n))

/-- The part common to `cuckoo` and `cuckaroo` after the endpoint loop (cuckoo.go:23-63 = cuckaroo.go:23-63;
the two Go texts are identical). `fuel` bounds both unbounded `for` loops. -/
def walk (c : Client) (fuel : Nat) (s : Ends) : Go (Bool × Option Err) := do
  if s.xor0 ||| s.xor1 ≠ 0 then pure (false, some .notMatching)
  else
    match ← Go.forever fuel (0, 0) (outerStep s.uvs c.proofSize.toNat fuel) with
    | .error err => pure (false, some err)
    | .ok n => if (n : Int) ≠ c.proofSize then pure (false, some .shortCycle) else pure (true, none)

/-- `cuckoo` (cuckoo.go:5-64). `proofSize` is non-negative here: `Verify` has checked `len(sols) = proofSize`. -/
def cuckoo (c : Client) (fuel : Nat) (keys : Keys) (edges : List U64) : Go (Bool × Option Err) := do
  let L := c.proofSize.toNat
  match ← Go.forRangeE 0 L { uvs := List.replicate (2 * L) 0, xor0 := 0, xor1 := 0 } (cuckooBody c keys edges) with
  | .ret err => pure (false, some err)
  | .cont s => walk c fuel s

/-- `cuckaroo` (cuckaroo.go:5-64). -/
def cuckaroo (c : Client) (fuel : Nat) (keys : Keys) (edges : List U64) : Go (Bool × Option Err) := do
  let L := c.proofSize.toNat
  match ← Go.forRangeE 0 L { uvs := List.replicate (2 * L) 0, xor0 := 0, xor1 := 0 } (cuckarooBody c keys edges) with
  | .ret err => pure (false, some err)
  | .cont s => walk c fuel s

/-- siphash keys of a header (client.go:65-71); `crypto.Blake2b256` (blake.go) is the parameter `P.blake2b256`. -/
def headerKeys (P : Prims) (header : List Byte) : Go Keys := do
  let hash := P.blake2b256 header
  let k0 ← Go.getU64 .little (← Go.slc hash 0 8)
  let k1 ← Go.getU64 .little (← Go.slc hash 8 16)
  let k2 ← Go.getU64 .little (← Go.slc hash 16 24)
  let k3 ← Go.getU64 .little (← Go.slc hash 24 32)
  pure ⟨k0, k1, k2, k3⟩

/-- `Verify` (client.go:59-81). -/
def verify (P : Prims) (c : Client) (fuel : Nat) (header : List Byte) (sols : List U64) : Go (Bool × Option Err) := do
  if (sols.length : Int) ≠ c.proofSize then pure (false, some .wrongLength)
  else
    let keys ← headerKeys P header
    match c.variant with
    | .cuckoo => cuckoo c fuel keys sols
    | .cuckaroo => cuckaroo c fuel keys sols
    | _ => pure (false, some .unsupported)

end Verif.Cuckoo
