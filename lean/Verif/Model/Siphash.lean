import Verif.Go.Basic

/-! # Model of /repo/internal/crypto/siphash.go -/

set_option autoImplicit false

namespace Verif.Siphash

/-- `SipHasher` (siphash.go:3-8). -/
structure SipHasher where
  v0 : U64
  v1 : U64
  v2 : U64
  v3 : U64
  deriving DecidableEq, Repr

/-- `[4]uint64` of siphash keys. -/
structure Keys where
  k0 : U64
  k1 : U64
  k2 : U64
  k3 : U64
  deriving DecidableEq, Repr

/-- `NewSipHasher(keys[0], keys[1], keys[2], keys[3])` (siphash.go:10-19, call sites 78, 86, 102). -/
def newSipHasher (k : Keys) : SipHasher := ⟨k.k0, k.k1, k.k2, k.k3⟩

/-- `XorLanes` (siphash.go:21-23). -/
def xorLanes (h : SipHasher) : U64 := h.v0 ^^^ h.v1 ^^^ h.v2 ^^^ h.v3

/-- `SipRound` (siphash.go:25-43), one Go statement per `let`. -/
def sipRound (h : SipHasher) : SipHasher :=
  let h := { h with v0 := h.v0 + h.v1 }
  let h := { h with v1 := h.v1 <<< 13 ||| h.v1 >>> 51 }
  let h := { h with v1 := h.v1 ^^^ h.v0 }
  let h := { h with v0 := h.v0 <<< 32 ||| h.v0 >>> 32 }
  let h := { h with v2 := h.v2 + h.v3 }
  let h := { h with v3 := h.v3 <<< 16 ||| h.v3 >>> 48 }
  let h := { h with v3 := h.v3 ^^^ h.v2 }
  let h := { h with v0 := h.v0 + h.v3 }
  let h := { h with v3 := h.v3 <<< 21 ||| h.v3 >>> 43 }
  let h := { h with v3 := h.v3 ^^^ h.v0 }
  let h := { h with v2 := h.v2 + h.v1 }
  let h := { h with v1 := h.v1 <<< 17 ||| h.v1 >>> 47 }
  let h := { h with v1 := h.v1 ^^^ h.v2 }
  let h := { h with v2 := h.v2 <<< 32 ||| h.v2 >>> 32 }
  h

/-- `Hash24` (siphash.go:45-55). -/
def hash24 (h : SipHasher) (nonce : U64) : SipHasher :=
  let h := { h with v3 := h.v3 ^^^ nonce }
  let h := sipRound h
  let h := sipRound h
  let h := { h with v0 := h.v0 ^^^ nonce }
  let h := { h with v2 := h.v2 ^^^ 0xff }
  let h := sipRound h
  let h := sipRound h
  let h := sipRound h
  let h := sipRound h
  h

/-- `Hash48` (siphash.go:57-73). -/
def hash48 (h : SipHasher) (nonce : U64) : SipHasher :=
  let h := { h with v3 := h.v3 ^^^ nonce }
  let h := sipRound h
  let h := sipRound h
  let h := sipRound h
  let h := sipRound h
  let h := { h with v0 := h.v0 ^^^ nonce }
  let h := { h with v2 := h.v2 ^^^ 0xff }
  let h := sipRound h
  let h := sipRound h
  let h := sipRound h
  let h := sipRound h
  let h := sipRound h
  let h := sipRound h
  let h := sipRound h
  let h := sipRound h
  h

/-- `SipNode24` (siphash.go:77-83). -/
def sipNode24 (edgeMask : U64) (keys : Keys) (edge uorv : U64) : U64 :=
  let hasher := hash24 (newSipHasher keys) (2 * edge + uorv)
  let value := xorLanes hasher
  value &&& edgeMask

/-- `SipNode24Legacy` (siphash.go:85-93). -/
def sipNode24Legacy (edgeMask : U64) (keys : Keys) (edge uorv : U64) : U64 :=
  let hasher := hash24 (newSipHasher keys) (2 * edge + uorv)
  let value := xorLanes hasher
  let value := value <<< 17 ||| value >>> 47
  value &&& edgeMask

/-- body of the first loop of `SipBlock48` (siphash.go:108-109); state: hasher and `block` -/
def fillStep (edge0 : U64) (i : Nat) (p : SipHasher × List U64) : Go (SipHasher × List U64) := do
  let h := hash48 p.1 (edge0 + BitVec.ofNat 64 i)
  let block ← Go.upd p.2 i (xorLanes h)
  pure (h, block)

/-- body of the second loop of `SipBlock48` (siphash.go:114) -/
def lastStep (last : U64) (i : Nat) (block : List U64) : Go (List U64) := do
  let x ← Go.idx block i
  Go.upd block i (x ^^^ last)

/-- `SipBlock48` (siphash.go:97-118). `edgeBlockSize = 64`, `edgeBlockMask = 63`. -/
def sipBlock48 (keys : Keys) (edge : U64) : Go U64 := do
  let edgeBlockMask : U64 := 63
  let edge0 := edge &&& ~~~edgeBlockMask
  let p ← Go.forRange 0 64 (newSipHasher keys, List.replicate 64 (0 : U64)) (fillStep edge0)
  let last ← Go.idx p.2 63
  let block ← Go.forRange 0 63 p.2 (lastStep last)
  Go.idx block (edge &&& edgeBlockMask).toNat

end Verif.Siphash
