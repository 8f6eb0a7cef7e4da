import Verif.Model.Clients
import Verif.Model.InMem.Octopus
import Verif.Model.InMem.Progpow

/-! # `Compute` of the DAG-based clients, in memory

The same code as in `Verif.Model.Clients`, with the slices where they are: /repo/{ethash,kawpow,firopow,octopus}/client.go. `GetCache` is a
parameter, which may use memory: it returns the slices `cache.Cache()` and `cache.L1()` (dag/cache.go). -/

set_option autoImplicit false

namespace Verif.Clients.InMem

open Go Dag

/-- the method value `GetCache` of a client -/
abbrev GetCache := U64 → Mem (Slice .word × Slice .word)

/-- ethash/client.go:87-89, kawpow/client.go:61-63, firopow/client.go:61-63, octopus/client.go:59-61 -/
def prepare (fuel : Nat) (d : Config) (getCache : GetCache) (height : U64) : Mem (U64 × Slice .word × Slice .word) := do
  let epoch ← Mem.lift (calcEpoch d height)
  let size ← Mem.lift (datasetSize fuel d epoch)
  let cache ← getCache epoch
  pure (size, cache)

/-- ethash/client.go:82-96 -/
def ethash (P : Prims) (fuel : Nat) (d : Config) (getCache : GetCache) (hash : Slice .byte) (height nonce : U64) :
    Mem (Option (Slice .byte × Slice .byte)) :=
  if hash.len ≠ 32 then pure none
  else do
    let (size, cache, _) ← prepare fuel d getCache height
    let r ← Ethash.InMem.hashimoto P hash nonce size (Dag.InMem.lookup512 P d.datasetParents cache)
    pure (some r)

/-- kawpow/client.go:56-70 -/
def kawpow (P : Prims) (fuel : Nat) (d : Config) (getCache : GetCache) (hash : Slice .byte) (height nonce : U64) :
    Mem (Option (Slice .byte × Slice .byte)) :=
  if hash.len ≠ 32 then pure none
  else do
    let (size, cache, l1) ← prepare fuel d getCache height
    let r ← Progpow.InMem.kawpow hash height nonce size (Dag.InMem.lookup2048 P d.datasetParents cache) l1
    pure (some r)

/-- firopow/client.go:56-70 -/
def firopow (P : Prims) (fuel : Nat) (d : Config) (getCache : GetCache) (hash : Slice .byte) (height nonce : U64) :
    Mem (Option (Slice .byte × Slice .byte)) :=
  if hash.len ≠ 32 then pure none
  else do
    let (size, cache, l1) ← prepare fuel d getCache height
    let r ← Progpow.InMem.firopow hash height nonce size (Dag.InMem.lookup2048 P d.datasetParents cache) l1
    pure (some r)

/-- octopus/client.go:54-68 -/
def octopus (P : Prims) (fuel : Nat) (d : Config) (getCache : GetCache) (hash : Slice .byte) (height nonce : U64) :
    Mem (Option (Slice .byte)) :=
  if hash.len ≠ 32 then pure none
  else do
    let (size, cache, _) ← prepare fuel d getCache height
    let r ← Octopus.InMem.octopus P fuel hash nonce size (Dag.InMem.lookup512 P d.datasetParents cache)
    pure (some r)

end Verif.Clients.InMem
