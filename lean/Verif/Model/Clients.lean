import Verif.Model.Disk
import Verif.Model.Hashimoto
import Verif.Model.Kawpow
import Verif.Model.Octopus

/-! # Model of `Compute` in /repo/{ethash,kawpow,firopow,octopus}/client.go

`GetCache` (dag.go:123-165) is the parameter `getCache`; it is modelled in `Verif.Model.Manager`, its contents are those of
`Dag.generate`. The error result "hash must be 32 bytes" is `none`. `runtime.KeepAlive` has no effect on values. -/

set_option autoImplicit false

namespace Verif.Clients

open Go Dag

/-- what `Compute` obtains before it hashes: the size of the dataset and the cache of the epoch of a height
(ethash/client.go:87-89, kawpow/client.go:61-63, firopow/client.go:61-63, octopus/client.go:59-61) -/
def prepare (fuel : Nat) (d : Config) (getCache : U64 → Go Loaded) (height : U64) : Go (U64 × Loaded) := do
  let epoch ← calcEpoch d height
  let size ← datasetSize fuel d epoch
  let cache ← getCache epoch
  pure (size, cache)

/-- ethash/client.go:82-96 -/
def ethash (P : Prims) (fuel : Nat) (d : Config) (getCache : U64 → Go Loaded) (hash : List Byte) (height nonce : U64) :
    Go (Option (List Byte × List Byte)) :=
  if hash.length ≠ 32 then pure none
  else do
    let (size, cache) ← prepare fuel d getCache height
    let r ← Ethash.hashimoto P hash nonce size (lookup512 P d.datasetParents cache.cache)
    pure (some r)

/-- kawpow/client.go:56-70 -/
def kawpow (P : Prims) (fuel : Nat) (d : Config) (getCache : U64 → Go Loaded) (hash : List Byte) (height nonce : U64) :
    Go (Option (List Byte × List Byte)) :=
  if hash.length ≠ 32 then pure none
  else do
    let (size, cache) ← prepare fuel d getCache height
    let r ← Progpow.kawpow hash height nonce size (lookup2048 P d.datasetParents cache.cache) cache.l1
    pure (some r)

/-- firopow/client.go:56-70 -/
def firopow (P : Prims) (fuel : Nat) (d : Config) (getCache : U64 → Go Loaded) (hash : List Byte) (height nonce : U64) :
    Go (Option (List Byte × List Byte)) :=
  if hash.length ≠ 32 then pure none
  else do
    let (size, cache) ← prepare fuel d getCache height
    let r ← Progpow.firopow hash height nonce size (lookup2048 P d.datasetParents cache.cache) cache.l1
    pure (some r)

/-- octopus/client.go:54-68 -/
def octopus (P : Prims) (fuel : Nat) (d : Config) (getCache : U64 → Go Loaded) (hash : List Byte) (height nonce : U64) :
    Go (Option (List Byte)) :=
  if hash.length ≠ 32 then pure none
  else do
    let (size, cache) ← prepare fuel d getCache height
    let r ← Octopus.octopus P fuel hash nonce size (lookup512 P d.datasetParents cache.cache)
    pure (some r)

end Verif.Clients
