import Verif.Model.Dag
import Verif.Model.Tables.EthashCacheSizes
import Verif.Model.Tables.EthashDatasetSizes
import Verif.Model.Tables.FiropowDatasetSizes
import Verif.Model.Tables.OctopusCacheSizes
import Verif.Model.Tables.OctopusDatasetSizes

/-! # The configurations of the DAG clients: /repo/{ethash,kawpow,firopow,octopus}/client.go

`common.DefaultDir(".powcache")` depends on the user's home directory; it is the parameter `dir`. -/

set_option autoImplicit false

namespace Verif.Dag

open Go

/-- a table as a `[]uint64` -/
def table64 (t : List Nat) : List U64 := t.map (BitVec.ofNat 64)

/-- /repo/ethash/client.go:25-50 -/
def ethereum (dir : String) : Config where
  name := "ETH"
  revision := 23
  storageDir := dir
  datasetInitBytes := 1 <<< 30
  datasetGrowthBytes := 1 <<< 23
  cacheInitBytes := 1 <<< 24
  cacheGrowthBytes := 1 <<< 17
  cacheSizes := some (newLookupTable (table64 Tables.ethashCacheSizes) 2048)
  datasetSizes := some (newLookupTable (table64 Tables.ethashDatasetSizes) 2048)
  mixBytes := 128
  datasetParents := 256
  epochLength := 30000
  seedEpochLength := 30000
  cacheRounds := 3
  cachesCount := 3
  cachesLockMmap := false
  l1Enabled := false

/-- /repo/ethash/client.go:54-78; `MixBytes` is not set there -/
def ethereumClassic (dir : String) : Config where
  name := "ETC"
  revision := 23
  storageDir := dir
  datasetInitBytes := 1 <<< 30
  datasetGrowthBytes := 1 <<< 23
  cacheInitBytes := 1 <<< 24
  cacheGrowthBytes := 1 <<< 17
  cacheSizes := some (newLookupTable (table64 Tables.ethashCacheSizes) 2048)
  datasetSizes := some (newLookupTable (table64 Tables.ethashDatasetSizes) 2048)
  datasetParents := 256
  epochLength := 60000
  seedEpochLength := 30000
  cacheRounds := 3
  cachesCount := 3
  cachesLockMmap := false
  l1Enabled := false

/-- /repo/kawpow/client.go:25-54 -/
def ravencoin (dir : String) : Config where
  name := "RVN"
  revision := 23
  storageDir := dir
  datasetInitBytes := 1 <<< 30
  datasetGrowthBytes := 1 <<< 23
  cacheInitBytes := 1 <<< 24
  cacheGrowthBytes := 1 <<< 17
  cacheSizes := some (newLookupTable (table64 Tables.ethashCacheSizes) 2048)
  datasetSizes := some (newLookupTable (table64 Tables.ethashDatasetSizes) 2048)
  mixBytes := 128
  datasetParents := 512
  epochLength := 7500
  seedEpochLength := 7500
  cacheRounds := 3
  cachesCount := 3
  cachesLockMmap := false
  l1Enabled := true
  l1CacheSize := 4096 * 4
  l1CacheNumItems := 4096

/-- /repo/firopow/client.go:25-54 -/
def firo (dir : String) : Config where
  name := "FIRO"
  revision := 23
  storageDir := dir
  datasetInitBytes := (1 <<< 30) + (1 <<< 29)
  datasetGrowthBytes := 1 <<< 23
  cacheInitBytes := 1 <<< 24
  cacheGrowthBytes := 1 <<< 17
  cacheSizes := some (newLookupTable (table64 Tables.ethashCacheSizes) 2048)
  datasetSizes := some (newLookupTable (table64 Tables.firopowDatasetSizes) 2048)
  mixBytes := 128
  datasetParents := 512
  epochLength := 1300
  seedEpochLength := 1300
  cacheRounds := 3
  cachesCount := 3
  cachesLockMmap := false
  l1Enabled := true
  l1CacheSize := 4096 * 4
  l1CacheNumItems := 4096

/-- /repo/octopus/client.go:25-52 -/
def conflux (dir : String) : Config where
  name := "CFX"
  revision := 1
  storageDir := dir
  datasetInitBytes := 2 * (1 <<< 31)
  datasetGrowthBytes := 1 <<< 24
  cacheInitBytes := 2 * (1 <<< 23)
  cacheGrowthBytes := 1 <<< 16
  cacheSizes := some (newLookupTable (table64 Tables.octopusCacheSizes) 2048)
  datasetSizes := some (newLookupTable (table64 Tables.octopusDatasetSizes) 2048)
  mixBytes := 256
  datasetParents := 256
  epochLength := 1 <<< 19
  seedEpochLength := 1 <<< 19
  cacheRounds := 3
  cachesCount := 3
  cachesLockMmap := false
  l1Enabled := false

end Verif.Dag
