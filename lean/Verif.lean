import Verif.Go.Basic
import Verif.Go.Bits
import Verif.Go.Blocks
import Verif.Go.Bytes
import Verif.Go.Fail
import Verif.Go.Flag
import Verif.Go.Float64
import Verif.Go.Heap
import Verif.Go.Lemmas
import Verif.Go.Prelude
import Verif.Go.Update
import Verif.Model.Autolykos
import Verif.Model.Beam
import Verif.Model.Bitutil
import Verif.Model.CShake
import Verif.Model.Clients
import Verif.Model.CommandLine
import Verif.Model.Configs
import Verif.Model.Convutil
import Verif.Model.Cuckoo
import Verif.Model.Dag
import Verif.Model.Disk
import Verif.Model.Eaglesong
import Verif.Model.EaglesongConst
import Verif.Model.EaglesongGen
import Verif.Model.Equihash
import Verif.Model.Files
import Verif.Model.Finalizer
import Verif.Model.GenLookup
import Verif.Model.Generate
import Verif.Model.Handles
import Verif.Model.Hasher
import Verif.Model.Hashimoto
import Verif.Model.Heavy
import Verif.Model.HeavyFloat
import Verif.Model.HostOrder
import Verif.Model.InMem.Autolykos
import Verif.Model.InMem.Beam
import Verif.Model.InMem.Clients
import Verif.Model.InMem.Equihash
import Verif.Model.InMem.Ethash
import Verif.Model.InMem.Generate
import Verif.Model.InMem.Octopus
import Verif.Model.InMem.Process
import Verif.Model.InMem.Progpow
import Verif.Model.InMem.Small
import Verif.Model.IntWidth
import Verif.Model.Kawpow
import Verif.Model.Keccak
import Verif.Model.Manager
import Verif.Model.Mutex
import Verif.Model.Octopus
import Verif.Model.Pairing
import Verif.Model.Paths
import Verif.Model.Power
import Verif.Model.Progpow
import Verif.Model.ProgpowInt
import Verif.Model.Race
import Verif.Model.Siphash
import Verif.Model.Tables.EthashCacheSizes
import Verif.Model.Tables.EthashDatasetSizes
import Verif.Model.Tables.FiropowDatasetSizes
import Verif.Model.Tables.OctopusCacheSizes
import Verif.Model.Tables.OctopusDatasetSizes
import Verif.Proof.Autolykos
import Verif.Proof.AutolykosIndex
import Verif.Proof.Beam
import Verif.Proof.BeamFacts
import Verif.Proof.BeamVerify
import Verif.Proof.Bitutil
import Verif.Proof.CShake
import Verif.Proof.CommandLine
import Verif.Proof.Convutil
import Verif.Proof.Crash
import Verif.Proof.CuckooErrors
import Verif.Proof.CuckooVerify
import Verif.Proof.CuckooWalk
import Verif.Proof.CycleFacts
import Verif.Proof.CycleIff
import Verif.Proof.Dag
import Verif.Proof.DagParams
import Verif.Proof.Disk
import Verif.Proof.Eaglesong
import Verif.Proof.EaglesongBij
import Verif.Proof.EaglesongDigest
import Verif.Proof.EaglesongGen
import Verif.Proof.EaglesongPad
import Verif.Proof.EaglesongParams
import Verif.Proof.EquihashFacts
import Verif.Proof.EquihashLeaf
import Verif.Proof.EquihashLong
import Verif.Proof.EquihashPlain
import Verif.Proof.EquihashTotal
import Verif.Proof.EquihashVerify
import Verif.Proof.Expand
import Verif.Proof.Faults
import Verif.Proof.Files
import Verif.Proof.FilesProg
import Verif.Proof.FilesRun
import Verif.Proof.FilesSeq
import Verif.Proof.FilesSeqAll
import Verif.Proof.FilesSeqProg
import Verif.Proof.Float64
import Verif.Proof.GenLookup
import Verif.Proof.Generate
import Verif.Proof.Gf2
import Verif.Proof.Handles
import Verif.Proof.Hasher
import Verif.Proof.HasherUse
import Verif.Proof.Hashimoto
import Verif.Proof.Heap
import Verif.Proof.Heavy
import Verif.Proof.HeavyDigest
import Verif.Proof.HeavyEval
import Verif.Proof.HeavyFloat
import Verif.Proof.HeavyFused
import Verif.Proof.HeavyInverse
import Verif.Proof.HeavyPad
import Verif.Proof.HeavyPure
import Verif.Proof.HeavyRank
import Verif.Proof.HeavyRefuse
import Verif.Proof.HeavyRegular
import Verif.Proof.HeavySeparate
import Verif.Proof.HostOrder
import Verif.Proof.InMem.Autolykos
import Verif.Proof.InMem.Beam
import Verif.Proof.InMem.Clients
import Verif.Proof.InMem.Equihash
import Verif.Proof.InMem.EquihashWide
import Verif.Proof.InMem.Ethash
import Verif.Proof.InMem.Generate
import Verif.Proof.InMem.IsolationDag
import Verif.Proof.InMem.IsolationPair
import Verif.Proof.InMem.IsolationSmall
import Verif.Proof.InMem.Octopus
import Verif.Proof.InMem.Process
import Verif.Proof.InMem.Progpow
import Verif.Proof.InMem.Quiet
import Verif.Proof.InMem.Small
import Verif.Proof.IntWidth
import Verif.Proof.Isolation
import Verif.Proof.Kawpow
import Verif.Proof.Keccak
import Verif.Proof.KeccakBij
import Verif.Proof.KeccakFBij
import Verif.Proof.Kiss
import Verif.Proof.Large
import Verif.Proof.LastItem
import Verif.Proof.LowBits
import Verif.Proof.Lru
import Verif.Proof.Manager
import Verif.Proof.Mutex
import Verif.Proof.Octopus
import Verif.Proof.OctopusMath
import Verif.Proof.OctopusPoints
import Verif.Proof.Orbit
import Verif.Proof.Packing
import Verif.Proof.Pairing
import Verif.Proof.Paths
import Verif.Proof.Pratt
import Verif.Proof.Progpow
import Verif.Proof.ProgpowHash
import Verif.Proof.ProgpowItem
import Verif.Proof.ProgpowMath
import Verif.Proof.ProgpowParams
import Verif.Proof.ProgpowSeq
import Verif.Proof.Race
import Verif.Proof.ShakeStates
import Verif.Proof.Sieve
import Verif.Proof.Siphash
import Verif.Proof.SpecBytes
import Verif.Proof.Tables
import Verif.Proof.Wagner
import Verif.Proof.Work
import Verif.Proof.WorkHashes
import Verif.Proof.Xoshiro
import Verif.Props.Autolykos
import Verif.Props.AutolykosIndex
import Verif.Props.AutolykosParams
import Verif.Props.Beam
import Verif.Props.Binding
import Verif.Props.CShake
import Verif.Props.Clients
import Verif.Props.CommandLine
import Verif.Props.Cuckoo
import Verif.Props.CuckooErrors
import Verif.Props.Dag
import Verif.Props.DagDisk
import Verif.Props.DagParams
import Verif.Props.Disk
import Verif.Props.Eaglesong
import Verif.Props.EaglesongGen
import Verif.Props.EaglesongParams
import Verif.Props.Equihash
import Verif.Props.EquihashParams
import Verif.Props.EquihashTwist
import Verif.Props.Files
import Verif.Props.FilesSeq
import Verif.Props.Finalizer
import Verif.Props.GenLookup
import Verif.Props.Generate
import Verif.Props.Growth
import Verif.Props.Handles
import Verif.Props.Hasher
import Verif.Props.Hashimoto
import Verif.Props.Heavy
import Verif.Props.HeavyCycle
import Verif.Props.HeavyFloat
import Verif.Props.HeavyMatrix
import Verif.Props.HostOrder
import Verif.Props.IntWidth
import Verif.Props.Isolation
import Verif.Props.Keccak
import Verif.Props.Kiss
import Verif.Props.Large
import Verif.Props.LastItem
import Verif.Props.LowBits
import Verif.Props.Manager
import Verif.Props.Memory
import Verif.Props.MemoryCache
import Verif.Props.Mutex
import Verif.Props.Octopus
import Verif.Props.OctopusPoints
import Verif.Props.Paths
import Verif.Props.Power
import Verif.Props.PowerSystem
import Verif.Props.Pregen
import Verif.Props.Progpow
import Verif.Props.ProgpowItem
import Verif.Props.ProgpowParams
import Verif.Props.Race
import Verif.Props.Seed
import Verif.Props.System
import Verif.Props.Util
import Verif.Props.VerifyErrors
import Verif.Props.Work
import Verif.Spec.Autolykos
import Verif.Spec.Beam
import Verif.Spec.Bytes
import Verif.Spec.CShake
import Verif.Spec.Chains
import Verif.Spec.CommandLine
import Verif.Spec.Compute
import Verif.Spec.CuckooWalk
import Verif.Spec.Cycle
import Verif.Spec.Dag
import Verif.Spec.DagParams
import Verif.Spec.Disk
import Verif.Spec.Double
import Verif.Spec.Eaglesong
import Verif.Spec.EaglesongConst
import Verif.Spec.Equihash
import Verif.Spec.Ethash
import Verif.Spec.Faults
import Verif.Spec.GoLiteral
import Verif.Spec.Growth
import Verif.Spec.Handles
import Verif.Spec.Heavy
import Verif.Spec.HostOrder
import Verif.Spec.Keccak
import Verif.Spec.KeccakF
import Verif.Spec.Large
import Verif.Spec.Lru
import Verif.Spec.Memory
import Verif.Spec.MemoryModel
import Verif.Spec.Octopus
import Verif.Spec.Paths
import Verif.Spec.Power
import Verif.Spec.Progpow
import Verif.Spec.Siphash
import Verif.Spec.Sponge
import Verif.Spec.Wagner
import Verif.Spec.Work
import Verif.Test.Autolykos
import Verif.Test.Blake
import Verif.Test.CShake
import Verif.Test.Dag
import Verif.Test.EthashHash
import Verif.Test.FiropowHash
import Verif.Test.Float64
import Verif.Test.Generate
import Verif.Test.Hasher
import Verif.Test.Heavy
import Verif.Test.KawpowHash
import Verif.Test.Memory
import Verif.Test.OctopusHash
import Verif.Test.Paths
import Verif.Test.Progpow
import Verif.Test.ProgpowHash
import Verif.Test.Sponge
import Verif.Test.Table
import Verif.Test.Verify
