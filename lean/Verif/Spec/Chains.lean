import Verif.Spec.Disk

/-! # The published parameters of the DAG-based chains

Ethereum: ethereum/wiki "Ethash". Ethereum Classic: ECIP-1099 (epochs of twice the length, the seed still advances every 30000
blocks). Ravencoin: KAWPOW. Firo: FiroPoW. Conflux: Octopus. -/

set_option autoImplicit false

namespace Verif.Spec

/-- the parameters of a chain -/
structure Chain where
  /-- name and revision in the file names -/
  ticker : String
  /-- blocks per epoch -/
  epochLength : Nat
  /-- applications of the seed hash per epoch -/
  seeds : Nat
  cacheInit : Nat
  cacheGrowth : Nat
  dataInit : Nat
  dataGrowth : Nat
  /-- bytes per dataset row -/
  row : Nat
  /-- parents of a dataset item -/
  parents : Nat
  /-- rounds of the cache generation -/
  rounds : Nat
  /-- bytes of the L1 cache, 0 when there is none -/
  l1 : Nat

namespace Chain

def eth : Chain := ⟨"ETH-R23", 30000, 1, 16777216, 131072, 1073741824, 8388608, 128, 256, 3, 0⟩
def etc : Chain := ⟨"ETC-R23", 60000, 2, 16777216, 131072, 1073741824, 8388608, 128, 256, 3, 0⟩
def rvn : Chain := ⟨"RVN-R23", 7500, 1, 16777216, 131072, 1073741824, 8388608, 128, 512, 3, 16384⟩
def firo : Chain := ⟨"FIRO-R23", 1300, 1, 16777216, 131072, 1610612736, 8388608, 128, 512, 3, 16384⟩
def cfx : Chain := ⟨"CFX-R1", 524288, 1, 16777216, 65536, 4294967296, 16777216, 256, 256, 3, 0⟩

end Chain

abbrev Bytes := List (BitVec 8)

/-- the seed of an epoch -/
def epochSeed (H256 : Bytes → Bytes) (c : Chain) (e : Nat) : Bytes := Dag.seed H256 (c.seeds * e)

/-- `w` is the cache of epoch `e` -/
def IsCache (H256 H512 : Bytes → Bytes) (c : Chain) (e : Nat) (w : List (BitVec 32)) : Prop :=
  ∃ size, Dag.IsSize 64 (c.cacheInit + c.cacheGrowth * e) size ∧ w = Disk.cacheWords H512 size c.rounds (epochSeed H256 c e)

/-- there is only one such cache -/
theorem IsCache.unique {H256 H512 : Bytes → Bytes} {c : Chain} {e : Nat} {w v : List (BitVec 32)} (h1 : IsCache H256 H512 c e w)
    (h2 : IsCache H256 H512 c e v) : w = v := by
  obtain ⟨s, hs, rfl⟩ := h1
  obtain ⟨t, ht, rfl⟩ := h2
  rw [hs.unique ht]

/-- the L1 cache that belongs to a cache -/
def l1Of (H512 : Bytes → Bytes) (c : Chain) (cache : List (BitVec 32)) : List (BitVec 32) :=
  if c.l1 = 0 then [] else Disk.l1Words H512 c.parents c.l1 cache

/-- the hexadecimal digits of a byte string -/
def hex (b : Bytes) : List Char :=
  let digits := ['0', '1', '2', '3', '4', '5', '6', '7', '8', '9', 'a', 'b', 'c', 'd', 'e', 'f']
  b.flatMap fun x => [digits.getD (x.toNat / 16) '0', digits.getD (x.toNat % 16) '0']

/-- the file of a kind ("cache" or "l1"), of a chain and an epoch -/
def filePath (H256 : Bytes → Bytes) (dir kind : String) (c : Chain) (e : Nat) : String :=
  String.ofList (dir.toList ++ ['/'] ++ kind.toList ++ ['-'] ++ c.ticker.toList ++ ['-'] ++ hex ((epochSeed H256 c e).take 8))

end Verif.Spec
