import Verif.Proof.Sieve
import Verif.Model.Configs

/-! # Kernel check of the embedded tables -/

set_option autoImplicit false

namespace Verif.Sieve

theorem ethashCache_ok : tableOk 64 (2 ^ 24) (2 ^ 17) Tables.ethashCacheSizes 0 = true := by decide +kernel

theorem ethashDataset_ok : tableOk 128 (2 ^ 30) (2 ^ 23) Tables.ethashDatasetSizes 0 = true := by decide +kernel

theorem firopowDataset_ok : tableOk 128 (2 ^ 30 + 2 ^ 29) (2 ^ 23) Tables.firopowDatasetSizes 0 = true := by decide +kernel

theorem octopusCache_ok : tableOk 64 (2 ^ 24) (2 ^ 16) Tables.octopusCacheSizes 0 = true := by decide +kernel

theorem octopusDataset_ok : tableOk 256 (2 ^ 32) (2 ^ 24) Tables.octopusDatasetSizes 0 = true := by decide +kernel

theorem ethashCache_length : Tables.ethashCacheSizes.length = 2045 := by decide +kernel

theorem ethashDataset_length : Tables.ethashDatasetSizes.length = 2045 := by decide +kernel

theorem firopowDataset_length : Tables.firopowDatasetSizes.length = 2045 := by decide +kernel

theorem octopusCache_length : Tables.octopusCacheSizes.length = 2045 := by decide +kernel

theorem octopusDataset_length : Tables.octopusDatasetSizes.length = 2045 := by decide +kernel

end Verif.Sieve
