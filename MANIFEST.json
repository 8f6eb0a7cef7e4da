{
 "claims": [
  {
   "property": "C01",
   "status": "proved",
   "theorems": [
    "Verif.Props.C01_cuckoo_verify_iff_cycle",
    "Verif.Props.C01_aeternity_verify_iff_cycle"
   ],
   "note": ""
  },
  {
   "property": "C02",
   "status": "proved",
   "theorems": [
    "Verif.Props.C02_cuckaroo_verify_iff_cycle",
    "Verif.Props.C02_cortex_verify_iff_cycle"
   ],
   "note": ""
  },
  {
   "property": "C03",
   "status": "proved",
   "theorems": [
    "Verif.Props.C03_cuckoo_terminates",
    "Verif.Props.C03_cuckaroo_terminates",
    "Verif.Props.C03_proofSize_zero_panics"
   ],
   "note": "Hypothesis proofSize >= 1 is shown necessary by C03_proofSize_zero_panics."
  },
  {
   "property": "C04",
   "status": "proved",
   "theorems": [
    "Verif.Props.C04_cuckoo_order_malleable",
    "Verif.Props.C04_cuckaroo_order_malleable"
   ],
   "note": ""
  },
  {
   "property": "C05",
   "status": "proved",
   "theorems": [
    "Verif.Props.C05_accepted_distinct",
    "Verif.Props.C05_cuckaroo_accepted_distinct",
    "Verif.Props.C05_double_edge_accepted",
    "Verif.Props.C05_cuckaroo_double_edge_accepted"
   ],
   "note": ""
  },
  {
   "property": "C06",
   "status": "proved",
   "theorems": [
    "Verif.Props.C06_sipRound",
    "Verif.Props.C06_sipRound_bijective",
    "Verif.Props.C06_hash24",
    "Verif.Props.C06_hash48",
    "Verif.Props.C06_sipNode",
    "Verif.Props.C06_sipBlock48"
   ],
   "note": ""
  },
  {
   "property": "C07",
   "status": "proved",
   "theorems": [
    "Verif.Props.C07_verify_iff",
    "Verif.Props.C07_published",
    "Verif.Props.C07_shipped",
    "Verif.Props.C07_reject"
   ],
   "note": ""
  },
  {
   "property": "C08",
   "status": "proved",
   "theorems": [
    "Verif.Props.C08_accepted"
   ],
   "note": ""
  },
  {
   "property": "C09",
   "status": "proved",
   "theorems": [
    "Verif.Props.C09_bijection",
    "Verif.Props.C09_injective"
   ],
   "note": ""
  },
  {
   "property": "C10",
   "status": "proved",
   "theorems": [
    "Verif.Props.C10_canonical",
    "Verif.Props.C10_swapped_exists"
   ],
   "note": ""
  },
  {
   "property": "C11",
   "status": "proved",
   "theorems": [
    "Verif.Props.C11_total"
   ],
   "note": ""
  },
  {
   "property": "C12",
   "status": "proved",
   "theorems": [
    "Verif.Props.C12_expandArray",
    "Verif.Props.C12_identity",
    "Verif.Props.C12_lossy"
   ],
   "note": ""
  },
  {
   "property": "C13",
   "status": "proved",
   "theorems": [
    "Verif.Props.C13_generateHash"
   ],
   "note": ""
  },
  {
   "property": "C14",
   "status": "proved",
   "theorems": [
    "Verif.Props.C14_verify_iff",
    "Verif.Props.C14_newBeam"
   ],
   "note": ""
  },
  {
   "property": "C15",
   "status": "proved",
   "theorems": [
    "Verif.Props.C15_distinct",
    "Verif.Props.C15_canonical",
    "Verif.Props.C15_swapped_exists"
   ],
   "note": ""
  },
  {
   "property": "C16",
   "status": "proved",
   "theorems": [
    "Verif.Props.C16_bijection",
    "Verif.Props.C16_extraNonce"
   ],
   "note": ""
  },
  {
   "property": "C17",
   "status": "proved",
   "theorems": [
    "Verif.Props.C17_total",
    "Verif.Props.C17_wrong_length"
   ],
   "note": ""
  },
  {
   "property": "C18",
   "status": "proved",
   "theorems": [
    "Verif.Props.C18_remap",
    "Verif.Props.C18_primitive_root"
   ],
   "note": ""
  },
  {
   "property": "C19",
   "status": "proved",
   "theorems": [
    "Verif.Props.C19_computeC",
    "Verif.Props.C19_derived"
   ],
   "note": ""
  },
  {
   "property": "C20",
   "status": "proved",
   "theorems": [
    "Verif.Props.C20_coefficients",
    "Verif.Props.C20_same_warp",
    "Verif.Props.C20_values",
    "Verif.Props.C20_octopus",
    "Verif.Props.C20_c_unique"
   ],
   "note": ""
  },
  {
   "property": "C21",
   "status": "proved",
   "theorems": [
    "Verif.Props.C21_in_range",
    "Verif.Props.C21_small",
    "Verif.Props.C21_light"
   ],
   "note": ""
  },
  {
   "property": "C22",
   "status": "proved",
   "theorems": [
    "Verif.Props.C22_hashimoto",
    "Verif.Props.C22_light"
   ],
   "note": ""
  },
  {
   "property": "C23",
   "status": "proved",
   "theorems": [
    "Verif.Props.C23_in_range",
    "Verif.Props.C23_small"
   ],
   "note": ""
  },
  {
   "property": "C24",
   "status": "proved",
   "theorems": [
    "Verif.Props.C24_keccakF800"
   ],
   "note": ""
  },
  {
   "property": "C25",
   "status": "proved",
   "theorems": [
    "Verif.Props.C25_kawpow",
    "Verif.Props.C25_firopow",
    "Verif.Props.C25_progpow094"
   ],
   "note": ""
  },
  {
   "property": "C26",
   "status": "proved",
   "theorems": [
    "Verif.Props.C26_total",
    "Verif.Props.C26_in_range",
    "Verif.Props.C26_small"
   ],
   "note": ""
  },
  {
   "property": "C27",
   "status": "proved",
   "theorems": [
    "Verif.Props.C27_permutation",
    "Verif.Props.C27_operands"
   ],
   "note": ""
  },
  {
   "property": "C28",
   "status": "proved",
   "theorems": [
    "Verif.Props.C28_hash",
    "Verif.Props.C28_kawpow",
    "Verif.Props.C28_progpow094"
   ],
   "note": ""
  },
  {
   "property": "C29",
   "status": "proved",
   "theorems": [
    "Verif.Props.C29_register",
    "Verif.Props.C29_data",
    "Verif.Props.C29_table"
   ],
   "note": ""
  },
  {
   "property": "C30",
   "status": "proved",
   "theorems": [
    "Verif.Props.C30_math",
    "Verif.Props.C30_clz"
   ],
   "note": ""
  },
  {
   "property": "C31",
   "status": "proved",
   "theorems": [
    "Verif.Props.C31_calcCacheSize",
    "Verif.Props.C31_calcDatasetSize",
    "Verif.Props.C31_shipped_cache",
    "Verif.Props.C31_shipped_dataset",
    "Verif.Props.C31_CacheSize",
    "Verif.Props.C31_DatasetSize"
   ],
   "note": ""
  },
  {
   "property": "C32",
   "status": "proved",
   "theorems": [
    "Verif.Props.C32_tables",
    "Verif.Props.C32_cache_agree",
    "Verif.Props.C32_dataset_agree"
   ],
   "note": ""
  },
  {
   "property": "C33",
   "status": "proved",
   "theorems": [
    "Verif.Props.C33_cacheSize_panics_iff",
    "Verif.Props.C33_datasetSize_panics_iff"
   ],
   "note": ""
  },
  {
   "property": "C34",
   "status": "proved",
   "theorems": [
    "Verif.Props.C34_etc_panics",
    "Verif.Props.C34_etc_table"
   ],
   "note": ""
  },
  {
   "property": "C35",
   "status": "proved",
   "theorems": [
    "Verif.Props.C35_format",
    "Verif.Props.C35_complete_iff",
    "Verif.Props.C35_regenerate_cache",
    "Verif.Props.C35_regenerate_dataset"
   ],
   "note": ""
  },
  {
   "property": "C36",
   "status": "proved",
   "theorems": [
    "Verif.Props.C36_calcEpoch",
    "Verif.Props.C36_calcEpoch_zero",
    "Verif.Props.C36_seedHash",
    "Verif.Props.C36_epoch_seed",
    "Verif.Props.C36_seed_wraps"
   ],
   "note": ""
  },
  {
   "property": "C37",
   "status": "proved",
   "theorems": [
    "Verif.Props.C37_generateCache",
    "Verif.Props.C37_rows",
    "Verif.Props.C37_empty",
    "Verif.Props.C37_xorBytes"
   ],
   "note": ""
  },
  {
   "property": "C38",
   "status": "proved",
   "theorems": [
    "Verif.Props.C38_generateDatasetItem",
    "Verif.Props.C38_no_row",
    "Verif.Props.C38_whole_rows"
   ],
   "note": ""
  },
  {
   "property": "C39",
   "status": "proved",
   "theorems": [
    "Verif.Props.C39_lookups",
    "Verif.Props.C39_l1",
    "Verif.Props.C39_l1_lookup"
   ],
   "note": ""
  },
  {
   "property": "C40",
   "status": "proved",
   "theorems": [
    "Verif.Props.C40_returned",
    "Verif.Props.C40_map",
    "Verif.Props.C40_published",
    "Verif.Props.C40_shared"
   ],
   "note": ""
  },
  {
   "property": "C41",
   "status": "proved",
   "theorems": [
    "Verif.Props.C41_bound",
    "Verif.Props.C41_no_panic",
    "Verif.Props.C41_nonpositive",
    "Verif.Props.C41_stuck"
   ],
   "note": ""
  },
  {
   "property": "C42",
   "status": "proved",
   "theorems": [
    "Verif.Props.C42_evicted",
    "Verif.Props.C42_lru"
   ],
   "note": ""
  },
  {
   "property": "C43",
   "status": "proved",
   "theorems": [
    "Verif.Props.C43_once",
    "Verif.Props.C43_stable"
   ],
   "note": ""
  },
  {
   "property": "C44",
   "status": "proved",
   "theorems": [
    "Verif.Props.C44_files",
    "Verif.Props.C44_result",
    "Verif.Props.C44_kept",
    "Verif.Props.C44_stable",
    "Verif.Props.C44_reached"
   ],
   "note": "Assumes NoClash as C47 and that running writers have drawn different numbers (C45 shows what happens otherwise). A crash is the death of a process; loss of the page cache in a power failure is not modelled."
  },
  {
   "property": "C45",
   "status": "proved",
   "theorems": [
    "Verif.Props.C45_distinct",
    "Verif.Props.C45_clash"
   ],
   "note": "C45_distinct is the positive half, C45_clash the bad schedule for equal numbers."
  },
  {
   "property": "C46",
   "status": "proved",
   "theorems": [
    "Verif.Props.C46_accepted_iff",
    "Verif.Props.C46_rejected",
    "Verif.Props.C46_short",
    "Verif.Props.C46_memoryMap"
   ],
   "note": ""
  },
  {
   "property": "C47",
   "status": "proved",
   "theorems": [
    "Verif.Props.C47_generate",
    "Verif.Props.C47_sound",
    "Verif.Props.C47_agree"
   ],
   "note": "C47_sound and C47_agree assume that no two epochs of a chain share the first eight bytes of their seeds (NoClash); an example shows a hash function without clashes."
  },
  {
   "property": "C48",
   "status": "proved",
   "theorems": [
    "Verif.Props.C48_cleanup",
    "Verif.Props.C48_removed",
    "Verif.Props.C48_survive",
    "Verif.Props.C48_foreign"
   ],
   "note": "C48_survive assumes NoClash as C47."
  },
  {
   "property": "C49",
   "status": "proved",
   "theorems": [
    "Verif.Props.C49_zero_hash",
    "Verif.Props.C49_other_hash",
    "Verif.Props.C49_returns"
   ],
   "note": ""
  },
  {
   "property": "C50",
   "status": "proved",
   "theorems": [
    "Verif.Props.C50_compute",
    "Verif.Props.C50_exact",
    "Verif.Props.C50_bound"
   ],
   "note": ""
  },
  {
   "property": "C51",
   "status": "proved",
   "theorems": [
    "Verif.Props.C51_next",
    "Verif.Props.C51_bijective",
    "Verif.Props.C51_fixed_point",
    "Verif.Props.C51_never_zero"
   ],
   "note": ""
  },
  {
   "property": "C52",
   "status": "proved",
   "theorems": [
    "Verif.Props.C52_rank"
   ],
   "note": ""
  },
  {
   "property": "C53",
   "status": "proved",
   "theorems": [
    "Verif.Props.C53_size",
    "Verif.Props.C53_constant",
    "Verif.Props.C53_step",
    "Verif.Props.C53_period",
    "Verif.Props.C53_monotone",
    "Verif.Props.C53_final"
   ],
   "note": ""
  },
  {
   "property": "C54",
   "status": "proved",
   "theorems": [
    "Verif.Props.C54_compute",
    "Verif.Props.C54_index_lt",
    "Verif.Props.C54_minimal",
    "Verif.Props.C54_width",
    "Verif.Props.C54_too_many_indexes"
   ],
   "note": ""
  },
  {
   "property": "C55",
   "status": "proved",
   "theorems": [
    "Verif.Props.C55_alias"
   ],
   "note": ""
  },
  {
   "property": "C56",
   "status": "proved",
   "theorems": [
    "Verif.Props.C56_permute_bijective",
    "Verif.Props.C56_permute_spec",
    "Verif.Props.C56_too_many_rounds"
   ],
   "note": ""
  },
  {
   "property": "C57",
   "status": "proved",
   "theorems": [
    "Verif.Props.C57_compute",
    "Verif.Props.C57_rounds_delim",
    "Verif.Props.C57_zero_rate"
   ],
   "note": ""
  },
  {
   "property": "C58",
   "status": "proved",
   "theorems": [
    "Verif.Props.C58_collision",
    "Verif.Props.C58_append_zeros",
    "Verif.Props.C58_absorbed_iff",
    "Verif.Props.C58_equal_length"
   ],
   "note": ""
  },
  {
   "property": "C59",
   "status": "proved",
   "theorems": [
    "Verif.Props.C59_xorBytes",
    "Verif.Props.C59_xorBytes_contents",
    "Verif.Props.C59_builds_agree"
   ],
   "note": ""
  },
  {
   "property": "C60",
   "status": "proved",
   "theorems": [
    "Verif.Props.C60_bytes_of_words_roundtrip",
    "Verif.Props.C60_words_of_bytes_roundtrip",
    "Verif.Props.C60_words_value",
    "Verif.Props.C60_words_value_big",
    "Verif.Props.C60_uint32ToBytes",
    "Verif.Props.C60_uint64ToBytes"
   ],
   "note": ""
  },
  {
   "property": "C61",
   "status": "proved",
   "theorems": [
    "Verif.Props.C61_ethash",
    "Verif.Props.C61_kawpow",
    "Verif.Props.C61_firopow",
    "Verif.Props.C61_octopus",
    "Verif.Props.C61_heavyhash",
    "Verif.Props.C61_beam",
    "Verif.Props.C61_cuckoo",
    "Verif.Props.C61_autolykos"
   ],
   "note": ""
  },
  {
   "property": "C62",
   "status": "proved",
   "theorems": [
    "Verif.Props.C62_fnv1_value",
    "Verif.Props.C62_fnv1a_value",
    "Verif.Props.C62_fnv1Uint64_value",
    "Verif.Props.C62_fnv1_bijective",
    "Verif.Props.C62_fnv1a_bijective",
    "Verif.Props.C62_fnv1Uint64_bijective",
    "Verif.Props.C62_fnvHash"
   ],
   "note": ""
  },
  {
   "property": "C63",
   "status": "proved",
   "theorems": [
    "Verif.Props.C63_hash",
    "Verif.Props.C63_kawpow",
    "Verif.Props.C63_firopow",
    "Verif.Props.C63_progpow094"
   ],
   "note": ""
  },
  {
   "property": "C64",
   "status": "proved",
   "theorems": [
    "Verif.Props.C64_ethash_of",
    "Verif.Props.C64_kawpow_of",
    "Verif.Props.C64_firopow_of",
    "Verif.Props.C64_octopus_of",
    "Verif.Props.C64_ethereum",
    "Verif.Props.C64_ethereumClassic",
    "Verif.Props.C64_ravencoin",
    "Verif.Props.C64_firo",
    "Verif.Props.C64_conflux",
    "Verif.Props.C64_unique",
    "Verif.Props.C64_panics",
    "Verif.Props.C64_concurrent",
    "Verif.Props.C64_shared"
   ],
   "note": "C64_shared assumes NoClash and different numbers of running writers."
  },
  {
   "property": "C65",
   "status": "proved",
   "theorems": [
    "Verif.Props.C65_work",
    "Verif.Props.C65_progress",
    "Verif.Props.C65_done"
   ],
   "note": ""
  },
  {
   "property": "C66",
   "status": "proved",
   "theorems": [
    "Verif.Props.C66_body",
    "Verif.Props.C66_crash"
   ],
   "note": ""
  },
  {
   "property": "C67",
   "status": "proved",
   "theorems": [
    "Verif.Props.C67_no_fault",
    "Verif.Props.C67_mapped",
    "Verif.Props.C67_needed",
    "Verif.Props.C67_collected"
   ],
   "note": ""
  },
  {
   "property": "C68",
   "status": "proved",
   "theorems": [
    "Verif.Props.C68_ahead",
    "Verif.Props.C68_next",
    "Verif.Props.C68_distinct"
   ],
   "note": ""
  },
  {
   "property": "C69",
   "status": "proved",
   "theorems": [
    "Verif.Props.C69_bijective",
    "Verif.Props.C69_seed"
   ],
   "note": ""
  },
  {
   "property": "C70",
   "status": "proved",
   "theorems": [
    "Verif.Props.C70_atomic",
    "Verif.Props.C70_exclusive",
    "Verif.Props.C70_returned",
    "Verif.Props.C70_release"
   ],
   "note": ""
  },
  {
   "property": "C71",
   "status": "proved",
   "theorems": [
    "Verif.Props.C71_ethash_quick",
    "Verif.Props.C71_ethash_binds",
    "Verif.Props.C71_octopus_inputs",
    "Verif.Props.C71_octopus_binds",
    "Verif.Props.C71_kawpow_quick",
    "Verif.Props.C71_firopow_quick"
   ],
   "note": ""
  },
  {
   "property": "C72",
   "status": "proved",
   "theorems": [
    "Verif.Props.C72_returns",
    "Verif.Props.C72_shipped",
    "Verif.Props.C72_rejected",
    "Verif.Props.C72_k_max",
    "Verif.Props.C72_no_index",
    "Verif.Props.C72_n_large",
    "Verif.Props.C72_blake",
    "Verif.Props.C72_forever"
   ],
   "note": ""
  },
  {
   "property": "C73",
   "status": "proved",
   "theorems": [
    "Verif.Props.C73_file",
    "Verif.Props.C73_nothing",
    "Verif.Props.C73_shipped"
   ],
   "note": ""
  },
  {
   "property": "C74",
   "status": "proved",
   "theorems": [
    "Verif.Props.C74_exact",
    "Verif.Props.C74_stops",
    "Verif.Props.C74_client"
   ],
   "note": ""
  },
  {
   "property": "C75",
   "status": "proved",
   "theorems": [
    "Verif.Props.C75_size",
    "Verif.Props.C75_empty_iff",
    "Verif.Props.C75_compute",
    "Verif.Props.C75_returns_iff",
    "Verif.Props.C75_exact",
    "Verif.Props.C75_monotone",
    "Verif.Props.C75_final",
    "Verif.Props.C75_jump_iff",
    "Verif.Props.C75_no_index"
   ],
   "note": ""
  },
  {
   "property": "C76",
   "status": "proved",
   "theorems": [
    "Verif.Props.C76_index",
    "Verif.Props.C76_negative_capacity",
    "Verif.Props.C76_small_rate",
    "Verif.Props.C76_negative_rate",
    "Verif.Props.C76_wrapped",
    "Verif.Props.C76_overflow",
    "Verif.Props.C76_value",
    "Verif.Props.C76_returns_iff",
    "Verif.Props.C76_total",
    "Verif.Props.C76_depends",
    "Verif.Props.C76_unique",
    "Verif.Props.C76_words",
    "Verif.Props.C76_constant"
   ],
   "note": ""
  },
  {
   "property": "C77",
   "status": "proved",
   "theorems": [
    "Verif.Props.C77_bytes",
    "Verif.Props.C77_words",
    "Verif.Props.C77_right_iff",
    "Verif.Props.C77_l1",
    "Verif.Props.C77_lookup",
    "Verif.Props.C77_differs",
    "Verif.Props.C77_file",
    "Verif.Props.C77_accepted_iff",
    "Verif.Props.C77_foreign",
    "Verif.Props.C77_own"
   ],
   "note": ""
  },
  {
   "property": "C78",
   "status": "proved",
   "theorems": [
    "Verif.Props.C78_cuckoo_errors",
    "Verif.Props.C78_cuckaroo_errors",
    "Verif.Props.C78_path_ends",
    "Verif.Props.C78_order",
    "Verif.Props.C78_nil_hash",
    "Verif.Props.C78_wrong_length",
    "Verif.Props.C78_negative_proofSize",
    "Verif.Props.C78_zero_proofSize",
    "Verif.Props.C78_wide_mask",
    "Verif.Props.C78_constructors"
   ],
   "note": ""
  },
  {
   "property": "C79",
   "status": "proved",
   "theorems": [
    "Verif.Props.C79_race_free",
    "Verif.Props.C79_memory",
    "Verif.Props.C79_finalizer_last",
    "Verif.Props.C79_erase",
    "Verif.Props.C79_lift",
    "Verif.Props.C79_executions",
    "Verif.Props.C79_writes",
    "Verif.Props.C79_finalizer_unordered"
   ],
   "note": ""
  },
  {
   "property": "C80",
   "status": "proved",
   "theorems": [
    "Verif.Props.C80_equihash_length",
    "Verif.Props.C80_equihash_panic",
    "Verif.Props.C80_equihash_collision",
    "Verif.Props.C80_equihash_order",
    "Verif.Props.C80_equihash_duplicate",
    "Verif.Props.C80_equihash_nil",
    "Verif.Props.C80_equihash_only",
    "Verif.Props.C80_equihash_swap",
    "Verif.Props.C80_equihash_equal",
    "Verif.Props.C80_beam_lengths",
    "Verif.Props.C80_beam_collision",
    "Verif.Props.C80_beam_order",
    "Verif.Props.C80_beam_duplicate",
    "Verif.Props.C80_beam_nil",
    "Verif.Props.C80_beam_swap",
    "Verif.Props.C80_beam_equal",
    "Verif.Props.C80_beam_personal"
   ],
   "note": ""
  },
  {
   "property": "C81",
   "status": "proved",
   "theorems": [
    "Verif.Props.C81_mul",
    "Verif.Props.C81_div",
    "Verif.Props.C81_sub",
    "Verif.Props.C81_fused",
    "Verif.Props.C81_determined",
    "Verif.Props.C81_entry",
    "Verif.Props.C81_compare",
    "Verif.Props.C81_returns",
    "Verif.Props.C81_zero_row",
    "Verif.Props.C81_zero_column",
    "Verif.Props.C81_triangular",
    "Verif.Props.C81_zero_hash",
    "Verif.Props.C81_too_low",
    "Verif.Props.C81_too_high",
    "Verif.Props.C81_fusion",
    "Verif.Props.C81_nibbles"
   ],
   "note": ""
  },
  {
   "property": "C82",
   "status": "proved",
   "theorems": [
    "Verif.Props.C82_clean",
    "Verif.Props.C82_unique",
    "Verif.Props.C82_join",
    "Verif.Props.C82_same_path",
    "Verif.Props.C82_directory",
    "Verif.Props.C82_names",
    "Verif.Props.C82_faithful",
    "Verif.Props.C82_exact",
    "Verif.Props.C82_default",
    "Verif.Props.C82_clients",
    "Verif.Props.C82_slash"
   ],
   "note": ""
  },
  {
   "property": "C83",
   "status": "proved",
   "theorems": [
    "Verif.Props.C83_kept",
    "Verif.Props.C83_apart",
    "Verif.Props.C83_autolykos",
    "Verif.Props.C83_heavyhash",
    "Verif.Props.C83_eaglesong",
    "Verif.Props.C83_cuckoo",
    "Verif.Props.C83_equihash",
    "Verif.Props.C83_beam",
    "Verif.Props.C83_ethash",
    "Verif.Props.C83_kawpow",
    "Verif.Props.C83_firopow",
    "Verif.Props.C83_octopus",
    "Verif.Props.C83_progpow094",
    "Verif.Props.C83_spare"
   ],
   "note": ""
  },
  {
   "property": "C84",
   "status": "proved",
   "theorems": [
    "Verif.Props.C84_long",
    "Verif.Props.C84_shipped",
    "Verif.Props.C84_appended"
   ],
   "note": ""
  },
  {
   "property": "C85",
   "status": "proved",
   "theorems": [
    "Verif.Props.C85_autolykos",
    "Verif.Props.C85_heavyhash",
    "Verif.Props.C85_eaglesong",
    "Verif.Props.C85_cuckoo",
    "Verif.Props.C85_equihash",
    "Verif.Props.C85_beam",
    "Verif.Props.C85_ethash",
    "Verif.Props.C85_kawpow",
    "Verif.Props.C85_firopow",
    "Verif.Props.C85_octopus",
    "Verif.Props.C85_generate",
    "Verif.Props.C85_item",
    "Verif.Props.C85_survives"
   ],
   "note": ""
  },
  {
   "property": "C86",
   "status": "proved",
   "theorems": [
    "Verif.Props.C86_cache",
    "Verif.Props.C86_l1",
    "Verif.Props.C86_generate",
    "Verif.Props.C86_kept",
    "Verif.Props.C86_compute",
    "Verif.Props.C86_silent",
    "Verif.Props.C86_directory"
   ],
   "note": ""
  },
  {
   "property": "C87",
   "status": "proved",
   "theorems": [
    "Verif.Props.C87_autolykos",
    "Verif.Props.C87_heavy",
    "Verif.Props.C87_cuckoo",
    "Verif.Props.C87_beam",
    "Verif.Props.C87_equihash",
    "Verif.Props.C87_items",
    "Verif.Props.C87_item",
    "Verif.Props.C87_ethash",
    "Verif.Props.C87_octopus",
    "Verif.Props.C87_kawpow",
    "Verif.Props.C87_firopow",
    "Verif.Props.C87_ethash_words",
    "Verif.Props.C87_octopus_words",
    "Verif.Props.C87_progpow_words",
    "Verif.Props.C87_l1_words",
    "Verif.Props.C87_seed",
    "Verif.Props.C87_cache",
    "Verif.Props.C87_unread"
   ],
   "note": ""
  },
  {
   "property": "C88",
   "status": "proved",
   "theorems": [
    "Verif.Props.C88_files",
    "Verif.Props.C88_result",
    "Verif.Props.C88_torn",
    "Verif.Props.C88_mended",
    "Verif.Props.C88_wrong",
    "Verif.Props.C88_compute"
   ],
   "note": ""
  },
  {
   "property": "C89",
   "status": "proved",
   "theorems": [
    "Verif.Props.C89_kept",
    "Verif.Props.C89_falling",
    "Verif.Props.C89_unbounded",
    "Verif.Props.C89_rising",
    "Verif.Props.C89_leftover",
    "Verif.Props.C89_forever"
   ],
   "note": ""
  },
  {
   "property": "C90",
   "status": "proved",
   "theorems": [
    "Verif.Props.C90_judged",
    "Verif.Props.C90_capacity",
    "Verif.Props.C90_panics"
   ],
   "note": ""
  },
  {
   "property": "C91",
   "status": "proved",
   "theorems": [
    "Verif.Props.C91_64",
    "Verif.Props.C91_generate",
    "Verif.Props.C91_shipped",
    "Verif.Props.C91_seed",
    "Verif.Props.C91_small",
    "Verif.Props.C91_equihash",
    "Verif.Props.C91_nervos",
    "Verif.Props.C91_nervos_same",
    "Verif.Props.C91_nervos_collide",
    "Verif.Props.C91_nervos_prefix"
   ],
   "note": ""
  },
  {
   "property": "C92",
   "status": "proved",
   "theorems": [
    "Verif.Props.C92_cache",
    "Verif.Props.C92_cache_zero",
    "Verif.Props.C92_cache_small",
    "Verif.Props.C92_cache_panics",
    "Verif.Props.C92_item",
    "Verif.Props.C92_item_rows",
    "Verif.Props.C92_ethash",
    "Verif.Props.C92_ethash_repeated",
    "Verif.Props.C92_ethash_light",
    "Verif.Props.C92_octopus",
    "Verif.Props.C92_progpow",
    "Verif.Props.C92_progpow_zero",
    "Verif.Props.C92_cache_epochs",
    "Verif.Props.C92_dataset_epochs",
    "Verif.Props.C92_last_epochs"
   ],
   "note": ""
  },
  {
   "property": "C93",
   "status": "proved",
   "theorems": [
    "Verif.Props.C93_period",
    "Verif.Props.C93_orbit",
    "Verif.Props.C93_matrices",
    "Verif.Props.C93_returns",
    "Verif.Props.C93_iff",
    "Verif.Props.C93_exact"
   ],
   "note": ""
  },
  {
   "property": "C94",
   "status": "proved",
   "theorems": [
    "Verif.Props.C94_generate",
    "Verif.Props.C94_life",
    "Verif.Props.C94_clean",
    "Verif.Props.C94_together",
    "Verif.Props.C94_leak"
   ],
   "note": ""
  },
  {
   "property": "C95",
   "status": "proved",
   "theorems": [
    "Verif.Props.C95_cacheSize",
    "Verif.Props.C95_cacheSize_panics",
    "Verif.Props.C95_datasetSize",
    "Verif.Props.C95_datasetSize_zero",
    "Verif.Props.C95_datasetSize_hangs",
    "Verif.Props.C95_datasetSize_returns",
    "Verif.Props.C95_datasetSize_table",
    "Verif.Props.C95_published",
    "Verif.Props.C95_two_rows",
    "Verif.Props.C95_cache_two_rows",
    "Verif.Props.C95_cache_ragged",
    "Verif.Props.C95_seedHash",
    "Verif.Props.C95_generateCache",
    "Verif.Props.C95_generate",
    "Verif.Props.C95_generate_iff",
    "Verif.Props.C95_ethash",
    "Verif.Props.C95_ethash_iff",
    "Verif.Props.C95_octopus",
    "Verif.Props.C95_octopus_iff",
    "Verif.Props.C95_kawpow",
    "Verif.Props.C95_kawpow_noL1",
    "Verif.Props.C95_kawpow_only",
    "Verif.Props.C95_firopow",
    "Verif.Props.C95_firopow_noL1",
    "Verif.Props.C95_firopow_only"
   ],
   "note": ""
  },
  {
   "property": "C96",
   "status": "proved",
   "theorems": [
    "Verif.Props.C96_generate",
    "Verif.Props.C96_same",
    "Verif.Props.C96_huge",
    "Verif.Props.C96_wraps",
    "Verif.Props.C96_ethash",
    "Verif.Props.C96_octopus",
    "Verif.Props.C96_kawpow",
    "Verif.Props.C96_firopow",
    "Verif.Props.C96_kawpow_unset",
    "Verif.Props.C96_firopow_unset"
   ],
   "note": ""
  },
  {
   "property": "C97",
   "status": "proved",
   "theorems": [
    "Verif.Props.C97_negative",
    "Verif.Props.C97_returns",
    "Verif.Props.C97_index",
    "Verif.Props.C97_divides",
    "Verif.Props.C97_iff",
    "Verif.Props.C97_no_rounds",
    "Verif.Props.C97_value"
   ],
   "note": ""
  },
  {
   "property": "C98",
   "status": "proved",
   "theorems": [
    "Verif.Props.C98_writes",
    "Verif.Props.C98_no_package",
    "Verif.Props.C98_negative",
    "Verif.Props.C98_mix_zero",
    "Verif.Props.C98_mix_huge",
    "Verif.Props.C98_unfit",
    "Verif.Props.C98_missing",
    "Verif.Props.C98_undefined",
    "Verif.Props.C98_octal",
    "Verif.Props.C98_octal_rejects",
    "Verif.Props.C98_generate"
   ],
   "note": ""
  },
  {
   "property": "C99",
   "status": "proved",
   "theorems": [
    "Verif.Props.C99_repeat",
    "Verif.Props.C99_long",
    "Verif.Props.C99_returns",
    "Verif.Props.C99_longest",
    "Verif.Props.C99_rest",
    "Verif.Props.C99_register",
    "Verif.Props.C99_seed",
    "Verif.Props.C99_periods",
    "Verif.Props.C99_periods_end"
   ],
   "note": ""
  },
  {
   "property": "C100",
   "status": "proved",
   "theorems": [
    "Verif.Props.C100_once",
    "Verif.Props.C100_keeps",
    "Verif.Props.C100_loses",
    "Verif.Props.C100_hash",
    "Verif.Props.C100_both"
   ],
   "note": ""
  },
  {
   "property": "C101",
   "status": "proved",
   "theorems": [
    "Verif.Props.C101_ethash",
    "Verif.Props.C101_progpow",
    "Verif.Props.C101_octopus",
    "Verif.Props.C101_item"
   ],
   "note": ""
  },
  {
   "property": "C102",
   "status": "proved",
   "theorems": [
    "Verif.Props.C102_points",
    "Verif.Props.C102_warp",
    "Verif.Props.C102_values",
    "Verif.Props.C102_nonce"
   ],
   "note": ""
  },
  {
   "property": "C103",
   "status": "proved",
   "theorems": [
    "Verif.Props.C103_parity",
    "Verif.Props.C103_lowest"
   ],
   "note": ""
  },
  {
   "property": "C104",
   "status": "proved",
   "theorems": [
    "Verif.Props.C104_indexes",
    "Verif.Props.C104_attempts",
    "Verif.Props.C104_rotation"
   ],
   "note": ""
  },
  {
   "property": "C105",
   "status": "proved",
   "theorems": [
    "Verif.Props.C105_bound",
    "Verif.Props.C105_no_matrix",
    "Verif.Props.C105_upper_bits",
    "Verif.Props.C105_entry",
    "Verif.Props.C105_nibble",
    "Verif.Props.C105_not_injective"
   ],
   "note": ""
  },
  {
   "property": "C106",
   "status": "proved",
   "theorems": [
    "Verif.Props.C106_call",
    "Verif.Props.C106_series",
    "Verif.Props.C106_reset_needed",
    "Verif.Props.C106_shared",
    "Verif.Props.C106_operations",
    "Verif.Props.C106_uninterrupted",
    "Verif.Props.C106_seed",
    "Verif.Props.C106_cache",
    "Verif.Props.C106_l1",
    "Verif.Props.C106_lookup"
   ],
   "note": ""
  },
  {
   "property": "C107",
   "status": "proved",
   "theorems": [
    "Verif.Props.C107_keccak",
    "Verif.Props.C107_cshake",
    "Verif.Props.C107_size",
    "Verif.Props.C107_domains",
    "Verif.Props.C107_heavy",
    "Verif.Props.C107_compute",
    "Verif.Props.C107_attempts",
    "Verif.Props.C107_keccak_blocks",
    "Verif.Props.C107_one_block",
    "Verif.Props.C107_keccakF"
   ],
   "note": ""
  },
  {
   "property": "C108",
   "status": "proved",
   "theorems": [
    "Verif.Props.C108_words",
    "Verif.Props.C108_prefix",
    "Verif.Props.C108_table",
    "Verif.Props.C108_specification"
   ],
   "note": ""
  }
 ]
}