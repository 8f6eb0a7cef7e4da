# Axioms of the theorems of MANIFEST.json

Output of `#print axioms`, collected by tools/axioms.py.

| Claim | Theorem | Axioms |
| --- | --- | --- |
| C01 | `Verif.Props.C01_cuckoo_verify_iff_cycle` | propext, Classical.choice, Quot.sound |
| C01 | `Verif.Props.C01_aeternity_verify_iff_cycle` | propext, Classical.choice, Quot.sound |
| C02 | `Verif.Props.C02_cuckaroo_verify_iff_cycle` | propext, Classical.choice, Quot.sound |
| C02 | `Verif.Props.C02_cortex_verify_iff_cycle` | propext, Classical.choice, Quot.sound |
| C03 | `Verif.Props.C03_cuckoo_terminates` | propext, Classical.choice, Quot.sound |
| C03 | `Verif.Props.C03_cuckaroo_terminates` | propext, Classical.choice, Quot.sound |
| C03 | `Verif.Props.C03_proofSize_zero_panics` | propext, Classical.choice, Quot.sound |
| C04 | `Verif.Props.C04_cuckoo_order_malleable` | propext, Classical.choice, Quot.sound |
| C04 | `Verif.Props.C04_cuckaroo_order_malleable` | propext, Classical.choice, Quot.sound |
| C05 | `Verif.Props.C05_accepted_distinct` | propext, Classical.choice, Quot.sound |
| C05 | `Verif.Props.C05_cuckaroo_accepted_distinct` | propext, Classical.choice, Quot.sound |
| C05 | `Verif.Props.C05_double_edge_accepted` | propext, Classical.choice, Quot.sound |
| C05 | `Verif.Props.C05_cuckaroo_double_edge_accepted` | propext, Classical.choice, Quot.sound |
| C06 | `Verif.Props.C06_sipRound` | propext, Quot.sound |
| C06 | `Verif.Props.C06_sipRound_bijective` | propext, Quot.sound |
| C06 | `Verif.Props.C06_hash24` | propext, Quot.sound |
| C06 | `Verif.Props.C06_hash48` | propext, Quot.sound |
| C06 | `Verif.Props.C06_sipNode` | propext, Quot.sound |
| C06 | `Verif.Props.C06_sipBlock48` | propext, Classical.choice, Quot.sound |
| C07 | `Verif.Props.C07_verify_iff` | propext, Classical.choice, Quot.sound |
| C07 | `Verif.Props.C07_published` | propext, Classical.choice, Quot.sound |
| C07 | `Verif.Props.C07_shipped` | propext, Classical.choice, Quot.sound |
| C07 | `Verif.Props.C07_reject` | propext, Classical.choice, Quot.sound |
| C08 | `Verif.Props.C08_accepted` | propext, Classical.choice, Quot.sound |
| C09 | `Verif.Props.C09_bijection` | propext, Classical.choice, Quot.sound |
| C09 | `Verif.Props.C09_injective` | propext, Classical.choice, Quot.sound |
| C10 | `Verif.Props.C10_canonical` | propext, Classical.choice, Quot.sound |
| C10 | `Verif.Props.C10_swapped_exists` | propext, Classical.choice, Quot.sound |
| C11 | `Verif.Props.C11_total` | propext, Classical.choice, Quot.sound |
| C12 | `Verif.Props.C12_expandArray` | propext, Classical.choice, Quot.sound |
| C12 | `Verif.Props.C12_identity` | propext, Classical.choice, Quot.sound |
| C12 | `Verif.Props.C12_lossy` | propext, Quot.sound |
| C13 | `Verif.Props.C13_generateHash` | propext, Classical.choice, Quot.sound |
| C14 | `Verif.Props.C14_verify_iff` | propext, Classical.choice, Quot.sound |
| C14 | `Verif.Props.C14_newBeam` | propext, Classical.choice, Quot.sound |
| C15 | `Verif.Props.C15_distinct` | propext, Classical.choice, Quot.sound |
| C15 | `Verif.Props.C15_canonical` | propext, Classical.choice, Quot.sound |
| C15 | `Verif.Props.C15_swapped_exists` | propext, Classical.choice, Quot.sound |
| C16 | `Verif.Props.C16_bijection` | propext, Classical.choice, Quot.sound |
| C16 | `Verif.Props.C16_extraNonce` | propext, Classical.choice, Quot.sound |
| C17 | `Verif.Props.C17_total` | propext, Classical.choice, Quot.sound |
| C17 | `Verif.Props.C17_wrong_length` | propext, Quot.sound |
| C18 | `Verif.Props.C18_remap` | propext, Classical.choice, Quot.sound |
| C18 | `Verif.Props.C18_primitive_root` | propext, Classical.choice, Quot.sound |
| C19 | `Verif.Props.C19_computeC` | propext, Classical.choice, Quot.sound |
| C19 | `Verif.Props.C19_derived` | propext, Classical.choice, Quot.sound |
| C20 | `Verif.Props.C20_coefficients` | propext, Classical.choice, Quot.sound |
| C20 | `Verif.Props.C20_same_warp` | propext, Classical.choice, Quot.sound |
| C20 | `Verif.Props.C20_values` | propext, Quot.sound |
| C20 | `Verif.Props.C20_octopus` | propext, Classical.choice, Quot.sound |
| C20 | `Verif.Props.C20_c_unique` | propext |
| C21 | `Verif.Props.C21_in_range` | propext, Classical.choice, Quot.sound |
| C21 | `Verif.Props.C21_small` | propext, Classical.choice, Quot.sound |
| C21 | `Verif.Props.C21_light` | propext, Classical.choice, Quot.sound |
| C22 | `Verif.Props.C22_hashimoto` | propext, Classical.choice, Quot.sound |
| C22 | `Verif.Props.C22_light` | propext, Classical.choice, Quot.sound |
| C23 | `Verif.Props.C23_in_range` | propext, Classical.choice, Quot.sound |
| C23 | `Verif.Props.C23_small` | propext, Classical.choice, Quot.sound |
| C24 | `Verif.Props.C24_keccakF800` | propext, Classical.choice, Quot.sound |
| C25 | `Verif.Props.C25_kawpow` | propext, Classical.choice, Quot.sound |
| C25 | `Verif.Props.C25_firopow` | propext, Classical.choice, Quot.sound |
| C25 | `Verif.Props.C25_progpow094` | propext, Classical.choice, Quot.sound |
| C26 | `Verif.Props.C26_total` | propext, Classical.choice, Quot.sound |
| C26 | `Verif.Props.C26_in_range` | propext, Classical.choice, Quot.sound |
| C26 | `Verif.Props.C26_small` | propext, Classical.choice, Quot.sound |
| C27 | `Verif.Props.C27_permutation` | propext, Classical.choice, Quot.sound |
| C27 | `Verif.Props.C27_operands` | propext, Classical.choice, Quot.sound |
| C28 | `Verif.Props.C28_hash` | propext, Quot.sound |
| C28 | `Verif.Props.C28_kawpow` | propext, Quot.sound |
| C28 | `Verif.Props.C28_progpow094` | propext, Quot.sound |
| C29 | `Verif.Props.C29_register` | propext, Classical.choice, Quot.sound |
| C29 | `Verif.Props.C29_data` | propext, Classical.choice, Quot.sound |
| C29 | `Verif.Props.C29_table` | propext, Classical.choice, Quot.sound |
| C30 | `Verif.Props.C30_math` | propext, Classical.choice, Quot.sound |
| C30 | `Verif.Props.C30_clz` | propext, Classical.choice, Quot.sound |
| C31 | `Verif.Props.C31_calcCacheSize` | propext, Classical.choice, Quot.sound |
| C31 | `Verif.Props.C31_calcDatasetSize` | propext, Classical.choice, Quot.sound |
| C31 | `Verif.Props.C31_shipped_cache` | propext, Classical.choice, Quot.sound |
| C31 | `Verif.Props.C31_shipped_dataset` | propext, Classical.choice, Quot.sound |
| C31 | `Verif.Props.C31_CacheSize` | propext, Classical.choice, Quot.sound |
| C31 | `Verif.Props.C31_DatasetSize` | propext, Classical.choice, Quot.sound |
| C32 | `Verif.Props.C32_tables` | propext, Classical.choice, Quot.sound |
| C32 | `Verif.Props.C32_cache_agree` | propext, Classical.choice, Quot.sound |
| C32 | `Verif.Props.C32_dataset_agree` | propext, Classical.choice, Quot.sound |
| C33 | `Verif.Props.C33_cacheSize_panics_iff` | propext, Classical.choice, Quot.sound |
| C33 | `Verif.Props.C33_datasetSize_panics_iff` | propext, Classical.choice, Quot.sound |
| C34 | `Verif.Props.C34_etc_panics` | propext, Classical.choice, Quot.sound |
| C34 | `Verif.Props.C34_etc_table` | propext, Classical.choice, Quot.sound |
| C35 | `Verif.Props.C35_format` | propext, Classical.choice, Quot.sound |
| C35 | `Verif.Props.C35_complete_iff` | propext, Classical.choice, Quot.sound |
| C35 | `Verif.Props.C35_regenerate_cache` | propext, Classical.choice, Quot.sound |
| C35 | `Verif.Props.C35_regenerate_dataset` | propext, Classical.choice, Quot.sound |
| C36 | `Verif.Props.C36_calcEpoch` | propext, Quot.sound |
| C36 | `Verif.Props.C36_calcEpoch_zero` | propext |
| C36 | `Verif.Props.C36_seedHash` | propext, Quot.sound |
| C36 | `Verif.Props.C36_epoch_seed` | propext, Classical.choice, Quot.sound |
| C36 | `Verif.Props.C36_seed_wraps` | propext, Quot.sound |
| C37 | `Verif.Props.C37_generateCache` | propext, Classical.choice, Quot.sound |
| C37 | `Verif.Props.C37_rows` | propext, Classical.choice, Quot.sound |
| C37 | `Verif.Props.C37_empty` | propext, Quot.sound |
| C37 | `Verif.Props.C37_xorBytes` | propext, Classical.choice, Quot.sound |
| C38 | `Verif.Props.C38_generateDatasetItem` | propext, Classical.choice, Quot.sound |
| C38 | `Verif.Props.C38_no_row` | propext, Quot.sound |
| C38 | `Verif.Props.C38_whole_rows` | propext, Classical.choice, Quot.sound |
| C39 | `Verif.Props.C39_lookups` | propext, Classical.choice, Quot.sound |
| C39 | `Verif.Props.C39_l1` | propext, Classical.choice, Quot.sound |
| C39 | `Verif.Props.C39_l1_lookup` | propext, Classical.choice, Quot.sound |
| C40 | `Verif.Props.C40_returned` | propext, Classical.choice, Quot.sound |
| C40 | `Verif.Props.C40_map` | propext, Classical.choice, Quot.sound |
| C40 | `Verif.Props.C40_published` | propext, Classical.choice, Quot.sound |
| C40 | `Verif.Props.C40_shared` | propext, Classical.choice, Quot.sound |
| C41 | `Verif.Props.C41_bound` | propext, Classical.choice, Quot.sound |
| C41 | `Verif.Props.C41_no_panic` | propext, Classical.choice, Quot.sound |
| C41 | `Verif.Props.C41_nonpositive` | propext, Classical.choice, Quot.sound |
| C41 | `Verif.Props.C41_stuck` | propext |
| C42 | `Verif.Props.C42_evicted` | propext, Classical.choice, Quot.sound |
| C42 | `Verif.Props.C42_lru` | propext, Classical.choice, Quot.sound |
| C43 | `Verif.Props.C43_once` | propext, Classical.choice, Quot.sound |
| C43 | `Verif.Props.C43_stable` | propext, Classical.choice, Quot.sound |
| C44 | `Verif.Props.C44_files` | propext, Classical.choice, Quot.sound |
| C44 | `Verif.Props.C44_result` | propext, Classical.choice, Quot.sound |
| C44 | `Verif.Props.C44_kept` | propext, Classical.choice, Quot.sound |
| C44 | `Verif.Props.C44_stable` | propext, Classical.choice, Quot.sound |
| C44 | `Verif.Props.C44_reached` | propext, Classical.choice, Quot.sound |
| C45 | `Verif.Props.C45_distinct` | propext, Classical.choice, Quot.sound |
| C45 | `Verif.Props.C45_clash` | propext, Classical.choice, Quot.sound |
| C46 | `Verif.Props.C46_accepted_iff` | propext, Classical.choice, Quot.sound |
| C46 | `Verif.Props.C46_rejected` | propext, Classical.choice, Quot.sound |
| C46 | `Verif.Props.C46_short` | propext, Classical.choice, Quot.sound |
| C46 | `Verif.Props.C46_memoryMap` | propext |
| C47 | `Verif.Props.C47_generate` | propext, Classical.choice, Quot.sound |
| C47 | `Verif.Props.C47_sound` | propext, Classical.choice, Quot.sound |
| C47 | `Verif.Props.C47_agree` | propext, Classical.choice, Quot.sound |
| C48 | `Verif.Props.C48_cleanup` | propext, Classical.choice, Quot.sound |
| C48 | `Verif.Props.C48_removed` | propext, Classical.choice, Quot.sound |
| C48 | `Verif.Props.C48_survive` | propext, Classical.choice, Quot.sound |
| C48 | `Verif.Props.C48_foreign` | propext, Classical.choice, Quot.sound |
| C49 | `Verif.Props.C49_zero_hash` | propext, Classical.choice, Quot.sound |
| C49 | `Verif.Props.C49_other_hash` | propext, Classical.choice, Quot.sound |
| C49 | `Verif.Props.C49_returns` | propext, Classical.choice, Quot.sound |
| C50 | `Verif.Props.C50_compute` | propext, Classical.choice, Quot.sound |
| C50 | `Verif.Props.C50_exact` | propext, Classical.choice, Quot.sound |
| C50 | `Verif.Props.C50_bound` | propext, Quot.sound |
| C51 | `Verif.Props.C51_next` | propext, Quot.sound |
| C51 | `Verif.Props.C51_bijective` | propext, Classical.choice, Quot.sound |
| C51 | `Verif.Props.C51_fixed_point` | propext, Quot.sound |
| C51 | `Verif.Props.C51_never_zero` | propext, Classical.choice, Quot.sound |
| C52 | `Verif.Props.C52_rank` | propext, Classical.choice, Quot.sound |
| C53 | `Verif.Props.C53_size` | propext, Quot.sound |
| C53 | `Verif.Props.C53_constant` | propext, Quot.sound |
| C53 | `Verif.Props.C53_step` | propext, Quot.sound |
| C53 | `Verif.Props.C53_period` | propext, Quot.sound |
| C53 | `Verif.Props.C53_monotone` | propext, Quot.sound |
| C53 | `Verif.Props.C53_final` | propext, Quot.sound |
| C54 | `Verif.Props.C54_compute` | propext, Classical.choice, Quot.sound |
| C54 | `Verif.Props.C54_index_lt` | propext, Classical.choice, Quot.sound |
| C54 | `Verif.Props.C54_minimal` | propext, Quot.sound |
| C54 | `Verif.Props.C54_width` | propext, Classical.choice, Quot.sound |
| C54 | `Verif.Props.C54_too_many_indexes` | propext, Classical.choice, Quot.sound |
| C55 | `Verif.Props.C55_alias` | propext, Quot.sound |
| C56 | `Verif.Props.C56_permute_bijective` | propext, Classical.choice, Quot.sound |
| C56 | `Verif.Props.C56_permute_spec` | propext, Classical.choice, Quot.sound |
| C56 | `Verif.Props.C56_too_many_rounds` | propext, Classical.choice, Quot.sound |
| C57 | `Verif.Props.C57_compute` | propext, Classical.choice, Quot.sound |
| C57 | `Verif.Props.C57_rounds_delim` | propext, Classical.choice, Quot.sound |
| C57 | `Verif.Props.C57_zero_rate` | propext, Quot.sound |
| C58 | `Verif.Props.C58_collision` | propext, Classical.choice, Quot.sound |
| C58 | `Verif.Props.C58_append_zeros` | propext, Classical.choice, Quot.sound |
| C58 | `Verif.Props.C58_absorbed_iff` | propext, Classical.choice, Quot.sound |
| C58 | `Verif.Props.C58_equal_length` | propext, Classical.choice, Quot.sound |
| C59 | `Verif.Props.C59_xorBytes` | propext, Classical.choice, Quot.sound |
| C59 | `Verif.Props.C59_xorBytes_contents` | propext, Classical.choice, Quot.sound |
| C59 | `Verif.Props.C59_builds_agree` | propext, Classical.choice, Quot.sound |
| C60 | `Verif.Props.C60_bytes_of_words_roundtrip` | propext, Classical.choice, Quot.sound |
| C60 | `Verif.Props.C60_words_of_bytes_roundtrip` | propext, Classical.choice, Quot.sound |
| C60 | `Verif.Props.C60_words_value` | propext, Classical.choice, Quot.sound |
| C60 | `Verif.Props.C60_words_value_big` | propext, Classical.choice, Quot.sound |
| C60 | `Verif.Props.C60_uint32ToBytes` | propext, Classical.choice, Quot.sound |
| C60 | `Verif.Props.C60_uint64ToBytes` | propext, Classical.choice, Quot.sound |
| C61 | `Verif.Props.C61_ethash` | propext, Classical.choice, Quot.sound |
| C61 | `Verif.Props.C61_kawpow` | propext, Classical.choice, Quot.sound |
| C61 | `Verif.Props.C61_firopow` | propext, Classical.choice, Quot.sound |
| C61 | `Verif.Props.C61_octopus` | propext, Classical.choice, Quot.sound |
| C61 | `Verif.Props.C61_heavyhash` | propext, Classical.choice, Quot.sound |
| C61 | `Verif.Props.C61_beam` | propext, Classical.choice, Quot.sound |
| C61 | `Verif.Props.C61_cuckoo` | propext, Quot.sound |
| C61 | `Verif.Props.C61_autolykos` | propext |
| C62 | `Verif.Props.C62_fnv1_value` | propext, Quot.sound |
| C62 | `Verif.Props.C62_fnv1a_value` | propext, Quot.sound |
| C62 | `Verif.Props.C62_fnv1Uint64_value` | propext, Quot.sound |
| C62 | `Verif.Props.C62_fnv1_bijective` | propext, Quot.sound |
| C62 | `Verif.Props.C62_fnv1a_bijective` | propext, Quot.sound |
| C62 | `Verif.Props.C62_fnv1Uint64_bijective` | propext, Quot.sound |
| C62 | `Verif.Props.C62_fnvHash` | propext, Classical.choice, Quot.sound |
| C63 | `Verif.Props.C63_hash` | propext, Classical.choice, Quot.sound |
| C63 | `Verif.Props.C63_kawpow` | propext, Classical.choice, Quot.sound |
| C63 | `Verif.Props.C63_firopow` | propext, Classical.choice, Quot.sound |
| C63 | `Verif.Props.C63_progpow094` | propext, Classical.choice, Quot.sound |
| C64 | `Verif.Props.C64_ethash_of` | propext, Classical.choice, Quot.sound |
| C64 | `Verif.Props.C64_kawpow_of` | propext, Classical.choice, Quot.sound |
| C64 | `Verif.Props.C64_firopow_of` | propext, Classical.choice, Quot.sound |
| C64 | `Verif.Props.C64_octopus_of` | propext, Classical.choice, Quot.sound |
| C64 | `Verif.Props.C64_ethereum` | propext, Classical.choice, Quot.sound |
| C64 | `Verif.Props.C64_ethereumClassic` | propext, Classical.choice, Quot.sound |
| C64 | `Verif.Props.C64_ravencoin` | propext, Classical.choice, Quot.sound |
| C64 | `Verif.Props.C64_firo` | propext, Classical.choice, Quot.sound |
| C64 | `Verif.Props.C64_conflux` | propext, Classical.choice, Quot.sound |
| C64 | `Verif.Props.C64_unique` | propext, Quot.sound |
| C64 | `Verif.Props.C64_panics` | propext, Classical.choice, Quot.sound |
| C64 | `Verif.Props.C64_concurrent` | propext, Classical.choice, Quot.sound |
| C64 | `Verif.Props.C64_shared` | propext, Classical.choice, Quot.sound |
| C65 | `Verif.Props.C65_work` | propext, Quot.sound |
| C65 | `Verif.Props.C65_progress` | propext, Classical.choice, Quot.sound |
| C65 | `Verif.Props.C65_done` | propext, Quot.sound |
| C66 | `Verif.Props.C66_body` | propext, Classical.choice, Quot.sound |
| C66 | `Verif.Props.C66_crash` | propext, Classical.choice, Quot.sound |
| C67 | `Verif.Props.C67_no_fault` | propext, Quot.sound |
| C67 | `Verif.Props.C67_mapped` | propext, Quot.sound |
| C67 | `Verif.Props.C67_needed` | propext |
| C67 | `Verif.Props.C67_collected` | propext |
| C68 | `Verif.Props.C68_ahead` | propext, Classical.choice, Quot.sound |
| C68 | `Verif.Props.C68_next` | propext, Classical.choice, Quot.sound |
| C68 | `Verif.Props.C68_distinct` | propext, Classical.choice, Quot.sound |
| C69 | `Verif.Props.C69_bijective` | propext, Classical.choice, Quot.sound |
| C69 | `Verif.Props.C69_seed` | propext, Classical.choice, Quot.sound |
| C70 | `Verif.Props.C70_atomic` | propext, Classical.choice, Quot.sound |
| C70 | `Verif.Props.C70_exclusive` | propext |
| C70 | `Verif.Props.C70_returned` | propext, Classical.choice, Quot.sound |
| C70 | `Verif.Props.C70_release` | propext, Classical.choice, Quot.sound |
| C71 | `Verif.Props.C71_ethash_quick` | propext, Classical.choice, Quot.sound |
| C71 | `Verif.Props.C71_ethash_binds` | propext, Classical.choice, Quot.sound |
| C71 | `Verif.Props.C71_octopus_inputs` | propext, Classical.choice, Quot.sound |
| C71 | `Verif.Props.C71_octopus_binds` | propext, Classical.choice, Quot.sound |
| C71 | `Verif.Props.C71_kawpow_quick` | propext, Classical.choice, Quot.sound |
| C71 | `Verif.Props.C71_firopow_quick` | propext, Classical.choice, Quot.sound |
| C72 | `Verif.Props.C72_returns` | propext, Classical.choice, Quot.sound |
| C72 | `Verif.Props.C72_shipped` | propext, Classical.choice, Quot.sound |
| C72 | `Verif.Props.C72_rejected` | propext, Classical.choice, Quot.sound |
| C72 | `Verif.Props.C72_k_max` | propext, Classical.choice, Quot.sound |
| C72 | `Verif.Props.C72_no_index` | propext, Classical.choice, Quot.sound |
| C72 | `Verif.Props.C72_n_large` | propext, Classical.choice, Quot.sound |
| C72 | `Verif.Props.C72_blake` | propext, Classical.choice, Quot.sound |
| C72 | `Verif.Props.C72_forever` | propext, Classical.choice, Quot.sound |
| C73 | `Verif.Props.C73_file` | propext, Classical.choice, Quot.sound |
| C73 | `Verif.Props.C73_nothing` | propext, Classical.choice, Quot.sound |
| C73 | `Verif.Props.C73_shipped` | propext, Classical.choice, Quot.sound |
| C74 | `Verif.Props.C74_exact` | propext, Classical.choice, Quot.sound |
| C74 | `Verif.Props.C74_stops` | propext, Classical.choice, Quot.sound |
| C74 | `Verif.Props.C74_client` | propext, Classical.choice, Quot.sound |
| C75 | `Verif.Props.C75_size` | propext, Quot.sound |
| C75 | `Verif.Props.C75_empty_iff` | propext, Classical.choice, Quot.sound |
| C75 | `Verif.Props.C75_compute` | propext, Classical.choice, Quot.sound |
| C75 | `Verif.Props.C75_returns_iff` | propext, Classical.choice, Quot.sound |
| C75 | `Verif.Props.C75_exact` | propext, Classical.choice, Quot.sound |
| C75 | `Verif.Props.C75_monotone` | propext, Classical.choice, Quot.sound |
| C75 | `Verif.Props.C75_final` | propext, Classical.choice, Quot.sound |
| C75 | `Verif.Props.C75_jump_iff` | propext, Classical.choice, Quot.sound |
| C75 | `Verif.Props.C75_no_index` | propext, Classical.choice, Quot.sound |
| C76 | `Verif.Props.C76_index` | propext, Classical.choice, Quot.sound |
| C76 | `Verif.Props.C76_negative_capacity` | propext, Classical.choice, Quot.sound |
| C76 | `Verif.Props.C76_small_rate` | propext, Classical.choice, Quot.sound |
| C76 | `Verif.Props.C76_negative_rate` | propext, Quot.sound |
| C76 | `Verif.Props.C76_wrapped` | propext, Quot.sound |
| C76 | `Verif.Props.C76_overflow` | propext, Classical.choice, Quot.sound |
| C76 | `Verif.Props.C76_value` | propext, Classical.choice, Quot.sound |
| C76 | `Verif.Props.C76_returns_iff` | propext, Classical.choice, Quot.sound |
| C76 | `Verif.Props.C76_total` | propext, Classical.choice, Quot.sound |
| C76 | `Verif.Props.C76_depends` | propext, Classical.choice, Quot.sound |
| C76 | `Verif.Props.C76_unique` | propext, Classical.choice, Quot.sound |
| C76 | `Verif.Props.C76_words` | propext, Classical.choice, Quot.sound |
| C76 | `Verif.Props.C76_constant` | propext, Classical.choice, Quot.sound |
| C77 | `Verif.Props.C77_bytes` | propext, Classical.choice, Quot.sound |
| C77 | `Verif.Props.C77_words` | propext, Classical.choice, Quot.sound |
| C77 | `Verif.Props.C77_right_iff` | propext, Classical.choice, Quot.sound |
| C77 | `Verif.Props.C77_l1` | propext, Classical.choice, Quot.sound |
| C77 | `Verif.Props.C77_lookup` | propext, Classical.choice, Quot.sound |
| C77 | `Verif.Props.C77_differs` | propext, Classical.choice, Quot.sound |
| C77 | `Verif.Props.C77_file` | propext, Classical.choice, Quot.sound |
| C77 | `Verif.Props.C77_accepted_iff` | propext, Classical.choice, Quot.sound |
| C77 | `Verif.Props.C77_foreign` | propext, Classical.choice, Quot.sound |
| C77 | `Verif.Props.C77_own` | propext, Classical.choice, Quot.sound |
| C78 | `Verif.Props.C78_cuckoo_errors` | propext, Classical.choice, Quot.sound |
| C78 | `Verif.Props.C78_cuckaroo_errors` | propext, Classical.choice, Quot.sound |
| C78 | `Verif.Props.C78_path_ends` | propext, Classical.choice, Quot.sound |
| C78 | `Verif.Props.C78_order` | propext, Classical.choice, Quot.sound |
| C78 | `Verif.Props.C78_nil_hash` | propext, Classical.choice, Quot.sound |
| C78 | `Verif.Props.C78_wrong_length` | propext, Quot.sound |
| C78 | `Verif.Props.C78_negative_proofSize` | propext, Quot.sound |
| C78 | `Verif.Props.C78_zero_proofSize` | propext, Classical.choice, Quot.sound |
| C78 | `Verif.Props.C78_wide_mask` | propext, Classical.choice, Quot.sound |
| C78 | `Verif.Props.C78_constructors` | propext, Quot.sound |
| C79 | `Verif.Props.C79_race_free` | propext, Classical.choice, Quot.sound |
| C79 | `Verif.Props.C79_memory` | propext, Classical.choice, Quot.sound |
| C79 | `Verif.Props.C79_finalizer_last` | propext, Classical.choice, Quot.sound |
| C79 | `Verif.Props.C79_erase` | propext |
| C79 | `Verif.Props.C79_lift` | propext, Quot.sound |
| C79 | `Verif.Props.C79_executions` | propext, Quot.sound |
| C79 | `Verif.Props.C79_writes` | propext, Quot.sound |
| C79 | `Verif.Props.C79_finalizer_unordered` | propext, Classical.choice, Quot.sound |
| C80 | `Verif.Props.C80_equihash_length` | propext, Classical.choice, Quot.sound |
| C80 | `Verif.Props.C80_equihash_panic` | propext, Classical.choice, Quot.sound |
| C80 | `Verif.Props.C80_equihash_collision` | propext, Classical.choice, Quot.sound |
| C80 | `Verif.Props.C80_equihash_order` | propext, Classical.choice, Quot.sound |
| C80 | `Verif.Props.C80_equihash_duplicate` | propext, Classical.choice, Quot.sound |
| C80 | `Verif.Props.C80_equihash_nil` | propext, Classical.choice, Quot.sound |
| C80 | `Verif.Props.C80_equihash_only` | propext, Classical.choice, Quot.sound |
| C80 | `Verif.Props.C80_equihash_swap` | propext, Classical.choice, Quot.sound |
| C80 | `Verif.Props.C80_equihash_equal` | propext, Classical.choice, Quot.sound |
| C80 | `Verif.Props.C80_beam_lengths` | propext, Classical.choice, Quot.sound |
| C80 | `Verif.Props.C80_beam_collision` | propext, Classical.choice, Quot.sound |
| C80 | `Verif.Props.C80_beam_order` | propext, Classical.choice, Quot.sound |
| C80 | `Verif.Props.C80_beam_duplicate` | propext, Classical.choice, Quot.sound |
| C80 | `Verif.Props.C80_beam_nil` | propext, Classical.choice, Quot.sound |
| C80 | `Verif.Props.C80_beam_swap` | propext, Classical.choice, Quot.sound |
| C80 | `Verif.Props.C80_beam_equal` | propext, Classical.choice, Quot.sound |
| C80 | `Verif.Props.C80_beam_personal` | propext, Classical.choice, Quot.sound |
| C81 | `Verif.Props.C81_mul` | propext, Classical.choice, Quot.sound |
| C81 | `Verif.Props.C81_div` | propext, Classical.choice, Quot.sound |
| C81 | `Verif.Props.C81_sub` | propext, Classical.choice, Quot.sound |
| C81 | `Verif.Props.C81_fused` | propext, Classical.choice, Quot.sound |
| C81 | `Verif.Props.C81_determined` | propext, Classical.choice, Quot.sound |
| C81 | `Verif.Props.C81_entry` | propext, Classical.choice, Quot.sound |
| C81 | `Verif.Props.C81_compare` | propext, Classical.choice, Quot.sound |
| C81 | `Verif.Props.C81_returns` | propext, Classical.choice, Quot.sound |
| C81 | `Verif.Props.C81_zero_row` | propext, Classical.choice, Quot.sound |
| C81 | `Verif.Props.C81_zero_column` | propext, Classical.choice, Quot.sound |
| C81 | `Verif.Props.C81_triangular` | propext, Classical.choice, Quot.sound |
| C81 | `Verif.Props.C81_zero_hash` | propext, Classical.choice, Quot.sound |
| C81 | `Verif.Props.C81_too_low` | propext, Classical.choice, Quot.sound |
| C81 | `Verif.Props.C81_too_high` | propext, Classical.choice, Quot.sound |
| C81 | `Verif.Props.C81_fusion` | propext, Classical.choice, Quot.sound |
| C81 | `Verif.Props.C81_nibbles` | propext, Quot.sound |
| C82 | `Verif.Props.C82_clean` | propext, Quot.sound |
| C82 | `Verif.Props.C82_unique` | propext, Quot.sound |
| C82 | `Verif.Props.C82_join` | propext, Quot.sound |
| C82 | `Verif.Props.C82_same_path` | propext, Quot.sound |
| C82 | `Verif.Props.C82_directory` | propext, Classical.choice, Quot.sound |
| C82 | `Verif.Props.C82_names` | propext, Classical.choice, Quot.sound |
| C82 | `Verif.Props.C82_faithful` | propext, Classical.choice, Quot.sound |
| C82 | `Verif.Props.C82_exact` | propext, Classical.choice, Quot.sound |
| C82 | `Verif.Props.C82_default` | propext, Classical.choice, Quot.sound |
| C82 | `Verif.Props.C82_clients` | propext, Classical.choice, Quot.sound |
| C82 | `Verif.Props.C82_slash` | propext, Classical.choice, Quot.sound |
| C83 | `Verif.Props.C83_kept` | propext |
| C83 | `Verif.Props.C83_apart` | propext, Quot.sound |
| C83 | `Verif.Props.C83_autolykos` | propext, Classical.choice, Quot.sound |
| C83 | `Verif.Props.C83_heavyhash` | propext, Classical.choice, Quot.sound |
| C83 | `Verif.Props.C83_eaglesong` | propext, Classical.choice, Quot.sound |
| C83 | `Verif.Props.C83_cuckoo` | propext, Classical.choice, Quot.sound |
| C83 | `Verif.Props.C83_equihash` | propext, Classical.choice, Quot.sound |
| C83 | `Verif.Props.C83_beam` | propext, Classical.choice, Quot.sound |
| C83 | `Verif.Props.C83_ethash` | propext, Classical.choice, Quot.sound |
| C83 | `Verif.Props.C83_kawpow` | propext, Classical.choice, Quot.sound |
| C83 | `Verif.Props.C83_firopow` | propext, Classical.choice, Quot.sound |
| C83 | `Verif.Props.C83_octopus` | propext, Classical.choice, Quot.sound |
| C83 | `Verif.Props.C83_progpow094` | propext, Classical.choice, Quot.sound |
| C83 | `Verif.Props.C83_spare` | propext, Quot.sound |
| C84 | `Verif.Props.C84_long` | propext, Classical.choice, Quot.sound |
| C84 | `Verif.Props.C84_shipped` | propext, Classical.choice, Quot.sound |
| C84 | `Verif.Props.C84_appended` | propext, Classical.choice, Quot.sound |
| C85 | `Verif.Props.C85_autolykos` | propext, Classical.choice, Quot.sound |
| C85 | `Verif.Props.C85_heavyhash` | propext, Classical.choice, Quot.sound |
| C85 | `Verif.Props.C85_eaglesong` | propext, Classical.choice, Quot.sound |
| C85 | `Verif.Props.C85_cuckoo` | propext, Classical.choice, Quot.sound |
| C85 | `Verif.Props.C85_equihash` | propext, Classical.choice, Quot.sound |
| C85 | `Verif.Props.C85_beam` | propext, Classical.choice, Quot.sound |
| C85 | `Verif.Props.C85_ethash` | propext, Classical.choice, Quot.sound |
| C85 | `Verif.Props.C85_kawpow` | propext, Classical.choice, Quot.sound |
| C85 | `Verif.Props.C85_firopow` | propext, Classical.choice, Quot.sound |
| C85 | `Verif.Props.C85_octopus` | propext, Classical.choice, Quot.sound |
| C85 | `Verif.Props.C85_generate` | propext, Classical.choice, Quot.sound |
| C85 | `Verif.Props.C85_item` | propext, Classical.choice, Quot.sound |
| C85 | `Verif.Props.C85_survives` | propext |
| C86 | `Verif.Props.C86_cache` | propext, Classical.choice, Quot.sound |
| C86 | `Verif.Props.C86_l1` | propext, Classical.choice, Quot.sound |
| C86 | `Verif.Props.C86_generate` | propext, Classical.choice, Quot.sound |
| C86 | `Verif.Props.C86_kept` | propext, Classical.choice, Quot.sound |
| C86 | `Verif.Props.C86_compute` | propext, Classical.choice, Quot.sound |
| C86 | `Verif.Props.C86_silent` | propext, Classical.choice, Quot.sound |
| C86 | `Verif.Props.C86_directory` | propext, Classical.choice, Quot.sound |
| C87 | `Verif.Props.C87_autolykos` | propext, Quot.sound |
| C87 | `Verif.Props.C87_heavy` | propext, Classical.choice, Quot.sound |
| C87 | `Verif.Props.C87_cuckoo` | propext, Quot.sound |
| C87 | `Verif.Props.C87_beam` | propext, Quot.sound |
| C87 | `Verif.Props.C87_equihash` | propext, Classical.choice, Quot.sound |
| C87 | `Verif.Props.C87_items` | propext, Quot.sound |
| C87 | `Verif.Props.C87_item` | propext, Quot.sound |
| C87 | `Verif.Props.C87_ethash` | propext, Classical.choice, Quot.sound |
| C87 | `Verif.Props.C87_octopus` | propext, Classical.choice, Quot.sound |
| C87 | `Verif.Props.C87_kawpow` | propext, Classical.choice, Quot.sound |
| C87 | `Verif.Props.C87_firopow` | propext, Classical.choice, Quot.sound |
| C87 | `Verif.Props.C87_ethash_words` | propext, Classical.choice, Quot.sound |
| C87 | `Verif.Props.C87_octopus_words` | propext, Classical.choice, Quot.sound |
| C87 | `Verif.Props.C87_progpow_words` | propext, Classical.choice, Quot.sound |
| C87 | `Verif.Props.C87_l1_words` | propext, Classical.choice, Quot.sound |
| C87 | `Verif.Props.C87_seed` | propext, Quot.sound |
| C87 | `Verif.Props.C87_cache` | propext, Quot.sound |
| C87 | `Verif.Props.C87_unread` | propext, Classical.choice, Quot.sound |
| C88 | `Verif.Props.C88_files` | propext, Classical.choice, Quot.sound |
| C88 | `Verif.Props.C88_result` | propext, Classical.choice, Quot.sound |
| C88 | `Verif.Props.C88_torn` | propext, Classical.choice, Quot.sound |
| C88 | `Verif.Props.C88_mended` | propext, Classical.choice, Quot.sound |
| C88 | `Verif.Props.C88_wrong` | propext, Classical.choice, Quot.sound |
| C88 | `Verif.Props.C88_compute` | propext, Classical.choice, Quot.sound |
| C89 | `Verif.Props.C89_kept` | propext, Classical.choice, Quot.sound |
| C89 | `Verif.Props.C89_falling` | propext, Quot.sound |
| C89 | `Verif.Props.C89_unbounded` | propext, Classical.choice, Quot.sound |
| C89 | `Verif.Props.C89_rising` | propext, Classical.choice, Quot.sound |
| C89 | `Verif.Props.C89_leftover` | propext, Classical.choice, Quot.sound |
| C89 | `Verif.Props.C89_forever` | propext, Classical.choice, Quot.sound |
| C90 | `Verif.Props.C90_judged` | propext, Classical.choice, Quot.sound |
| C90 | `Verif.Props.C90_capacity` | propext, Classical.choice, Quot.sound |
| C90 | `Verif.Props.C90_panics` | propext, Classical.choice, Quot.sound |
| C91 | `Verif.Props.C91_64` | propext, Classical.choice, Quot.sound |
| C91 | `Verif.Props.C91_generate` | propext, Classical.choice, Quot.sound |
| C91 | `Verif.Props.C91_shipped` | propext, Classical.choice, Quot.sound |
| C91 | `Verif.Props.C91_seed` | propext, Quot.sound |
| C91 | `Verif.Props.C91_small` | propext, Quot.sound |
| C91 | `Verif.Props.C91_equihash` | propext, Quot.sound |
| C91 | `Verif.Props.C91_nervos` | propext, Classical.choice, Quot.sound |
| C91 | `Verif.Props.C91_nervos_same` | propext, Classical.choice, Quot.sound |
| C91 | `Verif.Props.C91_nervos_collide` | propext, Classical.choice, Quot.sound |
| C91 | `Verif.Props.C91_nervos_prefix` | propext, Classical.choice, Quot.sound |
| C92 | `Verif.Props.C92_cache` | propext, Classical.choice, Quot.sound |
| C92 | `Verif.Props.C92_cache_zero` | propext, Classical.choice, Quot.sound |
| C92 | `Verif.Props.C92_cache_small` | propext, Quot.sound |
| C92 | `Verif.Props.C92_cache_panics` | propext, Classical.choice, Quot.sound |
| C92 | `Verif.Props.C92_item` | propext, Classical.choice, Quot.sound |
| C92 | `Verif.Props.C92_item_rows` | propext |
| C92 | `Verif.Props.C92_ethash` | propext, Classical.choice, Quot.sound |
| C92 | `Verif.Props.C92_ethash_repeated` | propext, Classical.choice, Quot.sound |
| C92 | `Verif.Props.C92_ethash_light` | propext, Classical.choice, Quot.sound |
| C92 | `Verif.Props.C92_octopus` | propext, Classical.choice, Quot.sound |
| C92 | `Verif.Props.C92_progpow` | propext, Classical.choice, Quot.sound |
| C92 | `Verif.Props.C92_progpow_zero` | propext, Classical.choice, Quot.sound |
| C92 | `Verif.Props.C92_cache_epochs` | propext, Classical.choice, Quot.sound |
| C92 | `Verif.Props.C92_dataset_epochs` | propext, Classical.choice, Quot.sound |
| C92 | `Verif.Props.C92_last_epochs` | propext, Classical.choice, Quot.sound |
| C93 | `Verif.Props.C93_period` | propext, Classical.choice, Quot.sound |
| C93 | `Verif.Props.C93_orbit` | propext, Classical.choice, Quot.sound |
| C93 | `Verif.Props.C93_matrices` | propext, Classical.choice, Quot.sound |
| C93 | `Verif.Props.C93_returns` | propext, Classical.choice, Quot.sound |
| C93 | `Verif.Props.C93_iff` | propext, Classical.choice, Quot.sound |
| C93 | `Verif.Props.C93_exact` | propext, Classical.choice, Quot.sound |
| C94 | `Verif.Props.C94_generate` | propext, Classical.choice, Quot.sound |
| C94 | `Verif.Props.C94_life` | propext, Classical.choice, Quot.sound |
| C94 | `Verif.Props.C94_clean` | propext, Classical.choice, Quot.sound |
| C94 | `Verif.Props.C94_together` | propext, Classical.choice, Quot.sound |
| C94 | `Verif.Props.C94_leak` | propext, Classical.choice, Quot.sound |
| C95 | `Verif.Props.C95_cacheSize` | propext, Classical.choice, Quot.sound |
| C95 | `Verif.Props.C95_cacheSize_panics` | propext, Classical.choice, Quot.sound |
| C95 | `Verif.Props.C95_datasetSize` | propext, Classical.choice, Quot.sound |
| C95 | `Verif.Props.C95_datasetSize_zero` | propext, Classical.choice, Quot.sound |
| C95 | `Verif.Props.C95_datasetSize_hangs` | propext, Classical.choice, Quot.sound |
| C95 | `Verif.Props.C95_datasetSize_returns` | propext, Classical.choice, Quot.sound |
| C95 | `Verif.Props.C95_datasetSize_table` | propext, Classical.choice, Quot.sound |
| C95 | `Verif.Props.C95_published` | propext, Classical.choice, Quot.sound |
| C95 | `Verif.Props.C95_two_rows` | propext, Classical.choice, Quot.sound |
| C95 | `Verif.Props.C95_cache_two_rows` | propext, Classical.choice, Quot.sound |
| C95 | `Verif.Props.C95_cache_ragged` | propext, Quot.sound |
| C95 | `Verif.Props.C95_seedHash` | propext, Quot.sound |
| C95 | `Verif.Props.C95_generateCache` | propext, Classical.choice, Quot.sound |
| C95 | `Verif.Props.C95_generate` | propext, Classical.choice, Quot.sound |
| C95 | `Verif.Props.C95_generate_iff` | propext, Classical.choice, Quot.sound |
| C95 | `Verif.Props.C95_ethash` | propext, Classical.choice, Quot.sound |
| C95 | `Verif.Props.C95_ethash_iff` | propext, Classical.choice, Quot.sound |
| C95 | `Verif.Props.C95_octopus` | propext, Classical.choice, Quot.sound |
| C95 | `Verif.Props.C95_octopus_iff` | propext, Classical.choice, Quot.sound |
| C95 | `Verif.Props.C95_kawpow` | propext, Classical.choice, Quot.sound |
| C95 | `Verif.Props.C95_kawpow_noL1` | propext, Classical.choice, Quot.sound |
| C95 | `Verif.Props.C95_kawpow_only` | propext, Classical.choice, Quot.sound |
| C95 | `Verif.Props.C95_firopow` | propext, Classical.choice, Quot.sound |
| C95 | `Verif.Props.C95_firopow_noL1` | propext, Classical.choice, Quot.sound |
| C95 | `Verif.Props.C95_firopow_only` | propext, Classical.choice, Quot.sound |
| C96 | `Verif.Props.C96_generate` | propext, Classical.choice, Quot.sound |
| C96 | `Verif.Props.C96_same` | propext, Classical.choice, Quot.sound |
| C96 | `Verif.Props.C96_huge` | propext, Classical.choice, Quot.sound |
| C96 | `Verif.Props.C96_wraps` | propext, Classical.choice, Quot.sound |
| C96 | `Verif.Props.C96_ethash` | propext, Classical.choice, Quot.sound |
| C96 | `Verif.Props.C96_octopus` | propext, Classical.choice, Quot.sound |
| C96 | `Verif.Props.C96_kawpow` | propext, Classical.choice, Quot.sound |
| C96 | `Verif.Props.C96_firopow` | propext, Classical.choice, Quot.sound |
| C96 | `Verif.Props.C96_kawpow_unset` | propext, Classical.choice, Quot.sound |
| C96 | `Verif.Props.C96_firopow_unset` | propext, Classical.choice, Quot.sound |
| C97 | `Verif.Props.C97_negative` | propext, Quot.sound |
| C97 | `Verif.Props.C97_returns` | propext, Classical.choice, Quot.sound |
| C97 | `Verif.Props.C97_index` | propext, Classical.choice, Quot.sound |
| C97 | `Verif.Props.C97_divides` | propext, Classical.choice, Quot.sound |
| C97 | `Verif.Props.C97_iff` | propext, Classical.choice, Quot.sound |
| C97 | `Verif.Props.C97_no_rounds` | propext, Classical.choice, Quot.sound |
| C97 | `Verif.Props.C97_value` | propext, Classical.choice, Quot.sound |
| C98 | `Verif.Props.C98_writes` | propext, Classical.choice, Quot.sound |
| C98 | `Verif.Props.C98_no_package` | propext, Classical.choice, Quot.sound |
| C98 | `Verif.Props.C98_negative` | propext, Classical.choice, Quot.sound |
| C98 | `Verif.Props.C98_mix_zero` | propext, Classical.choice, Quot.sound |
| C98 | `Verif.Props.C98_mix_huge` | propext, Classical.choice, Quot.sound |
| C98 | `Verif.Props.C98_unfit` | propext, Classical.choice, Quot.sound |
| C98 | `Verif.Props.C98_missing` | propext, Classical.choice, Quot.sound |
| C98 | `Verif.Props.C98_undefined` | propext, Classical.choice, Quot.sound |
| C98 | `Verif.Props.C98_octal` | propext, Classical.choice, Quot.sound |
| C98 | `Verif.Props.C98_octal_rejects` | propext, Classical.choice, Quot.sound |
| C98 | `Verif.Props.C98_generate` | propext, Classical.choice, Quot.sound |
| C99 | `Verif.Props.C99_repeat` | propext, Classical.choice, Quot.sound |
| C99 | `Verif.Props.C99_long` | propext, Classical.choice, Quot.sound |
| C99 | `Verif.Props.C99_returns` | propext, Classical.choice, Quot.sound |
| C99 | `Verif.Props.C99_longest` | propext, Classical.choice, Quot.sound |
| C99 | `Verif.Props.C99_rest` | propext, Classical.choice, Quot.sound |
| C99 | `Verif.Props.C99_register` | propext, Classical.choice, Quot.sound |
| C99 | `Verif.Props.C99_seed` | propext, Classical.choice, Quot.sound |
| C99 | `Verif.Props.C99_periods` | propext, Classical.choice, Quot.sound |
| C99 | `Verif.Props.C99_periods_end` | propext, Classical.choice, Quot.sound |
| C100 | `Verif.Props.C100_once` | propext, Classical.choice, Quot.sound |
| C100 | `Verif.Props.C100_keeps` | propext, Classical.choice, Quot.sound |
| C100 | `Verif.Props.C100_loses` | propext, Classical.choice, Quot.sound |
| C100 | `Verif.Props.C100_hash` | propext, Classical.choice, Quot.sound |
| C100 | `Verif.Props.C100_both` | propext, Classical.choice, Quot.sound |
| C101 | `Verif.Props.C101_ethash` | propext, Classical.choice, Quot.sound |
| C101 | `Verif.Props.C101_progpow` | propext, Classical.choice, Quot.sound |
| C101 | `Verif.Props.C101_octopus` | propext, Classical.choice, Quot.sound |
| C101 | `Verif.Props.C101_item` | propext, Classical.choice, Quot.sound |
| C102 | `Verif.Props.C102_points` | propext, Classical.choice, Quot.sound |
| C102 | `Verif.Props.C102_warp` | propext, Classical.choice, Quot.sound |
| C102 | `Verif.Props.C102_values` | propext, Classical.choice, Quot.sound |
| C102 | `Verif.Props.C102_nonce` | propext, Classical.choice, Quot.sound |
| C103 | `Verif.Props.C103_parity` | propext, Classical.choice, Quot.sound |
| C103 | `Verif.Props.C103_lowest` | propext, Classical.choice, Quot.sound |
| C104 | `Verif.Props.C104_indexes` | propext, Classical.choice, Quot.sound |
| C104 | `Verif.Props.C104_attempts` | propext, Classical.choice, Quot.sound |
| C104 | `Verif.Props.C104_rotation` | propext, Classical.choice, Quot.sound |
| C105 | `Verif.Props.C105_bound` | propext, Classical.choice, Quot.sound |
| C105 | `Verif.Props.C105_no_matrix` | propext, Classical.choice, Quot.sound |
| C105 | `Verif.Props.C105_upper_bits` | propext, Classical.choice, Quot.sound |
| C105 | `Verif.Props.C105_entry` | propext, Quot.sound |
| C105 | `Verif.Props.C105_nibble` | propext, Quot.sound |
| C105 | `Verif.Props.C105_not_injective` | propext, Classical.choice, Quot.sound |
| C106 | `Verif.Props.C106_call` | propext, Quot.sound |
| C106 | `Verif.Props.C106_series` | propext, Quot.sound |
| C106 | `Verif.Props.C106_reset_needed` | propext, Quot.sound |
| C106 | `Verif.Props.C106_shared` | propext, Quot.sound |
| C106 | `Verif.Props.C106_operations` | propext, Quot.sound |
| C106 | `Verif.Props.C106_uninterrupted` | propext, Quot.sound |
| C106 | `Verif.Props.C106_seed` | propext, Quot.sound |
| C106 | `Verif.Props.C106_cache` | propext, Quot.sound |
| C106 | `Verif.Props.C106_l1` | propext, Quot.sound |
| C106 | `Verif.Props.C106_lookup` | propext, Quot.sound |
| C107 | `Verif.Props.C107_keccak` | propext, Quot.sound |
| C107 | `Verif.Props.C107_cshake` | propext, Classical.choice, Quot.sound |
| C107 | `Verif.Props.C107_size` | propext, Classical.choice, Quot.sound |
| C107 | `Verif.Props.C107_domains` | propext, Classical.choice, Quot.sound |
| C107 | `Verif.Props.C107_heavy` | propext, Classical.choice, Quot.sound |
| C107 | `Verif.Props.C107_compute` | propext, Classical.choice, Quot.sound |
| C107 | `Verif.Props.C107_attempts` | propext, Classical.choice, Quot.sound |
| C107 | `Verif.Props.C107_keccak_blocks` | propext, Quot.sound |
| C107 | `Verif.Props.C107_one_block` | propext, Classical.choice, Quot.sound |
| C107 | `Verif.Props.C107_keccakF` | propext, Classical.choice, Quot.sound |
| C108 | `Verif.Props.C108_words` | propext, Classical.choice, Quot.sound |
| C108 | `Verif.Props.C108_prefix` | propext, Classical.choice, Quot.sound |
| C108 | `Verif.Props.C108_table` | propext, Classical.choice, Quot.sound |
| C108 | `Verif.Props.C108_specification` | propext, Classical.choice, Quot.sound |
