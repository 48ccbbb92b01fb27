# Axioms

Written by `tools/axioms.py` from the built library; do not edit.

All 17227 declarations of the library together depend on: `Quot.sound`, `Classical.choice`, `propext`.

The library declares no axiom. Theorems of MANIFEST.json by the axioms they depend on:

## none

`C64_quotes_ambiguous`, `C119_paths`

## `propext`

`C07_raw`, `C33_empty_panics`, `C37_truncation`, `C40_invalid_without_error`, `C83_alone`, `C88_differs`, `C103_write_back_invalid`, `C124_complete`

## `Quot.sound`, `propext`

`C26_no_hardened_from_public`, `C38_white_space`, `C38_layout_irrelevant`, `C39_valueAtDepth_iff`, `C39_valueAtDepth_exact`, `C39_valueAtDepth_partial`, `C55_flags_unambiguous`, `C57_by_path_component`, `C57_by_name`, `C57_by_name_unique`, `C75_seed_iff`, `C91_same_block`, `C91_zeros`, `C91_long`, `C101_one_by_one`, `C121_words`, `C121_same_length`, `C121_use_iff`, `C121_left`

## `Classical.choice`, `Quot.sound`, `propext`

`C01_roundtrip`, `C02_canonical`, `C03_bip39_encoding`, `C04_accepts_exactly`, `C04_errors`, `C04_isMnemonicValid`, `C05_sizes`, `C06_layout_irrelevant`, `C06_ideographic`, `C07_bytes_iff`, `C07_bytes_exact`, `C07_bytes_partial`, `C07_layout_matters`, `C08_seed`, `C09_history`, `C09_inverse`, `C10_lists_good`, `C10_init_ok`, `C10_lossless`, `C11_last_words`, `C12_safe_iff`, `C12_no_writes_partial`, `C12_corrupts`, `C13_newMnemonic_exact`, `C13_newMnemonic_same`, `C13_newMnemonic_mixed`, `C13_entropy_exact`, `C13_schedule_iff`, `C13_newMnemonic_iff`, `C13_consistent_partial`, `C13_torn`, `C13_mixed`, `C14_serialize_deserialize`, `C15_deserialize_exact`, `C16_base58_roundtrip`, `C16_text`, `C17_canonical_text`, `C18_isValid_iff`, `C18_isValid_accepts_malformed`, `C19_prefixes_partial`, `C19_wrong_prefixes`, `C20_lenses`, `C20_fields_determine_key`, `C21_master_key`, `C22_agrees_iff`, `C22_ckdPriv_exact`, `C22_ckdPriv_partial`, `C22_accepts_invalid_IL`, `C23_agrees_iff`, `C23_ckdPub_exact`, `C23_ckdPub_partial`, `C23_deviations`, `C24_neuter_commutes`, `C24_excluded_case`, `C25_watch_only`, `C25_public_succeeds`, `C27_neuter`, `C28_parent_recovered`, `C29_order_irrelevant`, `C30_unregistered_version`, `C31_depth_iff`, `C31_depth_exact`, `C31_depth_partial`, `C31_wraps`, `C32_private_validity`, `C32_public_validity`, `C33_point_encoding`, `C34_validate_private`, `C35_hex_views`, `C36_valid_iff_grammar`, `C37_face_iff`, `C37_values_exact`, `C37_values_face_partial`, `C39_wraps`, `C40_replace_exact`, `C40_replace_partial`, `C40_depth_zero`, `C41_print_parse`, `C41_parse_print`, `C42_generate`, `C43_seed_text`, `C44_panic_iff`, `C44_root_key_exact`, `C44_panics`, `C44_root_key_partial`, `C45_ancestors`, `C46_failures_hidden`, `C46_reports_iff`, `C46_detectable_partial`, `C46_continues_after_failure`, `C47_labels_iff`, `C47_labels_exact`, `C47_labels_partial`, `C47_bad_label`, `C48_guards`, `C49_siblings_iff`, `C49_range_exact`, `C49_single_partial`, `C49_inverted_accepted`, `C49_nested`, `C49_labels`, `C50_addrHex_exact`, `C50_addrHex_partial`, `C50_wrong_key`, `C51_address`, `C51_injective`, `C51_text`, `C52_neutered`, `C53_registry_indices`, `C53_rows_consistent`, `C54_purpose_coin`, `C56_registered_coins`, `C56_inconsistent_rows`, `C57_by_type`, `C57_numbers_agree`, `C57_by_name_choice`, `C57_by_name_ambiguous`, `C58_isValid_iff`, `C58_repair`, `C63_label_type`, `C63_labels_distinct`, `C63_label_text`, `C64_source_text`, `C59_index`, `C59_panic_only_bad_seed`, `C59_bad_seed_panics`, `C60_stale_iff`, `C60_tabs_partial`, `C60_stale_tabs`, `C61_fields_agree`, `C61_idle`, `C62_frame_iff`, `C62_none_selected_iff`, `C62_nothing_selected`, `C62_selection_partial`, `C65_chain`, `C66_passphrase_discards`, `C67_unique_reading`, `C67_document`, `C67_every_reading`, `C68_drops_hex`, `C68_emits_nothing`, `C68_decimal_table`, `C68_any_columns`, `C69_reading`, `C69_registry`, `C69_deviations`, `C70_script_address_iff`, `C70_bip49_vector`, `C71_wallet`, `C71_tabs`, `C71_screen`, `C72_readers`, `C72_serialize`, `C72_master`, `C72_setters`, `C73_deserialize_exact`, `C73_deserialize_partial`, `C73_deserialize_iff`, `C73_erases`, `C73_addChecksum_exact`, `C74_derive`, `C74_set`, `C74_shared`, `C75_seed_partial`, `C75_space_changes_seed`, `C76_shipped_partial`, `C76_seed_iff`, `C76_japanese_vector`, `C77_seed_partial`, `C77_too_long`, `C77_master`, `C78_entropy_partial`, `C78_silent`, `C78_entropy_iff`, `C78_invalid_size`, `C78_generate`, `C78_same_for_all`, `C78_two`, `C79_push`, `C79_direction`, `C79_towards_zero`, `C79_picture`, `C79_inwards`, `C79_old_picture`, `C79_duration`, `C79_stuck`, `C79_easing`, `C79_in_range`, `C80_newMnemonic`, `C80_no_panic`, `C80_safe_iff`, `C80_state_iff`, `C80_any_length_iff`, `C80_longer_iff`, `C81_refused`, `C81_chinese`, `C81_english_french`, `C81_bilingual`, `C82_first_four`, `C82_backup`, `C82_entropies`, `C83_shipped`, `C83_outcome`, `C83_safe_iff`, `C84_calls`, `C84_no_race`, `C84_finishes`, `C85_newMnemonic`, `C85_results`, `C85_addresses`, `C85_range`, `C86_seed`, `C86_root`, `C86_other`, `C87_private`, `C87_ckdPriv`, `C87_commutes_iff`, `C87_first_wins`, `C87_own_version`, `C87_default`, `C88_wide`, `C88_valid_narrow`, `C88_face_narrow`, `C88_narrow_wide`, `C88_same_iff`, `C88_same_partial`, `C88_refuses`, `C88_versions`, `C89_text_tells`, `C89_siblings`, `C89_public_private`, `C89_private_children`, `C89_public_children`, `C89_paths`, `C89_texts`, `C90_valid_accepted_partial`, `C90_accepts_any`, `C90_checked_iff`, `C90_defects`, `C90_no_defect_refused`, `C90_full_false`, `C90_derives_iff`, `C90_derives_from`, `C91_zero_refused`, `C91_zero_no_seed`, `C91_accepted_iff`, `C91_vector`, `C92_bip32`, `C92_errors`, `C92_agree_iff`, `C92_agree_partial`, `C92_loops`, `C92_full_false`, `C93_root`, `C93_derive`, `C93_range`, `C93_earlier_lists`, `C94_keys`, `C94_expandPublicKey`, `C94_paths`, `C94_mnemonics`, `C94_util`, `C95_window`, `C95_bits`, `C95_four_bytes`, `C96_child`, `C96_path`, `C96_neuter`, `C96_views`, `C96_derive`, `C96_watch`, `C97_private`, `C97_heals`, `C97_congruent`, `C97_hardened`, `C97_watch`, `C97_point`, `C97_zero_point`, `C97_off_curve`, `C98_one_value`, `C98_first_words`, `C98_number`, `C99_into`, `C99_roundtrip`, `C99_reused`, `C99_injective`, `C99_bitcoin`, `C99_plain`, `C99_utf8`, `C99_text`, `C99_registered`, `C100_watch`, `C100_hardened`, `C101_fatal_iff`, `C101_entropy_iff`, `C101_outcomes`, `C101_getWordIndex_iff`, `C101_zero`, `C101_abstract`, `C102_range_exact`, `C102_range`, `C102_crossing`, `C103_last_write`, `C103_commute`, `C103_read_back`, `C103_write_back`, `C103_canonical`, `C104_size`, `C104_entries`, `C104_derived`, `C105_account`, `C105_entries`, `C106_first_letter`, `C106_zero`, `C106_one_iff`, `C106_length`, `C106_letters`, `C106_hex`, `C107_watch`, `C107_hardened`, `C108_letters`, `C108_exported`, `C108_derived`, `C108_disguise`, `C109_browse`, `C109_arrows`, `C110_texts_decide`, `C110_mnemonic`, `C110_seed`, `C110_root`, `C111_mnemonic`, `C111_passphrase`, `C111_seed`, `C111_root`, `C111_path`, `C111_button`, `C111_generate`, `C112_isRegistered_iff`, `C112_flags_ignored`, `C112_defaults`, `C113_paths`, `C113_utils`, `C113_keys`, `C113_versions`, `C113_derivation`, `C113_words`, `C113_util`, `C113_coins`, `C114_mnemonic`, `C114_accepts`, `C114_text`, `C114_root`, `C114_child`, `C114_wallet`, `C114_returns`, `C114_panics`, `C115_pieces`, `C115_frame`, `C115_window`, `C116_words`, `C116_versions`, `C116_coins`, `C116_seed`, `C117_lists`, `C117_shipped`, `C117_damaged`, `C117_script`, `C117_script_shipped`, `C117_script_decimal`, `C118_easing`, `C118_push`, `C118_layout`, `C118_picture`, `C118_frame`, `C118_window`, `C119_coins`, `C119_printed`, `C119_coins_loaded`, `C119_versions`, `C120_setters`, `C120_entropy`, `C120_mnemonic`, `C120_once`, `C120_runtime`, `C120_fatal_iff`, `C120_alone`, `C120_alone_set`, `C120_torn`, `C121_beyond_iff`, `C121_every_order`, `C121_mnemonic`, `C121_mnemonic_beyond`, `C121_shipped`, `C122_reads`, `C122_many`, `C122_bytes`, `C122_seed`, `C122_only_seed`, `C122_torn`, `C122_runtime`, `C122_fatal_iff`, `C123_depends`, `C123_any_list`, `C123_deterministic`, `C123_no_access`, `C123_beside`, `C123_key_only`, `C123_exact`, `C124_seed_text`, `C124_torn`, `C124_generate`, `C124_count`, `C124_same`, `C124_mixed`, `C125_list`, `C125_index`, `C125_index_runtime`, `C125_seed`, `C125_seed_text`, `C125_entropy`, `C125_entropy_runtime`, `C125_valid`, `C125_mnemonic`, `C125_generate`, `C125_roundtrip`, `C125_shipped`, `C126_reader`, `C126_mnemonic`, `C126_generate`, `C126_list`, `C126_set`, `C126_seed`, `C126_exact`
