{
 "claims": [
  {
   "property": "C01",
   "status": "proved",
   "theorems": [
    "Bips.C01_roundtrip"
   ],
   "note": ""
  },
  {
   "property": "C02",
   "status": "proved",
   "theorems": [
    "Bips.C02_canonical"
   ],
   "note": ""
  },
  {
   "property": "C03",
   "status": "proved",
   "theorems": [
    "Bips.C03_bip39_encoding"
   ],
   "note": ""
  },
  {
   "property": "C04",
   "status": "proved",
   "theorems": [
    "Bips.C04_accepts_exactly",
    "Bips.C04_errors",
    "Bips.C04_isMnemonicValid"
   ],
   "note": ""
  },
  {
   "property": "C05",
   "status": "proved",
   "theorems": [
    "Bips.C05_sizes"
   ],
   "note": ""
  },
  {
   "property": "C06",
   "status": "proved",
   "theorems": [
    "Bips.C06_layout_irrelevant",
    "Bips.C06_ideographic"
   ],
   "note": ""
  },
  {
   "property": "C07",
   "status": "partial",
   "theorems": [
    "Bips.C07_bytes_iff",
    "Bips.C07_raw",
    "Bips.C07_bytes_exact",
    "Bips.C07_bytes_partial",
    "Bips.C07_layout_matters"
   ],
   "note": "raw=true is proved in full (C07_raw). Without raw, C07_bytes_exact gives the exact result for every accepted string, C07_bytes_partial the claimed len+1 bytes when the number of ASCII spaces is one less than the number of words; C07_layout_matters shows the claim fails for a double-space layout. C07_bytes_iff gives the exact set of accepted strings for which the claim holds."
  },
  {
   "property": "C08",
   "status": "proved",
   "theorems": [
    "Bips.C08_seed"
   ],
   "note": ""
  },
  {
   "property": "C09",
   "status": "proved",
   "theorems": [
    "Bips.C09_history",
    "Bips.C09_inverse"
   ],
   "note": ""
  },
  {
   "property": "C10",
   "status": "proved",
   "theorems": [
    "Bips.C10_lists_good",
    "Bips.C10_init_ok",
    "Bips.C10_lossless"
   ],
   "note": ""
  },
  {
   "property": "C11",
   "status": "proved",
   "theorems": [
    "Bips.C11_last_words"
   ],
   "note": ""
  },
  {
   "property": "C12",
   "status": "partial",
   "theorems": [
    "Bips.C12_safe_iff",
    "Bips.C12_no_writes_partial",
    "Bips.C12_corrupts"
   ],
   "note": "C12_no_writes_partial: the property holds for every history whose writes avoid the elements of the current list; C12_corrupts: writing one element of the slice returned by GetWordList makes the package produce a mnemonic it rejects, so the full claim is false. C12_safe_iff: the exact histories in which every entropy still survives the round trip."
  },
  {
   "property": "C13",
   "status": "partial",
   "theorems": [
    "Bips.C13_newMnemonic_exact",
    "Bips.C13_newMnemonic_same",
    "Bips.C13_newMnemonic_mixed",
    "Bips.C13_entropy_exact",
    "Bips.C13_schedule_iff",
    "Bips.C13_newMnemonic_iff",
    "Bips.C13_consistent_partial",
    "Bips.C13_torn",
    "Bips.C13_mixed"
   ],
   "note": "C13_consistent_partial names the interleavings in which a reader sees one consistent list; C13_torn and C13_mixed show that the claim fails for others (valid mnemonics rejected, invalid ones accepted). C13_newMnemonic_exact: the result of NewMnemonic under every interleaving; C13_newMnemonic_mixed: it can return, without an error, a sentence that both lists reject. C13_entropy_exact: the result of EntropyFromMnemonic under every interleaving; C13_schedule_iff and C13_newMnemonic_iff: exactly which interleavings are safe."
  },
  {
   "property": "C14",
   "status": "proved",
   "theorems": [
    "Bips.C14_serialize_deserialize"
   ],
   "note": ""
  },
  {
   "property": "C15",
   "status": "proved",
   "theorems": [
    "Bips.C15_deserialize_exact"
   ],
   "note": ""
  },
  {
   "property": "C16",
   "status": "proved",
   "theorems": [
    "Bips.C16_base58_roundtrip",
    "Bips.C16_text"
   ],
   "note": ""
  },
  {
   "property": "C17",
   "status": "proved",
   "theorems": [
    "Bips.C17_canonical_text"
   ],
   "note": ""
  },
  {
   "property": "C18",
   "status": "proved",
   "theorems": [
    "Bips.C18_isValid_iff",
    "Bips.C18_isValid_accepts_malformed"
   ],
   "note": ""
  },
  {
   "property": "C19",
   "status": "partial",
   "theorems": [
    "Bips.C19_prefixes_partial",
    "Bips.C19_wrong_prefixes"
   ],
   "note": "Proved for every registered entry except three (C19_prefixes_partial); C19_wrong_prefixes proves that the declared prefixes of the remaining three are wrong for every key and gives the prefixes actually printed, so the full claim is false."
  },
  {
   "property": "C20",
   "status": "proved",
   "theorems": [
    "Bips.C20_lenses",
    "Bips.C20_fields_determine_key"
   ],
   "note": ""
  },
  {
   "property": "C21",
   "status": "proved",
   "theorems": [
    "Bips.C21_master_key"
   ],
   "note": ""
  },
  {
   "property": "C22",
   "status": "partial",
   "theorems": [
    "Bips.C22_agrees_iff",
    "Bips.C22_ckdPriv_exact",
    "Bips.C22_ckdPriv_partial",
    "Bips.C22_accepts_invalid_IL"
   ],
   "note": "C22_ckdPriv_partial proves the BIP-32 step whenever parse256(IL) < n; C22_ckdPriv_exact gives the exact behaviour for all inputs; C22_accepts_invalid_IL exhibits parse256(IL) >= n being accepted, where the full claim fails. C22_agrees_iff gives the exact set where code and BIP-32 agree."
  },
  {
   "property": "C23",
   "status": "partial",
   "theorems": [
    "Bips.C23_agrees_iff",
    "Bips.C23_ckdPub_exact",
    "Bips.C23_ckdPub_partial",
    "Bips.C23_deviations"
   ],
   "note": "C23_ckdPub_partial proves the BIP-32 step when 0 < parse256(IL) < n and the sum is not infinity; C23_ckdPub_exact covers every input; C23_deviations exhibits the three situations in which the full claim fails. C23_agrees_iff gives the exact set where code and BIP-32 agree."
  },
  {
   "property": "C24",
   "status": "proved",
   "theorems": [
    "Bips.C24_neuter_commutes",
    "Bips.C24_excluded_case"
   ],
   "note": ""
  },
  {
   "property": "C25",
   "status": "proved",
   "theorems": [
    "Bips.C25_watch_only",
    "Bips.C25_public_succeeds"
   ],
   "note": ""
  },
  {
   "property": "C26",
   "status": "proved",
   "theorems": [
    "Bips.C26_no_hardened_from_public"
   ],
   "note": ""
  },
  {
   "property": "C27",
   "status": "proved",
   "theorems": [
    "Bips.C27_neuter"
   ],
   "note": ""
  },
  {
   "property": "C28",
   "status": "proved",
   "theorems": [
    "Bips.C28_parent_recovered"
   ],
   "note": ""
  },
  {
   "property": "C29",
   "status": "proved",
   "theorems": [
    "Bips.C29_order_irrelevant"
   ],
   "note": ""
  },
  {
   "property": "C30",
   "status": "proved",
   "theorems": [
    "Bips.C30_unregistered_version"
   ],
   "note": ""
  },
  {
   "property": "C31",
   "status": "partial",
   "theorems": [
    "Bips.C31_depth_iff",
    "Bips.C31_depth_exact",
    "Bips.C31_depth_partial",
    "Bips.C31_wraps"
   ],
   "note": "Exact form (steps mod 256) proved for all paths in C31_depth_exact; the claim holds for at most 255 steps and fails at 256 (C31_wraps). C31_depth_iff: the claim holds exactly for up to 255 steps."
  },
  {
   "property": "C32",
   "status": "proved",
   "theorems": [
    "Bips.C32_private_validity",
    "Bips.C32_public_validity"
   ],
   "note": ""
  },
  {
   "property": "C33",
   "status": "proved",
   "theorems": [
    "Bips.C33_point_encoding",
    "Bips.C33_empty_panics"
   ],
   "note": ""
  },
  {
   "property": "C34",
   "status": "proved",
   "theorems": [
    "Bips.C34_validate_private"
   ],
   "note": ""
  },
  {
   "property": "C35",
   "status": "proved",
   "theorems": [
    "Bips.C35_hex_views"
   ],
   "note": ""
  },
  {
   "property": "C36",
   "status": "proved",
   "theorems": [
    "Bips.C36_valid_iff_grammar"
   ],
   "note": ""
  },
  {
   "property": "C37",
   "status": "partial",
   "theorems": [
    "Bips.C37_face_iff",
    "Bips.C37_values_exact",
    "Bips.C37_values_face_partial",
    "Bips.C37_truncation"
   ],
   "note": "The face-value reading holds exactly when every component value is below 2^32 (C37_values_face_partial); C37_values_exact gives the exact reduction modulo 2^32 and C37_truncation shows a valid path where the full claim fails. C37_face_iff: this equivalence."
  },
  {
   "property": "C38",
   "status": "proved",
   "theorems": [
    "Bips.C38_white_space",
    "Bips.C38_layout_irrelevant"
   ],
   "note": ""
  },
  {
   "property": "C39",
   "status": "partial",
   "theorems": [
    "Bips.C39_valueAtDepth_iff",
    "Bips.C39_valueAtDepth_exact",
    "Bips.C39_valueAtDepth_partial",
    "Bips.C39_wraps"
   ],
   "note": "Holds for paths with at most 254 components, that is 255 values (C39_valueAtDepth_partial); C39_valueAtDepth_exact gives the exact result for all paths, C39_wraps a path where the claim fails. C39_valueAtDepth_iff: exactly for at most 255 values."
  },
  {
   "property": "C40",
   "status": "partial",
   "theorems": [
    "Bips.C40_replace_exact",
    "Bips.C40_replace_partial",
    "Bips.C40_invalid_without_error",
    "Bips.C40_depth_zero"
   ],
   "note": "C40_replace_exact gives the result for every valid path, depth and value; C40_replace_partial: read back exactly when the hardened components still come first; C40_invalid_without_error shows that a successful replacement can give an invalid path."
  },
  {
   "property": "C41",
   "status": "proved",
   "theorems": [
    "Bips.C41_print_parse",
    "Bips.C41_parse_print"
   ],
   "note": ""
  },
  {
   "property": "C42",
   "status": "proved",
   "theorems": [
    "Bips.C42_generate"
   ],
   "note": ""
  },
  {
   "property": "C43",
   "status": "proved",
   "theorems": [
    "Bips.C43_seed_text"
   ],
   "note": ""
  },
  {
   "property": "C44",
   "status": "partial",
   "theorems": [
    "Bips.C44_panic_iff",
    "Bips.C44_root_key_exact",
    "Bips.C44_panics",
    "Bips.C44_root_key_partial"
   ],
   "note": "C44_root_key_exact gives the result for every text and every HMAC; C44_root_key_partial proves the claim whenever the HMAC's left half is a valid scalar; C44_panics shows the nil dereference otherwise, for every text of 16 bytes or more. C44_panic_iff: the exact set of crashing inputs."
  },
  {
   "property": "C45",
   "status": "proved",
   "theorems": [
    "Bips.C45_ancestors"
   ],
   "note": ""
  },
  {
   "property": "C46",
   "status": "partial",
   "theorems": [
    "Bips.C46_failures_hidden",
    "Bips.C46_reports_iff",
    "Bips.C46_detectable_partial",
    "Bips.C46_continues_after_failure"
   ],
   "note": "The code never returns an error for a failed step: C46_failures_hidden (all-zero keys returned for every root of unregistered version) and C46_continues_after_failure (a valid-looking key below a failed step). C46_detectable_partial proves that for a valid root the failure can be recognised in the returned keys. C46_reports_iff: no failed step is ever reported."
  },
  {
   "property": "C47",
   "status": "partial",
   "theorems": [
    "Bips.C47_labels_iff",
    "Bips.C47_labels_exact",
    "Bips.C47_labels_partial",
    "Bips.C47_bad_label"
   ],
   "note": "C47_labels_exact characterises the valid labels for every request; C47_labels_partial proves the claim when every written number is below 2^31; C47_bad_label shows m/0/2147483648, where it fails. C47_labels_iff: the exact set of requests for which the claim holds."
  },
  {
   "property": "C48",
   "status": "proved",
   "theorems": [
    "Bips.C48_guards"
   ],
   "note": ""
  },
  {
   "property": "C49",
   "status": "partial",
   "theorems": [
    "Bips.C49_siblings_iff",
    "Bips.C49_range_exact",
    "Bips.C49_single_partial",
    "Bips.C49_inverted_accepted",
    "Bips.C49_nested",
    "Bips.C49_labels"
   ],
   "note": "C49_range_exact gives the result in all cases. The claim holds for ranges of one index (C49_single_partial); C49_inverted_accepted and C49_nested prove the two deviations for all inputs; C49_labels proves the labels describe the nested keys below index 2^31. C49_siblings_iff: siblings exactly for ranges of one index."
  },
  {
   "property": "C50",
   "status": "partial",
   "theorems": [
    "Bips.C50_addrHex_exact",
    "Bips.C50_addrHex_partial",
    "Bips.C50_wrong_key"
   ],
   "note": "C50_addrHex_exact: the preimage is right exactly when both coordinates are at least 2^248; C50_addrHex_partial proves the claim there; C50_wrong_key exhibits the private key 153, whose address is wrong."
  },
  {
   "property": "C51",
   "status": "proved",
   "theorems": [
    "Bips.C51_address",
    "Bips.C51_injective",
    "Bips.C51_text"
   ],
   "note": ""
  },
  {
   "property": "C52",
   "status": "proved",
   "theorems": [
    "Bips.C52_neutered"
   ],
   "note": ""
  },
  {
   "property": "C53",
   "status": "proved",
   "theorems": [
    "Bips.C53_registry_indices",
    "Bips.C53_rows_consistent"
   ],
   "note": ""
  },
  {
   "property": "C54",
   "status": "proved",
   "theorems": [
    "Bips.C54_purpose_coin"
   ],
   "note": ""
  },
  {
   "property": "C55",
   "status": "proved",
   "theorems": [
    "Bips.C55_flags_unambiguous"
   ],
   "note": ""
  },
  {
   "property": "C56",
   "status": "proved",
   "theorems": [
    "Bips.C56_registered_coins",
    "Bips.C56_inconsistent_rows"
   ],
   "note": ""
  },
  {
   "property": "C57",
   "status": "proved",
   "theorems": [
    "Bips.C57_by_type",
    "Bips.C57_by_path_component",
    "Bips.C57_numbers_agree",
    "Bips.C57_by_name",
    "Bips.C57_by_name_unique",
    "Bips.C57_by_name_choice",
    "Bips.C57_by_name_ambiguous"
   ],
   "note": "Lookups by type and by path component are exact for all keys and sort outcomes. By name the result is some coin of that name (C57_by_name), the unique one if the name is unique (C57_by_name_unique), and any of the rows of that name may be returned (C57_by_name_choice, C57_by_name_ambiguous)."
  },
  {
   "property": "C58",
   "status": "proved",
   "theorems": [
    "Bips.C58_isValid_iff",
    "Bips.C58_repair"
   ],
   "note": ""
  },
  {
   "property": "C63",
   "status": "proved",
   "theorems": [
    "Bips.C63_label_type",
    "Bips.C63_labels_distinct",
    "Bips.C63_label_text"
   ],
   "note": ""
  },
  {
   "property": "C64",
   "status": "proved",
   "theorems": [
    "Bips.C64_source_text",
    "Bips.C64_quotes_ambiguous"
   ],
   "note": ""
  },
  {
   "property": "C59",
   "status": "proved",
   "theorems": [
    "Bips.C59_index",
    "Bips.C59_panic_only_bad_seed",
    "Bips.C59_bad_seed_panics"
   ],
   "note": "No index expression panics (C59_index). A history can panic only through RootKeyFromSeed's nil dereference (C59_panic_only_bad_seed, C59_bad_seed_panics; see C44)."
  },
  {
   "property": "C60",
   "status": "partial",
   "theorems": [
    "Bips.C60_stale_iff",
    "Bips.C60_tabs_partial",
    "Bips.C60_stale_tabs"
   ],
   "note": "C60_tabs_partial: the tabs belong to the current root key and path in every reachable state except after a refused root key text; C60_stale_tabs proves the failure for every good root key. C60_stale_iff: stale exactly when the root key text was refused while tabs were shown."
  },
  {
   "property": "C61",
   "status": "proved",
   "theorems": [
    "Bips.C61_fields_agree",
    "Bips.C61_idle"
   ],
   "note": ""
  },
  {
   "property": "C62",
   "status": "partial",
   "theorems": [
    "Bips.C62_frame_iff",
    "Bips.C62_none_selected_iff",
    "Bips.C62_nothing_selected",
    "Bips.C62_selection_partial"
   ],
   "note": "False as stated: C62_nothing_selected (for every good root key). C62_selection_partial: the index is -1 or valid whenever tabs are shown, one click selects again, and no layout loses a selection. C62_none_selected_iff: exactly after which histories no tab is selected (a rebuild left no tabs and no click on a tab or the right arrow followed); C62_frame_iff the same for one frame; update_eq_checks shows that the checks named there are those of the model."
  },
  {
   "property": "C65",
   "status": "proved",
   "theorems": [
    "Bips.C65_chain"
   ],
   "note": ""
  },
  {
   "property": "C66",
   "status": "proved",
   "theorems": [
    "Bips.C66_passphrase_discards"
   ],
   "note": "Proves the actual behaviour, which is a defect from a user's point of view."
  },
  {
   "property": "C67",
   "status": "proved",
   "theorems": [
    "Bips.C67_unique_reading",
    "Bips.C67_document",
    "Bips.C67_every_reading"
   ],
   "note": ""
  },
  {
   "property": "C68",
   "status": "proved",
   "theorems": [
    "Bips.C68_drops_hex",
    "Bips.C68_emits_nothing",
    "Bips.C68_decimal_table",
    "Bips.C68_any_columns"
   ],
   "note": ""
  },
  {
   "property": "C69",
   "status": "proved",
   "theorems": [
    "Bips.C69_reading",
    "Bips.C69_registry",
    "Bips.C69_deviations"
   ],
   "note": ""
  },
  {
   "property": "C70",
   "status": "proved",
   "theorems": [
    "Bips.C70_script_address_iff",
    "Bips.C70_bip49_vector"
   ],
   "note": ""
  },
  {
   "property": "C71",
   "status": "proved",
   "theorems": [
    "Bips.C71_wallet",
    "Bips.C71_tabs",
    "Bips.C71_screen"
   ],
   "note": ""
  },
  {
   "property": "C72",
   "status": "proved",
   "theorems": [
    "Bips.C72_readers",
    "Bips.C72_serialize",
    "Bips.C72_master",
    "Bips.C72_setters"
   ],
   "note": ""
  },
  {
   "property": "C73",
   "status": "partial",
   "theorems": [
    "Bips.C73_deserialize_exact",
    "Bips.C73_deserialize_partial",
    "Bips.C73_deserialize_iff",
    "Bips.C73_erases",
    "Bips.C73_addChecksum_exact"
   ],
   "note": "C73_deserialize_partial proves it for slices of at least 82 bytes or without room for 82; C73_deserialize_iff gives the exact condition, C73_deserialize_exact the exact effect, C73_erases a counterexample. C73_addChecksum_exact does the same for AddChecksumDblSha256ToBytes."
  },
  {
   "property": "C74",
   "status": "proved",
   "theorems": [
    "Bips.C74_derive",
    "Bips.C74_set",
    "Bips.C74_shared"
   ],
   "note": ""
  },
  {
   "property": "C75",
   "status": "partial",
   "theorems": [
    "Bips.C75_seed_partial",
    "Bips.C75_seed_iff",
    "Bips.C75_space_changes_seed"
   ],
   "note": "False of the code. C75_seed_partial proves it for mnemonics written with single spaces; C75_seed_iff shows that two texts give the same seeds under all hash functions only if they are equal byte by byte; C75_space_changes_seed is a counterexample with the real hash functions, evaluated by the kernel."
  },
  {
   "property": "C76",
   "status": "partial",
   "theorems": [
    "Bips.C76_shipped_partial",
    "Bips.C76_seed_iff",
    "Bips.C76_japanese_vector"
   ],
   "note": "False of the code. C76_shipped_partial proves it for mnemonics made from the shipped lists with passphrases in NFKD; C76_seed_iff gives the exact domain; C76_japanese_vector shows the first official Japanese vector failing, with the real hash functions. The Unicode character database is a parameter constrained by the stated entries (Spec/Nfkd.lean)."
  },
  {
   "property": "C77",
   "status": "partial",
   "theorems": [
    "Bips.C77_seed_partial",
    "Bips.C77_too_long",
    "Bips.C77_master"
   ],
   "note": "The length is false of the code (C77_too_long). C77_seed_partial proves the rest, C77_master the link to the root key. rand.Read is modelled as io.ReadFull on a source of chunks with errors (Go 1.22)."
  },
  {
   "property": "C78",
   "status": "partial",
   "theorems": [
    "Bips.C78_entropy_partial",
    "Bips.C78_silent",
    "Bips.C78_entropy_iff",
    "Bips.C78_invalid_size",
    "Bips.C78_generate",
    "Bips.C78_same_for_all",
    "Bips.C78_two"
   ],
   "note": "False of the code: C78_silent and C78_same_for_all. C78_entropy_partial proves it for sources that deliver, C78_entropy_iff shows that this is the exact domain, C78_two that successive mnemonics use different bytes."
  },
  {
   "property": "C79",
   "status": "proved",
   "theorems": [
    "Bips.C79_push",
    "Bips.C79_direction",
    "Bips.C79_towards_zero",
    "Bips.C79_picture",
    "Bips.C79_inwards",
    "Bips.C79_old_picture",
    "Bips.C79_duration",
    "Bips.C79_stuck",
    "Bips.C79_easing",
    "Bips.C79_in_range"
   ],
   "note": "float32 and float64 are rational numbers with round-to-nearest-even at every operation (Go/Float.lean); a parameter says whether the compiler fuses multiply and add. Times are in order and after the zero time. C79_stuck shows that the rounding term in C79_duration is needed."
  },
  {
   "property": "C80",
   "status": "proved",
   "theorems": [
    "Bips.C80_newMnemonic",
    "Bips.C80_no_panic",
    "Bips.C80_safe_iff",
    "Bips.C80_state_iff",
    "Bips.C80_any_length_iff",
    "Bips.C80_longer_iff"
   ],
   "note": ""
  },
  {
   "property": "C81",
   "status": "proved",
   "theorems": [
    "Bips.C81_refused",
    "Bips.C81_chinese",
    "Bips.C81_english_french",
    "Bips.C81_bilingual"
   ],
   "note": ""
  },
  {
   "property": "C82",
   "status": "proved",
   "theorems": [
    "Bips.C82_first_four",
    "Bips.C82_backup",
    "Bips.C82_entropies"
   ],
   "note": ""
  },
  {
   "property": "C83",
   "status": "proved",
   "theorems": [
    "Bips.C83_shipped",
    "Bips.C83_outcome",
    "Bips.C83_alone",
    "Bips.C83_safe_iff"
   ],
   "note": ""
  },
  {
   "property": "C84",
   "status": "proved",
   "theorems": [
    "Bips.C84_calls",
    "Bips.C84_no_race",
    "Bips.C84_finishes"
   ],
   "note": ""
  },
  {
   "property": "C85",
   "status": "proved",
   "theorems": [
    "Bips.C85_newMnemonic",
    "Bips.C85_results",
    "Bips.C85_addresses",
    "Bips.C85_range"
   ],
   "note": ""
  },
  {
   "property": "C86",
   "status": "proved",
   "theorems": [
    "Bips.C86_seed",
    "Bips.C86_root",
    "Bips.C86_other"
   ],
   "note": ""
  },
  {
   "property": "C87",
   "status": "proved",
   "theorems": [
    "Bips.C87_private",
    "Bips.C87_ckdPriv",
    "Bips.C87_commutes_iff",
    "Bips.C87_first_wins",
    "Bips.C87_own_version",
    "Bips.C87_default"
   ],
   "note": ""
  },
  {
   "property": "C88",
   "status": "partial",
   "theorems": [
    "Bips.C88_wide",
    "Bips.C88_valid_narrow",
    "Bips.C88_face_narrow",
    "Bips.C88_narrow_wide",
    "Bips.C88_same_iff",
    "Bips.C88_same_partial",
    "Bips.C88_refuses",
    "Bips.C88_versions",
    "Bips.C88_differs"
   ],
   "note": "False of the code: C88_differs (m/2147483648 is an error where int has 32 bits and the first hardened child where it has 64). C88_same_partial proves it for paths whose numbers are below 2^31, C88_same_iff shows that this is the exact domain; C88_valid_narrow and C88_face_narrow describe the 32-bit platform completely, where C37 holds without exception."
  },
  {
   "property": "C89",
   "status": "proved",
   "theorems": [
    "Bips.C89_text_tells",
    "Bips.C89_siblings",
    "Bips.C89_public_private",
    "Bips.C89_private_children",
    "Bips.C89_public_children",
    "Bips.C89_paths",
    "Bips.C89_texts"
   ],
   "note": ""
  },
  {
   "property": "C90",
   "status": "partial",
   "theorems": [
    "Bips.C90_valid_accepted_partial",
    "Bips.C90_accepts_any",
    "Bips.C90_checked_iff",
    "Bips.C90_defects",
    "Bips.C90_no_defect_refused",
    "Bips.C90_full_false",
    "Bips.C90_derives_iff",
    "Bips.C90_derives_from"
   ],
   "note": "False of the code (C90_full_false): C90_accepts_any shows that any 78 bytes with their checksum are accepted, and C90_no_defect_refused gives for each defect of Test Vector 5 a key with that defect alone which is accepted. C90_valid_accepted_partial proves that valid keys are accepted, C90_checked_iff gives the exact checks a caller has to add, C90_defects shows that the list of defects is complete, C90_derives_iff and C90_derives_from say which of them are noticed by NewChildKey."
  },
  {
   "property": "C91",
   "status": "proved",
   "theorems": [
    "Bips.C91_same_block",
    "Bips.C91_zeros",
    "Bips.C91_long",
    "Bips.C91_zero_refused",
    "Bips.C91_zero_no_seed",
    "Bips.C91_accepted_iff",
    "Bips.C91_vector"
   ],
   "note": ""
  },
  {
   "property": "C92",
   "status": "partial",
   "theorems": [
    "Bips.C92_bip32",
    "Bips.C92_errors",
    "Bips.C92_agree_iff",
    "Bips.C92_agree_partial",
    "Bips.C92_loops",
    "Bips.C92_full_false"
   ],
   "note": "False of the code (C92_full_false, in both directions; C92_bip32 shows that it holds of BIP-32). C92_agree_partial proves it, with equal keys, where IL is neither 0 nor minus the secret; C92_agree_iff and C92_loops give the exact domain, C92_errors all errors."
  },
  {
   "property": "C93",
   "status": "proved",
   "theorems": [
    "Bips.C93_root",
    "Bips.C93_derive",
    "Bips.C93_range",
    "Bips.C93_earlier_lists"
   ],
   "note": ""
  },
  {
   "property": "C94",
   "status": "proved",
   "theorems": [
    "Bips.C94_keys",
    "Bips.C94_expandPublicKey",
    "Bips.C94_paths",
    "Bips.C94_mnemonics",
    "Bips.C94_util"
   ],
   "note": ""
  },
  {
   "property": "C95",
   "status": "proved",
   "theorems": [
    "Bips.C95_window",
    "Bips.C95_bits",
    "Bips.C95_four_bytes"
   ],
   "note": ""
  },
  {
   "property": "C96",
   "status": "proved",
   "theorems": [
    "Bips.C96_child",
    "Bips.C96_path",
    "Bips.C96_neuter",
    "Bips.C96_views",
    "Bips.C96_derive",
    "Bips.C96_watch"
   ],
   "note": ""
  },
  {
   "property": "C97",
   "status": "proved",
   "theorems": [
    "Bips.C97_private",
    "Bips.C97_heals",
    "Bips.C97_congruent",
    "Bips.C97_hardened",
    "Bips.C97_watch",
    "Bips.C97_point",
    "Bips.C97_zero_point",
    "Bips.C97_off_curve"
   ],
   "note": ""
  },
  {
   "property": "C98",
   "status": "proved",
   "theorems": [
    "Bips.C98_one_value",
    "Bips.C98_first_words",
    "Bips.C98_number"
   ],
   "note": ""
  },
  {
   "property": "C99",
   "status": "proved",
   "theorems": [
    "Bips.C99_into",
    "Bips.C99_roundtrip",
    "Bips.C99_reused",
    "Bips.C99_injective",
    "Bips.C99_bitcoin",
    "Bips.C99_plain",
    "Bips.C99_utf8",
    "Bips.C99_text",
    "Bips.C99_registered"
   ],
   "note": ""
  },
  {
   "property": "C100",
   "status": "proved",
   "theorems": [
    "Bips.C100_watch",
    "Bips.C100_hardened"
   ],
   "note": ""
  },
  {
   "property": "C101",
   "status": "proved",
   "theorems": [
    "Bips.C101_fatal_iff",
    "Bips.C101_entropy_iff",
    "Bips.C101_one_by_one",
    "Bips.C101_outcomes",
    "Bips.C101_getWordIndex_iff",
    "Bips.C101_zero",
    "Bips.C101_abstract"
   ],
   "note": ""
  },
  {
   "property": "C102",
   "status": "proved",
   "theorems": [
    "Bips.C102_range_exact",
    "Bips.C102_range",
    "Bips.C102_crossing"
   ],
   "note": ""
  },
  {
   "property": "C103",
   "status": "proved",
   "theorems": [
    "Bips.C103_last_write",
    "Bips.C103_commute",
    "Bips.C103_read_back",
    "Bips.C103_write_back",
    "Bips.C103_canonical",
    "Bips.C103_write_back_invalid"
   ],
   "note": ""
  },
  {
   "property": "C104",
   "status": "proved",
   "theorems": [
    "Bips.C104_size",
    "Bips.C104_entries",
    "Bips.C104_derived"
   ],
   "note": ""
  },
  {
   "property": "C105",
   "status": "proved",
   "theorems": [
    "Bips.C105_account",
    "Bips.C105_entries"
   ],
   "note": ""
  },
  {
   "property": "C106",
   "status": "proved",
   "theorems": [
    "Bips.C106_first_letter",
    "Bips.C106_zero",
    "Bips.C106_one_iff",
    "Bips.C106_length",
    "Bips.C106_letters",
    "Bips.C106_hex"
   ],
   "note": ""
  },
  {
   "property": "C107",
   "status": "proved",
   "theorems": [
    "Bips.C107_watch",
    "Bips.C107_hardened"
   ],
   "note": ""
  },
  {
   "property": "C108",
   "status": "proved",
   "theorems": [
    "Bips.C108_letters",
    "Bips.C108_exported",
    "Bips.C108_derived",
    "Bips.C108_disguise"
   ],
   "note": ""
  },
  {
   "property": "C109",
   "status": "proved",
   "theorems": [
    "Bips.C109_browse",
    "Bips.C109_arrows"
   ],
   "note": ""
  },
  {
   "property": "C110",
   "status": "proved",
   "theorems": [
    "Bips.C110_texts_decide",
    "Bips.C110_mnemonic",
    "Bips.C110_seed",
    "Bips.C110_root"
   ],
   "note": ""
  },
  {
   "property": "C111",
   "status": "proved",
   "theorems": [
    "Bips.C111_mnemonic",
    "Bips.C111_passphrase",
    "Bips.C111_seed",
    "Bips.C111_root",
    "Bips.C111_path",
    "Bips.C111_button",
    "Bips.C111_generate"
   ],
   "note": ""
  },
  {
   "property": "C112",
   "status": "proved",
   "theorems": [
    "Bips.C112_isRegistered_iff",
    "Bips.C112_flags_ignored",
    "Bips.C112_defaults"
   ],
   "note": ""
  },
  {
   "property": "C113",
   "status": "proved",
   "theorems": [
    "Bips.C113_paths",
    "Bips.C113_utils",
    "Bips.C113_keys",
    "Bips.C113_versions",
    "Bips.C113_derivation",
    "Bips.C113_words",
    "Bips.C113_util",
    "Bips.C113_coins"
   ],
   "note": ""
  },
  {
   "property": "C114",
   "status": "proved",
   "theorems": [
    "Bips.C114_mnemonic",
    "Bips.C114_accepts",
    "Bips.C114_text",
    "Bips.C114_root",
    "Bips.C114_child",
    "Bips.C114_wallet",
    "Bips.C114_returns",
    "Bips.C114_panics"
   ],
   "note": ""
  },
  {
   "property": "C115",
   "status": "proved",
   "theorems": [
    "Bips.C115_pieces",
    "Bips.C115_frame",
    "Bips.C115_window"
   ],
   "note": ""
  },
  {
   "property": "C116",
   "status": "proved",
   "theorems": [
    "Bips.C116_words",
    "Bips.C116_versions",
    "Bips.C116_coins",
    "Bips.C116_seed"
   ],
   "note": ""
  },
  {
   "property": "C117",
   "status": "proved",
   "theorems": [
    "Bips.C117_lists",
    "Bips.C117_shipped",
    "Bips.C117_damaged",
    "Bips.C117_script",
    "Bips.C117_script_shipped",
    "Bips.C117_script_decimal"
   ],
   "note": ""
  },
  {
   "property": "C118",
   "status": "proved",
   "theorems": [
    "Bips.C118_easing",
    "Bips.C118_push",
    "Bips.C118_layout",
    "Bips.C118_picture",
    "Bips.C118_frame",
    "Bips.C118_window"
   ],
   "note": ""
  },
  {
   "property": "C119",
   "status": "proved",
   "theorems": [
    "Bips.C119_coins",
    "Bips.C119_printed",
    "Bips.C119_coins_loaded",
    "Bips.C119_versions",
    "Bips.C119_paths"
   ],
   "note": ""
  },
  {
   "property": "C120",
   "status": "proved",
   "theorems": [
    "Bips.C120_setters",
    "Bips.C120_entropy",
    "Bips.C120_mnemonic",
    "Bips.C120_once",
    "Bips.C120_runtime",
    "Bips.C120_fatal_iff",
    "Bips.C120_alone",
    "Bips.C120_alone_set",
    "Bips.C120_torn"
   ],
   "note": ""
  },
  {
   "property": "C121",
   "status": "proved",
   "theorems": [
    "Bips.C121_words",
    "Bips.C121_same_length",
    "Bips.C121_use_iff",
    "Bips.C121_beyond_iff",
    "Bips.C121_every_order",
    "Bips.C121_left",
    "Bips.C121_mnemonic",
    "Bips.C121_mnemonic_beyond",
    "Bips.C121_shipped"
   ],
   "note": ""
  },
  {
   "property": "C122",
   "status": "proved",
   "theorems": [
    "Bips.C122_reads",
    "Bips.C122_many",
    "Bips.C122_bytes",
    "Bips.C122_seed",
    "Bips.C122_only_seed",
    "Bips.C122_torn",
    "Bips.C122_runtime",
    "Bips.C122_fatal_iff"
   ],
   "note": ""
  },
  {
   "property": "C123",
   "status": "proved",
   "theorems": [
    "Bips.C123_depends",
    "Bips.C123_any_list",
    "Bips.C123_deterministic",
    "Bips.C123_no_access",
    "Bips.C123_beside",
    "Bips.C123_key_only",
    "Bips.C123_exact"
   ],
   "note": ""
  },
  {
   "property": "C124",
   "status": "proved",
   "theorems": [
    "Bips.C124_seed_text",
    "Bips.C124_torn",
    "Bips.C124_generate",
    "Bips.C124_count",
    "Bips.C124_same",
    "Bips.C124_mixed",
    "Bips.C124_complete"
   ],
   "note": ""
  },
  {
   "property": "C125",
   "status": "proved",
   "theorems": [
    "Bips.C125_list",
    "Bips.C125_index",
    "Bips.C125_index_runtime",
    "Bips.C125_seed",
    "Bips.C125_seed_text",
    "Bips.C125_entropy",
    "Bips.C125_entropy_runtime",
    "Bips.C125_valid",
    "Bips.C125_mnemonic",
    "Bips.C125_generate",
    "Bips.C125_roundtrip",
    "Bips.C125_shipped"
   ],
   "note": ""
  },
  {
   "property": "C126",
   "status": "proved",
   "theorems": [
    "Bips.C126_reader",
    "Bips.C126_mnemonic",
    "Bips.C126_generate",
    "Bips.C126_list",
    "Bips.C126_set",
    "Bips.C126_seed",
    "Bips.C126_exact"
   ],
   "note": ""
  }
 ]
}