{
 "C37": {
  "status": "partial",
  "note": "The face-value reading holds exactly when every component value is below 2^32 (C37_values_face_partial); C37_values_exact gives the exact reduction modulo 2^32 and C37_truncation shows a valid path where the full claim fails. C37_face_iff: this equivalence."
 },
 "C39": {
  "status": "partial",
  "note": "Holds for paths with at most 254 components, that is 255 values (C39_valueAtDepth_partial); C39_valueAtDepth_exact gives the exact result for all paths, C39_wraps a path where the claim fails. C39_valueAtDepth_iff: exactly for at most 255 values."
 },
 "C40": {
  "status": "partial",
  "note": "C40_replace_exact gives the result for every valid path, depth and value; C40_replace_partial: read back exactly when the hardened components still come first; C40_invalid_without_error shows that a successful replacement can give an invalid path."
 },
 "C22": {
  "status": "partial",
  "note": "C22_ckdPriv_partial proves the BIP-32 step whenever parse256(IL) < n; C22_ckdPriv_exact gives the exact behaviour for all inputs; C22_accepts_invalid_IL exhibits parse256(IL) >= n being accepted, where the full claim fails. C22_agrees_iff gives the exact set where code and BIP-32 agree."
 },
 "C23": {
  "status": "partial",
  "note": "C23_ckdPub_partial proves the BIP-32 step when 0 < parse256(IL) < n and the sum is not infinity; C23_ckdPub_exact covers every input; C23_deviations exhibits the three situations in which the full claim fails. C23_agrees_iff gives the exact set where code and BIP-32 agree."
 },
 "C31": {
  "status": "partial",
  "note": "Exact form (steps mod 256) proved for all paths in C31_depth_exact; the claim holds for at most 255 steps and fails at 256 (C31_wraps). C31_depth_iff: the claim holds exactly for up to 255 steps."
 },
 "C19": {
  "status": "partial",
  "note": "Proved for every registered entry except three (C19_prefixes_partial); C19_wrong_prefixes proves that the declared prefixes of the remaining three are wrong for every key and gives the prefixes actually printed, so the full claim is false."
 },
 "C07": {
  "status": "partial",
  "note": "raw=true is proved in full (C07_raw). Without raw, C07_bytes_exact gives the exact result for every accepted string, C07_bytes_partial the claimed len+1 bytes when the number of ASCII spaces is one less than the number of words; C07_layout_matters shows the claim fails for a double-space layout. C07_bytes_iff gives the exact set of accepted strings for which the claim holds."
 },
 "C12": {
  "status": "partial",
  "note": "C12_no_writes_partial: the property holds for every history whose writes avoid the elements of the current list; C12_corrupts: writing one element of the slice returned by GetWordList makes the package produce a mnemonic it rejects, so the full claim is false. C12_safe_iff: the exact histories in which every entropy still survives the round trip."
 },
 "C13": {
  "status": "partial",
  "note": "C13_consistent_partial names the interleavings in which a reader sees one consistent list; C13_torn and C13_mixed show that the claim fails for others (valid mnemonics rejected, invalid ones accepted). C13_newMnemonic_exact: the result of NewMnemonic under every interleaving; C13_newMnemonic_mixed: it can return, without an error, a sentence that both lists reject. C13_entropy_exact: the result of EntropyFromMnemonic under every interleaving; C13_schedule_iff and C13_newMnemonic_iff: exactly which interleavings are safe."
 },
 "C44": {
  "status": "partial",
  "note": "C44_root_key_exact gives the result for every text and every HMAC; C44_root_key_partial proves the claim whenever the HMAC's left half is a valid scalar; C44_panics shows the nil dereference otherwise, for every text of 16 bytes or more. C44_panic_iff: the exact set of crashing inputs."
 },
 "C46": {
  "status": "partial",
  "note": "The code never returns an error for a failed step: C46_failures_hidden (all-zero keys returned for every root of unregistered version) and C46_continues_after_failure (a valid-looking key below a failed step). C46_detectable_partial proves that for a valid root the failure can be recognised in the returned keys. C46_reports_iff: no failed step is ever reported."
 },
 "C47": {
  "status": "partial",
  "note": "C47_labels_exact characterises the valid labels for every request; C47_labels_partial proves the claim when every written number is below 2^31; C47_bad_label shows m/0/2147483648, where it fails. C47_labels_iff: the exact set of requests for which the claim holds."
 },
 "C49": {
  "status": "partial",
  "note": "C49_range_exact gives the result in all cases. The claim holds for ranges of one index (C49_single_partial); C49_inverted_accepted and C49_nested prove the two deviations for all inputs; C49_labels proves the labels describe the nested keys below index 2^31. C49_siblings_iff: siblings exactly for ranges of one index."
 },
 "C50": {
  "status": "partial",
  "note": "C50_addrHex_exact: the preimage is right exactly when both coordinates are at least 2^248; C50_addrHex_partial proves the claim there; C50_wrong_key exhibits the private key 153, whose address is wrong."
 },
 "C57": {
  "note": "Lookups by type and by path component are exact for all keys and sort outcomes. By name the result is some coin of that name (C57_by_name), the unique one if the name is unique (C57_by_name_unique), and any of the rows of that name may be returned (C57_by_name_choice, C57_by_name_ambiguous)."
 },
 "C59": {
  "note": "No index expression panics (C59_index). A history can panic only through RootKeyFromSeed's nil dereference (C59_panic_only_bad_seed, C59_bad_seed_panics; see C44)."
 },
 "C60": {
  "status": "partial",
  "note": "C60_tabs_partial: the tabs belong to the current root key and path in every reachable state except after a refused root key text; C60_stale_tabs proves the failure for every good root key. C60_stale_iff: stale exactly when the root key text was refused while tabs were shown."
 },
 "C62": {
  "status": "partial",
  "note": "False as stated: C62_nothing_selected (for every good root key). C62_selection_partial: the index is -1 or valid whenever tabs are shown, one click selects again, and no layout loses a selection. C62_none_selected_iff: exactly after which histories no tab is selected (a rebuild left no tabs and no click on a tab or the right arrow followed); C62_frame_iff the same for one frame; update_eq_checks shows that the checks named there are those of the model."
 },
 "C66": {
  "note": "Proves the actual behaviour, which is a defect from a user's point of view."
 },
 "C73": {
  "status": "partial",
  "note": "C73_deserialize_partial proves it for slices of at least 82 bytes or without room for 82; C73_deserialize_iff gives the exact condition, C73_deserialize_exact the exact effect, C73_erases a counterexample. C73_addChecksum_exact does the same for AddChecksumDblSha256ToBytes."
 },
 "C75": {
  "status": "partial",
  "note": "False of the code. C75_seed_partial proves it for mnemonics written with single spaces; C75_seed_iff shows that two texts give the same seeds under all hash functions only if they are equal byte by byte; C75_space_changes_seed is a counterexample with the real hash functions, evaluated by the kernel."
 },
 "C76": {
  "status": "partial",
  "note": "False of the code. C76_shipped_partial proves it for mnemonics made from the shipped lists with passphrases in NFKD; C76_seed_iff gives the exact domain; C76_japanese_vector shows the first official Japanese vector failing, with the real hash functions. The Unicode character database is a parameter constrained by the stated entries (Spec/Nfkd.lean)."
 },
 "C77": {
  "status": "partial",
  "note": "The length is false of the code (C77_too_long). C77_seed_partial proves the rest, C77_master the link to the root key. rand.Read is modelled as io.ReadFull on a source of chunks with errors (Go 1.22)."
 },
 "C78": {
  "status": "partial",
  "note": "False of the code: C78_silent and C78_same_for_all. C78_entropy_partial proves it for sources that deliver, C78_entropy_iff shows that this is the exact domain, C78_two that successive mnemonics use different bytes."
 },
 "C79": {
  "note": "float32 and float64 are rational numbers with round-to-nearest-even at every operation (Go/Float.lean); a parameter says whether the compiler fuses multiply and add. Times are in order and after the zero time. C79_stuck shows that the rounding term in C79_duration is needed."
 },
 "C88": {
  "status": "partial",
  "note": "False of the code: C88_differs (m/2147483648 is an error where int has 32 bits and the first hardened child where it has 64). C88_same_partial proves it for paths whose numbers are below 2^31, C88_same_iff shows that this is the exact domain; C88_valid_narrow and C88_face_narrow describe the 32-bit platform completely, where C37 holds without exception."
 },
 "C90": {
  "status": "partial",
  "note": "False of the code (C90_full_false): C90_accepts_any shows that any 78 bytes with their checksum are accepted, and C90_no_defect_refused gives for each defect of Test Vector 5 a key with that defect alone which is accepted. C90_valid_accepted_partial proves that valid keys are accepted, C90_checked_iff gives the exact checks a caller has to add, C90_defects shows that the list of defects is complete, C90_derives_iff and C90_derives_from say which of them are noticed by NewChildKey."
 },
 "C92": {
  "status": "partial",
  "note": "False of the code (C92_full_false, in both directions; C92_bip32 shows that it holds of BIP-32). C92_agree_partial proves it, with equal keys, where IL is neither 0 nor minus the secret; C92_agree_iff and C92_loops give the exact domain, C92_errors all errors."
 }
}