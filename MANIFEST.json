{
 "claims": [
  {
   "property": "C01",
   "status": "proved",
   "theorems": [
    "TCose.Props.C01_tbs_injective",
    "TCose.Props.C01_hash_injective"
   ],
   "note": "createTbs and createTbsHash; lengths below 2^64"
  },
  {
   "property": "C02",
   "status": "proved",
   "theorems": [
    "TCose.Props.C02_create_tbs",
    "TCose.Props.C02_create_tbs_hash",
    "TCose.Props.C02_hash_unsupported"
   ],
   "note": ""
  },
  {
   "property": "C03",
   "status": "partial",
   "theorems": [
    "TCose.Props.C03_round_trip_partial",
    "TCose.Props.C03_openssl",
    "TCose.Props.C03_psa",
    "TCose.Props.C03_exact",
    "TCose.Props.C03_accepted_iff",
    "TCose.Props.C03_claim_false",
    "TCose.Props.C03_short_circuit_kid_refused",
    "TCose.Props.C03_short_circuit_own_kid_refused",
    "TCose.Props.C03_short_circuit_pss_refused"
   ],
   "note": "The code refuses its own messages when the signer's kid is the short-circuit kid, when a short-circuit signer sets its own kid, and for short-circuit PS*; proved for everything else. C03_openssl and C03_psa derive the crypto contracts from the adapter models. C03_exact gives the outcome in every case, also where options forbid the message, and C03_accepted_iff says that the conditions are necessary too, for adapters whose signatures are not mistaken for repeated hashes or the other way round."
  },
  {
   "property": "C04",
   "status": "partial",
   "theorems": [
    "TCose.Props.C04_round_trip_partial",
    "TCose.Props.C04_exact",
    "TCose.Props.C04_accepted_iff"
   ],
   "note": "Same exclusions as C03; the exact outcome in the excluded cases is C04_exact."
  },
  {
   "property": "C05",
   "status": "partial",
   "theorems": [
    "TCose.Props.C05_violated_swapped",
    "TCose.Props.C05_iff",
    "TCose.Props.C05_witness",
    "TCose.Props.C05_claim_false",
    "TCose.Props.C05_equal_args_partial",
    "TCose.Props.C05_round_trip_swapped"
   ],
   "note": "The code violates the property: aad and payload are swapped. Negation proved; C05_iff: the property holds of a successful call exactly when both arguments are the same octets."
  },
  {
   "property": "C06",
   "status": "proved",
   "theorems": [
    "TCose.Props.C06_two_step_equals_one_shot",
    "TCose.Props.C06_limits"
   ],
   "note": "Beyond the limits the two-step API reports an error (C06_limits)."
  },
  {
   "property": "C07",
   "status": "proved",
   "theorems": [
    "TCose.Props.C07_output",
    "TCose.Props.C07_sign",
    "TCose.Props.C07_sign_detached"
   ],
   "note": ""
  },
  {
   "property": "C08",
   "status": "proved",
   "theorems": [
    "TCose.Props.C08_size_then_sign",
    "TCose.Props.C08_sign_then_size",
    "TCose.Props.C08_no_signing",
    "TCose.Props.C08_openssl",
    "TCose.Props.C08_psa",
    "TCose.Props.C08_two_step"
   ],
   "note": "With EdDSA the size query is covered when no auxiliary buffer is set (with one, it is undefined behaviour: finding on C43)."
  },
  {
   "property": "C09",
   "status": "proved",
   "theorems": [
    "TCose.Props.C09_in_bounds",
    "TCose.Props.C08_size_then_sign",
    "TCose.Props.C09_flag"
   ],
   "note": "C09_flag says when the model's flag for undefined behaviour is set in writing."
  },
  {
   "property": "C10",
   "status": "proved",
   "theorems": [
    "TCose.Props.C10_acceptance",
    "TCose.Props.C10_refused",
    "TCose.Props.C10_openssl",
    "TCose.Props.C10_psa"
   ],
   "note": "Algorithm as the 32-bit number the code derives; see C21 for the truncation"
  },
  {
   "property": "C11",
   "status": "proved",
   "theorems": [
    "TCose.Props.C11_short_circuit",
    "TCose.Props.C10_acceptance"
   ],
   "note": "C10_acceptance covers every other kid"
  },
  {
   "property": "C12",
   "status": "proved",
   "theorems": [
    "TCose.Props.C12_verify_iff",
    "TCose.Props.C12_sign_repeats",
    "TCose.Props.C12_sign_verify"
   ],
   "note": ""
  },
  {
   "property": "C13",
   "status": "partial",
   "theorems": [
    "TCose.Props.C13_violated_empty_signature",
    "TCose.Props.C13_claim_false",
    "TCose.Props.C13_exact",
    "TCose.Props.C13_empty_signature_rejected",
    "TCose.Props.C13_no_hash_partial",
    "TCose.Props.C13_api_witness"
   ],
   "note": "The code violates the property for PS256/PS384/PS512 (empty signature). Negation proved; C13_exact says the signature is empty for these three and no others."
  },
  {
   "property": "C14",
   "status": "partial",
   "theorems": [
    "TCose.Props.C14_exact",
    "TCose.Props.C14_looked",
    "TCose.Props.C14_no_crypto",
    "TCose.Props.C14_independent_partial",
    "TCose.Props.C14_same_error",
    "TCose.Props.C14_claim_false"
   ],
   "note": "With an EdDSA message and too small an auxiliary buffer decode-only fails, depending on the external data. C14_exact says that this is the only exception, for all octets, with the error codes."
  },
  {
   "property": "C15",
   "status": "proved",
   "theorems": [
    "TCose.Props.C15_policy",
    "TCose.Props.C15_both",
    "TCose.Props.C15_refused",
    "TCose.Props.C15_neither"
   ],
   "note": ""
  },
  {
   "property": "C16",
   "status": "partial",
   "theorems": [
    "TCose.Props.C16_exact",
    "TCose.Props.C16_nth_tag_partial",
    "TCose.Props.C16_violated_index_four",
    "TCose.Props.C16_claim_false"
   ],
   "note": "The code violates the property at index 4 (read behind the array). C16_exact says what is returned for every index and all tags; the rest of the claim is true for tags other than 2^64-1."
  },
  {
   "property": "C17",
   "status": "proved",
   "theorems": [
    "TCose.Props.C17_tag_storage",
    "TCose.Props.C17_guard_off_by_one",
    "TCose.Props.C24_no_overrun"
   ],
   "note": "The guard alone would not do: it rests on QCBOR's limit of four tags"
  },
  {
   "property": "C18",
   "status": "proved",
   "theorems": [
    "TCose.Props.C18_slices"
   ],
   "note": ""
  },
  {
   "property": "C19",
   "status": "proved",
   "theorems": [
    "TCose.Props.C19_outputs"
   ],
   "note": ""
  },
  {
   "property": "C20",
   "status": "proved",
   "theorems": [
    "TCose.Props.C20_no_uninitialised"
   ],
   "note": ""
  },
  {
   "property": "C21",
   "status": "partial",
   "theorems": [
    "TCose.Props.C21_iff",
    "TCose.Props.C21_alg_partial",
    "TCose.Props.C21_claim_false"
   ],
   "note": "The code truncates algorithm ids below -2^31 to 32 bits. C21_iff: the one reported is the one in the message exactly if it is not below -2^31."
  },
  {
   "property": "C22",
   "status": "partial",
   "theorems": [
    "TCose.Props.C22_exact",
    "TCose.Props.C22_unknown_critical_partial",
    "TCose.Props.C22_no_zero",
    "TCose.Props.C22_claim_false",
    "TCose.Props.C22_label_zero_false"
   ],
   "note": "The label 0 in a crit list ends the check early. C22_exact says for all octets which messages are refused for critical parameters, with the code; otherwise the option makes no difference."
  },
  {
   "property": "C23",
   "status": "proved",
   "theorems": [
    "TCose.Props.C23_crit"
   ],
   "note": ""
  },
  {
   "property": "C24",
   "status": "proved",
   "theorems": [
    "TCose.Props.C24_limits",
    "TCose.Props.C24_no_overrun",
    "TCose.Props.C24_flag"
   ],
   "note": "C24_flag says when the model's flag for undefined behaviour is set in going through label lists."
  },
  {
   "property": "C25",
   "status": "partial",
   "theorems": [
    "TCose.Props.C25_duplicates_partial",
    "TCose.Props.C25_claim_false"
   ],
   "note": "Content types of different kind in the two headers are not noticed."
  },
  {
   "property": "C26",
   "status": "partial",
   "theorems": [
    "TCose.Props.C26_content_type_partial",
    "TCose.Props.C26_claim_false",
    "TCose.Props.C26_returned"
   ],
   "note": "Both output fields are filled if the two headers hold content types of different kind."
  },
  {
   "property": "C27",
   "status": "proved",
   "theorems": [
    "TCose.Props.C27_require_kid"
   ],
   "note": ""
  },
  {
   "property": "C28",
   "status": "partial",
   "theorems": [
    "TCose.Props.C28_four_elements_partial",
    "TCose.Props.C28_claim_false",
    "TCose.Props.C89_first_four"
   ],
   "note": "Arrays with more than four elements are accepted. C89_first_four: with what is read as items behind the fourth the result is that without."
  },
  {
   "property": "C29",
   "status": "proved",
   "theorems": [
    "TCose.Props.C29_verify_no_hidden_state",
    "TCose.Props.C29_verify_reuse",
    "TCose.Props.C29_sign_no_hidden_state",
    "TCose.Props.C29_sign_reuse"
   ],
   "note": ""
  },
  {
   "property": "C30",
   "status": "partial",
   "theorems": [
    "TCose.Props.C30_sign_exact",
    "TCose.Props.C30_sign_zero",
    "TCose.Props.C30_sign_fresh",
    "TCose.Props.C30_verify_fresh",
    "TCose.Props.C30_verify_history",
    "TCose.Props.C30_verify_exact",
    "TCose.Props.C30_verify_other_partial",
    "TCose.Props.C30_claim_false"
   ],
   "note": "The size is never reset: after an EdDSA message the query keeps returning its size for later messages with another algorithm."
  },
  {
   "property": "C31",
   "status": "proved",
   "theorems": [
    "TCose.Props.C31_verify",
    "TCose.Props.C31_sign",
    "TCose.Props.C43_no_ub_partial"
   ],
   "note": ""
  },
  {
   "property": "C32",
   "status": "proved",
   "theorems": [
    "TCose.Props.C32_supported_iff",
    "TCose.Props.C32_sign_refused",
    "TCose.Props.C32_sign_ok_enabled",
    "TCose.Props.C32_verify_enabled",
    "TCose.Props.C32_verify_refused"
   ],
   "note": ""
  },
  {
   "property": "C33",
   "status": "proved",
   "theorems": [
    "TCose.Props.C33_sign_aad",
    "TCose.Props.C33_encode_signature",
    "TCose.Props.C33_verify_aad",
    "TCose.Props.C33_verify"
   ],
   "note": ""
  },
  {
   "property": "C34",
   "status": "proved",
   "theorems": [
    "TCose.Props.C34_sign",
    "TCose.Props.C34_verify",
    "TCose.Props.C34_openssl_sign",
    "TCose.Props.C34_openssl_verify",
    "TCose.Props.C34_openssl_eddsa",
    "TCose.Props.C34_openssl_hash",
    "TCose.Props.C34_psa",
    "TCose.Props.C34_psa_hash",
    "TCose.Props.C34_psa_start"
   ],
   "note": "API and both real adapters."
  },
  {
   "property": "C35",
   "status": "proved",
   "theorems": [
    "TCose.Props.C35_hash_fits",
    "TCose.Props.C35_no_hash_buffer_size",
    "TCose.Props.C35_openssl",
    "TCose.Props.C35_test"
   ],
   "note": ""
  },
  {
   "property": "C36",
   "status": "partial",
   "theorems": [
    "TCose.Props.C36_sha256_partial",
    "TCose.Props.C36_claim_false",
    "TCose.Props.C36_violated_no_return",
    "TCose.Props.C36_test_adapter_hash",
    "TCose.Props.C36_tbs_hash",
    "TCose.Props.C36_short_circuit_message"
   ],
   "note": "sha256_update does not return for a chunk of 2^32 octets or more (32-bit loop counter); proved for all chunks below that."
  },
  {
   "property": "C37",
   "status": "proved",
   "theorems": [
    "TCose.Props.C37_der_to_cose",
    "TCose.Props.C37_key_size",
    "TCose.Props.C37_round_trip",
    "TCose.Props.C37_cose_to_der",
    "TCose.Props.C37_length_refused",
    "TCose.Props.C37_verify_length_refused"
   ],
   "note": ""
  },
  {
   "property": "C38",
   "status": "partial",
   "theorems": [
    "TCose.Props.C38_in_bounds_partial",
    "TCose.Props.C38_sized_buffer",
    "TCose.Props.C38_claim_false",
    "TCose.Props.C38_api_witness",
    "TCose.Props.C08_openssl"
   ],
   "note": "The code violates the property: it writes outside the buffer for buffer sizes between the sum of the lengths of r and s and twice the key size. The exact condition is proved, and that buffers of the computed size are safe."
  },
  {
   "property": "C39",
   "status": "partial",
   "theorems": [
    "TCose.Props.C39_sig_size",
    "TCose.Props.C39_sign",
    "TCose.Props.C39_verify_partial",
    "TCose.Props.C39_leak",
    "TCose.Props.C39_verify_der",
    "TCose.Props.C39_sign_eddsa",
    "TCose.Props.C39_verify_eddsa",
    "TCose.Props.C39_hash",
    "TCose.Props.C39_leak_reachable",
    "TCose.Props.C39_claim_false"
   ],
   "note": "Two error paths of verification leak (set0 failure, DER copy failure); all other paths of all functions are proved clean, and one leak is reachable with a sound library."
  },
  {
   "property": "C40",
   "status": "proved",
   "theorems": [
    "TCose.Props.C40_only_signed",
    "TCose.Props.C40_tampered"
   ],
   "note": ""
  },
  {
   "property": "C41",
   "status": "proved",
   "theorems": [
    "TCose.Props.C41_terminates",
    "TCose.Props.C93_linear"
   ],
   "note": "The model's loops run on fuel bounded by the input; the mark for running out is never the result. The number of steps is C93_linear. Signing: the model is a total function without loops but short_circuit_sign."
  },
  {
   "property": "C42",
   "status": "proved",
   "theorems": [
    "TCose.Props.C42_protected_reference"
   ],
   "note": ""
  },
  {
   "property": "C43",
   "status": "partial",
   "theorems": [
    "TCose.Props.C43_no_ub_partial",
    "TCose.Props.C43_violated_size_query_with_aux",
    "TCose.Props.C43_claim_false",
    "TCose.Props.C43_ub_iff",
    "TCose.Props.C43_two_step_no_ub_partial",
    "TCose.Props.C43_two_step_ub_iff"
   ],
   "note": "The code violates the property for EdDSA size calculation with a registered auxiliary buffer; C43_ub_iff and C43_two_step_ub_iff say exactly when."
  },
  {
   "property": "C44",
   "status": "proved",
   "theorems": [
    "TCose.Props.C44_both_content_types"
   ],
   "note": ""
  },
  {
   "property": "C45",
   "status": "partial",
   "theorems": [
    "TCose.Props.C45_openssl_partial",
    "TCose.Props.C45_openssl_iff",
    "TCose.Props.C45_psa_partial",
    "TCose.Props.C45_test_partial",
    "TCose.Props.C45_hash",
    "TCose.Props.C45_claim_false",
    "TCose.Props.C45_openssl_false"
   ],
   "note": "The code violates the property: OpenSSL size calculation accepts EdDSA when disabled, support queries name disabled hashes, the test adapter's size calculation accepts everything. Exact sets proved for each adapter."
  },
  {
   "property": "C46",
   "status": "proved",
   "theorems": [
    "TCose.Props.C46_bad_key",
    "TCose.Props.C46_good_key",
    "TCose.Props.C46_api_sign",
    "TCose.Props.C46_api_verify",
    "TCose.Props.C46_no_key"
   ],
   "note": "An unsupported algorithm is reported before the key is looked at."
  },
  {
   "property": "C47",
   "status": "proved",
   "theorems": [
    "TCose.Props.C47_nested_output"
   ],
   "note": ""
  },
  {
   "property": "C48",
   "status": "proved",
   "theorems": [
    "TCose.Props.C48_outcome",
    "TCose.Props.C48_returned"
   ],
   "note": ""
  },
  {
   "property": "C49",
   "status": "partial",
   "theorems": [
    "TCose.Props.C49_released_iff_partial",
    "TCose.Props.C49_not_started",
    "TCose.Props.C49_claim_false"
   ],
   "note": "The code violates the property: the operation stays active after an error. Exact condition proved."
  },
  {
   "property": "C50",
   "status": "partial",
   "theorems": [
    "TCose.Props.C50_handle_partial",
    "TCose.Props.C50_mark_and_upper_half_ignored",
    "TCose.Props.C50_claim_false"
   ],
   "note": "The code violates the property: handles are cut to 32 bits and the library mark is ignored."
  },
  {
   "property": "C51",
   "status": "proved",
   "theorems": [
    "TCose.Props.C51_prefix_free",
    "TCose.Props.C51_truncated",
    "TCose.Props.C51_stream"
   ],
   "note": ""
  },
  {
   "property": "C52",
   "status": "proved",
   "theorems": [
    "TCose.Props.C52_exclusive",
    "TCose.Props.C52_exclusive_plain"
   ],
   "note": ""
  },
  {
   "property": "C53",
   "status": "proved",
   "theorems": [
    "TCose.Props.C53_looser"
   ],
   "note": ""
  },
  {
   "property": "C54",
   "status": "proved",
   "theorems": [
    "TCose.Props.C54_levels_balanced",
    "TCose.Props.C54_limit"
   ],
   "note": "C54_limit records what the check does not notice."
  },
  {
   "property": "C55",
   "status": "proved",
   "theorems": [
    "TCose.Props.C55_sign",
    "TCose.Props.C55_sign_detached",
    "TCose.Props.C55_work_irrelevant"
   ],
   "note": ""
  },
  {
   "property": "C56",
   "status": "proved",
   "theorems": [
    "TCose.Props.C56_verify",
    "TCose.Props.C56_options"
   ],
   "note": ""
  },
  {
   "property": "C57",
   "status": "partial",
   "theorems": [
    "TCose.Props.C57_exact",
    "TCose.Props.C57_call",
    "TCose.Props.C57_right_iff",
    "TCose.Props.C57_most_recent_partial",
    "TCose.Props.C57_reported_partial",
    "TCose.Props.C57_stale_tags",
    "TCose.Props.C57_fresh_reports_zero",
    "TCose.Props.C57_claim_false"
   ],
   "note": "The code violates the property: a message refused for its tags leaves the tags of an earlier message, and a fresh context reports the tag 0. C57_exact says what tags are there after any sequence of calls, and C57_right_iff when that is what was asked for."
  },
  {
   "property": "C58",
   "status": "partial",
   "theorems": [
    "TCose.Props.C58_exact",
    "TCose.Props.C58_replica_partial",
    "TCose.Props.C58_content_type_dropped",
    "TCose.Props.C58_kid_replaced",
    "TCose.Props.C58_short_circuit_ps",
    "TCose.Props.C58_eddsa_refused",
    "TCose.Props.C58_claim_false"
   ],
   "note": "The copy drops content types, replaces the key id with short-circuit signatures, refuses EdDSA, and refuses short-circuit PS* where the library returns an empty signature. Equality proved for every other context, and what is made for every context (C58_exact)."
  },
  {
   "property": "C59",
   "status": "partial",
   "theorems": [
    "TCose.Props.C59_number_partial",
    "TCose.Props.C59_twelve_octets",
    "TCose.Props.C59_int_min"
   ],
   "note": "The code violates the property: XXX for numbers beyond 999999999 and undefined behaviour for the least number. Exact result proved for every other number."
  },
  {
   "property": "C60",
   "status": "partial",
   "theorems": [
    "TCose.Props.C60_report",
    "TCose.Props.C60_verdict_partial",
    "TCose.Props.C60_unknown_name",
    "TCose.Props.C60_wide_result",
    "TCose.Props.C60_output",
    "TCose.Props.C60_status"
   ],
   "note": "The code violates the property: a name that selects no test counts as success, and results are cut to 32 bits. Exact counts, the whole output including the summary line, and the exit status including leaks proved; verdict proved for known names and 32-bit results."
  },
  {
   "property": "C61",
   "status": "proved",
   "theorems": [
    "TCose.Props.C61_refused",
    "TCose.Props.C61_truncated"
   ],
   "note": ""
  },
  {
   "property": "C62",
   "status": "partial",
   "theorems": [
    "TCose.Props.C62_well_formed_partial",
    "TCose.Props.C62_claim_false",
    "TCose.Props.C62_protected_trailing"
   ],
   "note": "The code violates the property: octets that are no CBOR item are passed over in the values of parameters that are not processed and in elements behind the signature, and anything may follow the map in the protected header. Proved for messages without such octets; the grammar of what is accepted is exact otherwise."
  },
  {
   "property": "C63",
   "status": "proved",
   "theorems": [
    "TCose.Props.C63_seen"
   ],
   "note": "The algorithm is reported modulo 2^32 (finding on C21)."
  },
  {
   "property": "C64",
   "status": "partial",
   "theorems": [
    "TCose.Props.C64_codes_partial",
    "TCose.Props.C64_first",
    "TCose.Props.C64_claim_false"
   ],
   "note": "The code violates the property for one code: CBOR_NOT_WELL_FORMED is returned for every element of the crit list that cannot be read, also when it is well-formed. All other codes proved."
  },
  {
   "property": "C65",
   "status": "proved",
   "theorems": [
    "TCose.Props.C65_verdict",
    "TCose.Props.C65_encoding",
    "TCose.Props.C65_form",
    "TCose.Props.C65_returned"
   ],
   "note": "For messages without tags on the values of labels 1 to 6; C88 is for the rest."
  },
  {
   "property": "C66",
   "status": "proved",
   "theorems": [
    "TCose.Props.C66_psa",
    "TCose.Props.C66_psa_hash",
    "TCose.Props.C66_openssl_verify_ecdsa",
    "TCose.Props.C66_openssl_length",
    "TCose.Props.C66_openssl_verify_pss",
    "TCose.Props.C66_openssl_unsupported",
    "TCose.Props.C66_openssl_sign_ecdsa",
    "TCose.Props.C66_openssl_sign_pss",
    "TCose.Props.C66_openssl_eddsa",
    "TCose.Props.C66_openssl_size",
    "TCose.Props.C66_openssl_hash"
   ],
   "note": ""
  },
  {
   "property": "C67",
   "status": "proved",
   "theorems": [
    "TCose.Props.C67_sign",
    "TCose.Props.C67_openssl",
    "TCose.Props.C67_psa",
    "TCose.Props.C67_size",
    "TCose.Props.C67_size_openssl",
    "TCose.Props.C67_size_psa",
    "TCose.Props.C67_limit"
   ],
   "note": "The size query with EdDSA is covered when no auxiliary buffer is set (with one, the query is undefined behaviour: finding on C43)."
  },
  {
   "property": "C68",
   "status": "proved",
   "theorems": [
    "TCose.Props.C68_decode_only",
    "TCose.Props.C68_verify_openssl",
    "TCose.Props.C68_verify_psa",
    "TCose.Props.C68_message_codes_occur",
    "TCose.Props.C68_verify_openssl_exact",
    "TCose.Props.C68_verify_psa_exact",
    "TCose.Props.C68_sign_openssl",
    "TCose.Props.C68_sign_psa",
    "TCose.Props.C68_never",
    "TCose.Props.C68_no_alg",
    "TCose.Props.C68_no_alg_tagged",
    "TCose.Props.openssl_quiet",
    "TCose.Props.psa_quiet"
   ],
   "note": ""
  },
  {
   "property": "C69",
   "status": "proved",
   "theorems": [
    "TCose.Props.C69_messages",
    "TCose.Props.C69_outcomes",
    "TCose.Props.C69_table",
    "TCose.Props.C69_suite",
    "TCose.Props.C69_test_adapter"
   ],
   "note": "QCBOR with its usual limits; messages contain no tag but 18, so the processing of tag contents plays no part."
  },
  {
   "property": "C70",
   "status": "proved",
   "theorems": [
    "TCose.Props.C70_verify_test",
    "TCose.Props.C70_verify_openssl",
    "TCose.Props.C70_verify_psa",
    "TCose.Props.C70_verify_test_tagged",
    "TCose.Props.C70_verify_openssl_tagged",
    "TCose.Props.C70_verify_psa_tagged",
    "TCose.Props.C70_sign_test",
    "TCose.Props.C70_size_test",
    "TCose.Props.C70_test_size_only",
    "TCose.Props.C70_test_code",
    "TCose.Props.C70_test_no_eddsa"
   ],
   "note": "Test adapter: pieces below 2^32 octets, beyond which its hash function does not return (C36). Signing with OpenSSL and PSA is C67_openssl and C67_psa."
  },
  {
   "property": "C71",
   "status": "proved",
   "theorems": [
    "TCose.Props.C71_nested",
    "TCose.Props.C71_tagged",
    "TCose.Props.C71_size"
   ],
   "note": "Content nesting and total length within the encoder's limits; the adapter's signatures fit the room given (SignFits)."
  },
  {
   "property": "C72",
   "status": "proved",
   "theorems": [
    "TCose.Props.C72_self",
    "TCose.Props.C72_detached",
    "TCose.Props.C72_verify_fail",
    "TCose.Props.C72_example",
    "TCose.Props.C72_cwt",
    "TCose.Props.C72_decode_only",
    "TCose.Props.C72_signing_errors",
    "TCose.Props.C72_hash_fail",
    "TCose.Props.C72_content_type",
    "TCose.Props.C72_tags",
    "TCose.Props.C72_get_size",
    "TCose.Props.C72_structure",
    "TCose.Props.C72_order_masked",
    "TCose.Props.C72_test_adapter"
   ],
   "note": "QCBOR with its usual limits. The values tests return when they fail are as in the code except where results are added to a thousand (comment in TestCode/SuiteMore)."
  },
  {
   "property": "C73",
   "status": "proved",
   "theorems": [
    "TCose.Props.C73_each",
    "TCose.Props.C73_output",
    "TCose.Props.C73_status"
   ],
   "note": "Build of Makefile.test; what PrintSizesTCose prints before is C81."
  },
  {
   "property": "C74",
   "status": "proved",
   "theorems": [
    "TCose.Props.C74_loop",
    "TCose.Props.C74_basic_row",
    "TCose.Props.C74_basic",
    "TCose.Props.C74_sig_fail_row",
    "TCose.Props.C74_sig_fail",
    "TCose.Props.C74_sig_fail_blind",
    "TCose.Props.C74_cwt_row",
    "TCose.Props.C74_cwt",
    "TCose.Props.C74_size_row",
    "TCose.Props.C74_size",
    "TCose.Props.C74_known_good_row",
    "TCose.Props.C74_known_good",
    "TCose.Props.C74_unsupported_row",
    "TCose.Props.C74_unsupported",
    "TCose.Props.C74_bad_aux_row",
    "TCose.Props.C74_bad_aux",
    "TCose.Props.C74_keys_loop",
    "TCose.Props.C74_keys"
   ],
   "note": "QCBOR with its usual limits. The tampering and CWT tests overwrite the value of a mismatch (finding 28); both versions are covered."
  },
  {
   "property": "C75",
   "status": "proved",
   "theorems": [
    "TCose.Props.C75_each",
    "TCose.Props.C75_output",
    "TCose.Props.C75_status",
    "TCose.Props.C75_balance",
    "TCose.Props.C75_leaks",
    "TCose.Props.C75_openssl",
    "TCose.Props.C75_psa"
   ],
   "note": "QCBOR with its usual limits; the octets of the keys are not modelled: that the libraries read them and accept the signatures in the table is part of the contract (OpensslReady, PsaReady)."
  },
  {
   "property": "C76",
   "status": "proved",
   "theorems": [
    "TCose.Props.C76_one_step",
    "TCose.Props.C76_two_step",
    "TCose.Props.C76_openssl",
    "TCose.Props.C76_psa"
   ],
   "note": "QCBOR with its usual limits. That the libraries make keys that work is part of the contract (Makes, Spec.Psa.KeyFor)."
  },
  {
   "property": "C77",
   "status": "proved",
   "theorems": [
    "TCose.Props.C77_dynamic",
    "TCose.Props.C76_openssl"
   ],
   "note": "QCBOR with its usual limits; the size of the NULL buffer (SIZE_MAX in the code) is at least 1000."
  },
  {
   "property": "C78",
   "status": "partial",
   "theorems": [
    "TCose.Props.C78_one_step",
    "TCose.Props.C78_two_step_partial",
    "TCose.Props.C78_dynamic",
    "TCose.Props.C78_claim_false",
    "TCose.Props.C78_exit_status",
    "TCose.Props.C78_openssl_key",
    "TCose.Props.C78_psa_key",
    "TCose.Props.C78_no_key"
   ],
   "note": "Proved for the one-step and dynamic examples. For the two-step example one direction is false (C78_claim_false: an adapter with signatures of 194 octets makes QCBOREncode_Finish fail, and 0 is returned), the other is proved. The exit status of both programs is 0 whatever happened (C78_exit_status)."
  },
  {
   "property": "C79",
   "status": "partial",
   "theorems": [
    "TCose.Props.C79_one_step",
    "TCose.Props.C79_two_step",
    "TCose.Props.C79_dynamic",
    "TCose.Props.C79_openssl_partial",
    "TCose.Props.C79_openssl_leak",
    "TCose.Props.C79_openssl_left",
    "TCose.Props.C79_psa"
   ],
   "note": "Contract of OpenSSL used: where EVP_PKEY_keygen returns 1 the key is not NULL. Missing and false: that everything is freed with OpenSSL (C79_openssl_leak: the EVP_PKEY_CTX is left by every run that succeeds) and that failing runs free what they hold (C79_openssl_left says exactly what is left)."
  },
  {
   "property": "C80",
   "status": "proved",
   "theorems": [
    "TCose.Props.C80_dump",
    "TCose.Props.C80_injective"
   ],
   "note": "The length is printed with %ld; lengths are below 2^63."
  },
  {
   "property": "C81",
   "status": "proved",
   "theorems": [
    "TCose.Props.C81_line",
    "TCose.Props.C81_sizes",
    "TCose.Props.C81_large"
   ],
   "note": "The sizes themselves, which the compiler knows, are parameters."
  },
  {
   "property": "C82",
   "status": "proved",
   "theorems": [
    "TCose.Props.C82_basic",
    "TCose.Props.C82_sig_fail",
    "TCose.Props.C82_cwt",
    "TCose.Props.C82_known_good",
    "TCose.Props.C82_unsupported",
    "TCose.Props.C82_bad_aux",
    "TCose.Props.C82_size",
    "TCose.Props.C82_tables",
    "TCose.Props.C82_indef",
    "TCose.Props.C82_all_parameters",
    "TCose.Props.C82_self",
    "TCose.Props.C82_detached",
    "TCose.Props.C82_verify_fail",
    "TCose.Props.C82_signing_errors",
    "TCose.Props.C82_make_cwt",
    "TCose.Props.C82_decode_only",
    "TCose.Props.C82_example",
    "TCose.Props.C82_content_type",
    "TCose.Props.C82_structure",
    "TCose.Props.C82_hash_fail",
    "TCose.Props.C82_tags",
    "TCose.Props.C82_get_size",
    "TCose.Props.C82_program",
    "TCose.Props.C82_shows",
    "TCose.Props.C82_accepts_everything"
   ],
   "note": "Each an equivalence with the facts spelled out in calls of the library; nothing is assumed of adapter, keys or memory (C82_decode_only: its second buffer has 10 octets, as in the source). C82_accepts_everything assumes the library of C75 and takes out its checks of signatures."
  },
  {
   "property": "C83",
   "status": "proved",
   "theorems": [
    "TCose.Props.C83_interop",
    "TCose.Props.C83_detached",
    "TCose.Props.C83_openssl_to_psa",
    "TCose.Props.C83_psa_to_openssl",
    "TCose.Props.C83_openssl_builds",
    "TCose.Props.C83_psa_builds"
   ],
   "note": "Signers whose key id makes the verifying build take the message for the wrong kind are excluded (BuildFits; the counterexample is C03_claim_false). EdDSA between OpenSSL and PSA is excluded: the PSA adapter has none. That one library accepts the other's signatures is the assumption (OpensslToPsa, PsaToOpenssl)."
  },
  {
   "property": "C84",
   "status": "proved",
   "theorems": [
    "TCose.Props.C84_accepted",
    "TCose.Props.C84_iff",
    "TCose.Props.C84_each",
    "TCose.Props.C84_tagged"
   ],
   "note": "With tags on the values of labels 1 to 6 it is said of what is left of the headers (C88)."
  },
  {
   "property": "C85",
   "status": "partial",
   "theorems": [
    "TCose.Props.C85_kept_partial",
    "TCose.Props.C85_claim_false",
    "TCose.Props.C85_replaced",
    "TCose.Props.C85_adapters",
    "TCose.Props.C85_tagged_partial",
    "TCose.Props.C85_replaced_tagged"
   ],
   "note": "False for one parameter: an empty text as protected content type is overwritten by a text in the unprotected header (C85_claim_false). Everything else is proved."
  },
  {
   "property": "C86",
   "status": "proved",
   "theorems": [
    "TCose.Props.C86_signs",
    "TCose.Props.C86_signs_eddsa",
    "TCose.Props.C86_signs_own",
    "TCose.Props.C86_signs_own_eddsa",
    "TCose.Props.C86_authentic"
   ],
   "note": "That a call has something signed is defined by its outcome: it changes with what the adapter's signing function gives there. The arguments are those of the internal function; t_cose_sign1_sign_aad passes payload and external data in the wrong order (C05). Unforgeability (NoForgery) and freedom from collisions (Calls) are hypotheses, not shown for any real algorithm."
  },
  {
   "property": "C87",
   "status": "proved",
   "theorems": [
    "TCose.Props.C87_in_place",
    "TCose.Props.C87_accepted"
   ],
   "note": "Tag index 4 is excluded from the reported tags, where the code reads past its array (C16); so are tags of value 2^64-1."
  },
  {
   "property": "C88",
   "status": "proved",
   "theorems": [
    "TCose.Props.C88_verdict",
    "TCose.Props.C88_alike",
    "TCose.Props.C88_form",
    "TCose.Props.C88_returned",
    "TCose.Props.C88_ignored",
    "TCose.Props.C88_refused"
   ],
   "note": "The processing of tag contents is a parameter of the QCBOR model; it must not depend on where a string stands (QParams.Local). Tags on arrays and maps do not change their type in the model (in QCBOR tags 4 and 5 on an array of two make it a decimal fraction or bigfloat)."
  },
  {
   "property": "C89",
   "status": "proved",
   "theorems": [
    "TCose.Props.C89_outcome",
    "TCose.Props.C89_cbor",
    "TCose.Props.C89_alike",
    "TCose.Props.C89_accepted",
    "TCose.Props.C89_returned",
    "TCose.Props.C89_first_four",
    "TCose.Props.C89_nothing",
    "TCose.Props.C89_test",
    "TCose.Props.C89_openssl",
    "TCose.Props.C89_psa"
   ],
   "note": "Arrays with more than four elements are read like the first four (see C28). Byte strings for the protected header that do not start with what QCBOR reads as an item are left out; tags on the array and on header maps do not change their type in the model (see C88)."
  },
  {
   "property": "C90",
   "status": "proved",
   "theorems": [
    "TCose.Props.C90_accepts",
    "TCose.Props.C90_decode_only",
    "TCose.Props.C90_test",
    "TCose.Props.C90_unreadable",
    "TCose.Props.C90_unique"
   ],
   "note": "What QCBOR reads as an item is Spec.Reads: CBOR within its limits, and a few octets that are no CBOR but are passed over (finding on C62). The labels in crit are settled up to a 0 among them, which ends the list in the code."
  },
  {
   "property": "C91",
   "status": "proved",
   "theorems": [
    "TCose.Props.C91_reference",
    "TCose.Props.C91_accepts",
    "TCose.Props.C91_no_form",
    "TCose.Props.C91_unique",
    "TCose.Props.C91_test",
    "TCose.Props.C91_openssl",
    "TCose.Props.C91_psa"
   ],
   "note": "The reference program is Spec.readItem and verifyAt. For strings on which it has no result the code of the refusal is not said. The digest and the verdict of the adapter are parameters of it."
  },
  {
   "property": "C92",
   "status": "partial",
   "theorems": [
    "TCose.Props.C92_exact",
    "TCose.Props.C92_whole_iff",
    "TCose.Props.C92_hollow_eddsa",
    "TCose.Props.C92_refused",
    "TCose.Props.C92_settings_partial",
    "TCose.Props.C92_after_start_partial",
    "TCose.Props.C92_too_late",
    "TCose.Props.C92_after_sign",
    "TCose.Props.C92_slid_differs",
    "TCose.Props.C92_after_size",
    "TCose.Props.C92_after_init",
    "TCose.Props.C92_claim_false"
   ],
   "note": "False of the code when another message is made or sized with the context in between, or it is initialised (C92_claim_false). C92_exact says what is signed for every sequence of calls in between, successful or not, and C92_whole_iff when that is the message: after settings, and if the last of the other calls began or attempted another message in a buffer with room for the protected header without finishing it. C92_exact leaves out EdDSA with a NULL header pointer; C92_hollow_eddsa: that second step then does something undefined."
  },
  {
   "property": "C93",
   "status": "proved",
   "theorems": [
    "TCose.Props.C93_linear",
    "TCose.Props.C93_skip",
    "TCose.Props.C93_reached"
   ],
   "note": "Counted in the model of QCBOR: initial bytes read, breaks looked for, levels looked at. Leaving a map is counted as going through it once more, which QCBOR avoids. The label lists (eleven elements), the tags copied (four) and the crypto are not counted."
  },
  {
   "property": "C94",
   "status": "proved",
   "theorems": [
    "TCose.Props.C94_all_octets",
    "TCose.Props.C94_alone",
    "TCose.Props.C94_test"
   ],
   "note": "The hash of the structure is left to the adapter in C94_all_octets and computed in C94_test (test adapter). The reference program reads octets with Spec.parse and says why it stops with Spec.stopItem."
  },
  {
   "property": "C95",
   "status": "proved",
   "theorems": [
    "TCose.Props.C95_everything",
    "TCose.Props.C95_test",
    "TCose.Props.C95_openssl",
    "TCose.Props.C95_psa",
    "TCose.Props.C95_history"
   ],
   "note": "Parameters and payload are compared as octets and numbers; that the pointers point into the message is C19. Byte arguments are absent or proper buffers. In a history each call has its own uninitialised memory; one adapter serves all calls."
  },
  {
   "property": "C96",
   "status": "proved",
   "theorems": [
    "TCose.Props.C96_call",
    "TCose.Props.C96_context",
    "TCose.Props.C96_test",
    "TCose.Props.C96_history",
    "TCose.Props.C96_history_test"
   ],
   "note": "One-step interface; the two-step one is C71 and C92. Contexts are compared without the pointer to the protected header, of which C96_history shows that it is of no influence. C96_context is for every adapter; for the results adapters are assumed to return signatures that fit (SignFits) and to hash (Hashes); with OpenSSL and PSA the results are C67_openssl and C67_psa."
  },
  {
   "property": "C97",
   "status": "proved",
   "theorems": [
    "TCose.Props.C97_one_option",
    "TCose.Props.C97_tag_required",
    "TCose.Props.C97_tag_prohibited",
    "TCose.Props.C97_require_kid",
    "TCose.Props.C97_unknown_crit",
    "TCose.Props.C97_allow_short_circuit",
    "TCose.Props.C97_decode_only",
    "TCose.Props.C97_other_bits"
   ],
   "note": "The cases are given by the reference program of C94: arrayTags, foundIn and lookedAt are its first stages. About the result; what is stored is C95."
  },
  {
   "property": "C98",
   "status": "proved",
   "theorems": [
    "TCose.Props.C98_algorithms",
    "TCose.Props.C98_short_circuit",
    "TCose.Props.C98_content_type",
    "TCose.Props.C98_content_type_accepts",
    "TCose.Props.C98_psa",
    "TCose.Props.C98_openssl",
    "TCose.Props.C98_psa_alike",
    "TCose.Props.C98_openssl_alike"
   ],
   "note": "Leaves out OpenSSL keys larger than the build was made for: their signatures may not fit the DER buffer of the smaller build, an example of which is beside C98_openssl_alike. About the result; what is stored is C95."
  },
  {
   "property": "C99",
   "status": "proved",
   "theorems": [
    "TCose.Props.C99_omit_tag",
    "TCose.Props.C99_detached",
    "TCose.Props.C99_other_bits",
    "TCose.Props.C99_algorithms",
    "TCose.Props.C99_short_circuit",
    "TCose.Props.C99_content_type",
    "TCose.Props.C99_psa_alike",
    "TCose.Props.C99_openssl_alike"
   ],
   "note": "From the outcome of every signing call (C67), with its assumptions on the adapter. One-call interface with a buffer; size calculation is C08."
  },
  {
   "property": "C100",
   "status": "proved",
   "theorems": [
    "TCose.Props.C100_one_more",
    "TCose.Props.C100_any_tags",
    "TCose.Props.C100_too_many",
    "TCose.Props.C100_no_array",
    "TCose.Props.C100_first_required",
    "TCose.Props.C100_first_prohibited",
    "TCose.Props.C100_accepted",
    "TCose.Props.C100_stored"
   ],
   "note": "Octets and arrays are those of the reference program (C94); arrayTags is its first stage. The decoder model does not have the special treatment that QCBOR gives to arrays with tags 4, 5, 264 and 265, nor its table for tag numbers above 65529."
  },
  {
   "property": "C101",
   "status": "proved",
   "theorems": [
    "TCose.Props.C101_behind",
    "TCose.Props.C101_never",
    "TCose.Props.C101_which",
    "TCose.Props.C101_stored"
   ],
   "note": "Items are those of the rules in Spec.Read, also with what the decoder takes for one although it is none; foundIn is the first stage of the reference program of C94."
  },
  {
   "property": "C102",
   "status": "partial",
   "theorems": [
    "TCose.Props.C102_exact",
    "TCose.Props.C102_order_partial",
    "TCose.Props.C102_claim_false"
   ],
   "note": "The code violates the property: a label 0 behind ten other unknown labels is refused, in front of them it is not. C102_exact says that this is the only exception. About messages whose headers can be read in the one order."
  },
  {
   "property": "C103",
   "status": "proved",
   "theorems": [
    "TCose.Props.C103_exact",
    "TCose.Props.C103_never_more",
    "TCose.Props.C103_accepted"
   ],
   "note": "C103_never_more needs no assumption that the headers can be read. At the end of the header; other places by C102."
  },
  {
   "property": "C104",
   "status": "proved",
   "theorems": [
    "TCose.Props.C104_alike",
    "TCose.Props.C104_encoding"
   ],
   "note": "Items are those of the rules in Spec.Read. What is inside the protected header is signed as octets, so its encoding matters: it is part of the item."
  },
  {
   "property": "C105",
   "status": "proved",
   "theorems": [
    "TCose.Props.C105_moved_out"
   ],
   "note": "The detached payload is a buffer that is not NULL; for a NULL one see C33."
  },
  {
   "property": "C106",
   "status": "proved",
   "theorems": [
    "TCose.Props.C106_other_kid",
    "TCose.Props.C106_short_circuit",
    "TCose.Props.C106_adapters"
   ],
   "note": "The key id is a byte string without tags in both messages."
  },
  {
   "property": "C107",
   "status": "proved",
   "theorems": [
    "TCose.Props.C107_unsigned"
   ],
   "note": "Arguments as in C99: ProperArgs for both contexts. The adapter keeps SignFits, and the hash provider computes a function."
  },
  {
   "property": "C108",
   "status": "proved",
   "theorems": [
    "TCose.Props.C108_other_value"
   ],
   "note": "The values carry no tags, and are of the same kind: a text for a text, a number for a number."
  },
  {
   "property": "C109",
   "status": "proved",
   "theorems": [
    "TCose.Props.C109_other_signature",
    "TCose.Props.C109_stored"
   ],
   "note": "Both signatures are byte strings without tags."
  },
  {
   "property": "C110",
   "status": "proved",
   "theorems": [
    "TCose.Props.C110_other_key",
    "TCose.Props.C110_stored"
   ],
   "note": ""
  },
  {
   "property": "C111",
   "status": "proved",
   "theorems": [
    "TCose.Props.C111_signer_key",
    "TCose.Props.C111_second_step"
   ],
   "note": ""
  },
  {
   "property": "C112",
   "status": "proved",
   "theorems": [
    "TCose.Props.C112_parameters",
    "TCose.Props.C112_payload"
   ],
   "note": ""
  },
  {
   "property": "C113",
   "status": "proved",
   "theorems": [
    "TCose.Props.C113_auxiliary"
   ],
   "note": ""
  },
  {
   "property": "C114",
   "status": "proved",
   "theorems": [
    "TCose.Props.C114_signer_auxiliary"
   ],
   "note": "Arguments as in C99: ProperArgs. The adapter keeps SignFits, and the hash provider computes a function."
  },
  {
   "property": "C115",
   "status": "proved",
   "theorems": [
    "TCose.Props.C115_accepts",
    "TCose.Props.C115_eddsa",
    "TCose.Props.C115_hashed"
   ],
   "note": "For C115_accepts and C115_hashed the parts of what is signed are shorter than 4 GiB (PiecesUpTo)."
  }
 ]
}