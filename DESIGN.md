# Formal model of t_cose in Lean 4 — design

"Model" = Lean definitions under `lean/Verif/`; "the code" = the C sources in
`/repo` at the pinned commit. The code was read as text only; it was never built
or run.

## 1. Modules

| Modules | What they hold |
|---|---|
| `Basic`, `Cbor` | octets, `q_useful_buf` buffers (NULL pointer with a length, or data), error codes, build configuration, the adapter interface `Crypto`, CBOR heads |
| `Qcbor/Encode`, `Qcbor/Decode` | the QCBOR calls t_cose makes (QCBOR is not part of `/repo`; trusted, see section 4) |
| `TCose/Util`, `ShortCircuit`, `Sign`, `Parameters`, `Verify` | function-by-function model of `src/*.c` and of the inline functions in `inc/t_cose/*.h` |
| `TCose/TwoStep` | the documented calling sequence of the two-step signing functions, with arbitrary CBOR added by the caller |
| `Adapters/Openssl`, `Psa`, `Test`, `Sha256` | function-by-function model of `crypto_adapters/` |
| `Spec/*` | independent specifications: deterministic CBOR, any CBOR encoding, a reader for what QCBOR takes for an item, RFC 8152 messages and Sig_structure, the view of a message as offsets and octets, header rules, FIPS 180-4, DER, what a caller may assume of an adapter and of the libraries below |
| `Lemmas/*` | helper lemmas; nothing in them is claimed as a property |
| `Props/*` | the property theorems, each with an `example` that meets its hypotheses |
| `TestCode/*` | function-by-function model of the test suite's message maker and of the test runner |
| `Crypto/*` | small adapters and libraries used only in examples and witnesses |
| `Conformance` | the project's own test expectations run through the model (tests, not proofs) |

## 2. Modelling decisions

* Octets are `UInt8`, strings are lists. A `q_useful_buf_c` is `UB.null len`
  (NULL pointer with a length, as in size calculation) or `UB.data bytes`. A
  buffer to write to is `Mem.null cap` or `Mem.buf octets`.
* C functions that write through pointers return the new value. `goto Done` is an
  early return. Functions that change a context return the new context.
* Undefined behaviour is a distinct outcome, never assumed away: the encoder has a
  sticky ghost flag `ub` (octets copied from a NULL pointer into real memory, or an
  adapter writing past the room it was given), verification has a flag for label
  lists read past their end and for writing past `auTags`, reading `auTags` outside
  the array gives `none`, the OpenSSL conversion functions have an outcome `oob`.
* Uninitialised locals are arguments of the model (`Junk`), and C20 proves that the
  result does not depend on them.
* Loops over unbounded input run on fuel; running out is the distinct error
  `modelHang`, and C41 proves it never is the result. `sha256_update` and
  `short_circuit_sign` have an outcome for "does not return".
* The preprocessor configuration (`T_COSE_DISABLE_*`) is a record of Booleans
  (`Config`) that every theorem quantifies over.
* The adapter (`src/t_cose_crypto.h`) is a record of functions (`Crypto`). Theorems
  quantify over all adapters. Where one needs the adapter to behave (round trip,
  exact size) the contract of `t_cose_crypto.h` is a hypothesis (`Spec/Crypto`);
  for the OpenSSL, PSA and test adapters these contracts are themselves proved from
  the adapter models and assumptions on the library (`Spec/Openssl`, `Spec/Psa`).
* Properties that the code violates are kept in full in `properties.jsonl`; the
  negation is proved with a witness (`*_claim_false`, `*_violated_*`), and the
  strongest true part is proved under the suffix `_partial`.

## 3. Properties: what is modelled and how it is proved

| Id | Modelled | Proof |
|---|---|---|
| C01 | `create_tbs`, `create_tbs_hash` | independent `Spec.sigStructure`; injectivity by a left inverse for CBOR heads |
| C02 | `create_tbs_hash`, `hash_bstr`, hash part of the adapter | fold of updates = digest of the concatenation; equality with the specified encoding and with the output of `create_tbs` |
| C03, C04 | full signing and verification path | what is signed is an encoding of a valid message (C07), every such encoding is decoded to its parts (C48); adapter contract as hypothesis, discharged for OpenSSL and PSA |
| C05 | `t_cose_sign1_sign_aad` with its real argument order | negation with witness, `_partial` theorem giving what it does |
| C06, C42, C47 | encoder with in-place memory, arbitrary balanced caller operations | refinement of the bounded encoder to an ideal one with unbounded output; induction over the caller's operations |
| C07 | signing path | refinement to `Spec.coseSign1` |
| C08, C09 | signing path in both modes | relational invariant between size mode and real mode; bounds invariant of the encoder memory |
| C10, C11, C14, C15, C19, C20, C21, C27 | verification path | case analysis of the model, for every adapter |
| C12, C13 | `t_cose_short_circuit.c` | induction over the copy loop; negation for C13 |
| C16, C17 | `process_tags`, `get_nth_tag`, parametrised by the decoder's tag limit | induction over the loop; negation for index 4 |
| C18 | decoder with offsets | slice invariant through every decoder operation |
| C22–C26 | `t_cose_parameters.c` | induction over map entries; negations where the code violates the claim; C22 exactly, from C94 |
| C28 | decoder | decomposition theorem; negation for a five-element array |
| C29, C30, C31 | contexts as state machines | independence of earlier state, induction over histories; negation for the stale size |
| C32, C35, C45 | algorithm tables | case analysis over all ids and configurations |
| C33 | signing and verification | equality of functions |
| C34 | signing, verification, adapters | case analysis over all behaviours of the layer below |
| C36 | `sha256.c`, test adapter | block-buffer invariant by induction over the octets; equality with FIPS 180-4 |
| C37, C38 | OpenSSL conversion functions with an explicit memory | big-endian arithmetic; exact condition for staying in bounds; negation for small buffers |
| C39 | allocation log of the OpenSSL adapter over all failures of the library | log balance; negation for the paths that leak |
| C40 | verification and C01 | composition |
| C41 | decoder fuel | fuel never exhausted |
| C43 | encoder `ub` flag | invariant; negation for the size query with auxiliary buffer, and the exact condition |
| C44 | signing path | case analysis |
| C46 | `key_convert` and its callers, log of calls with the key | case analysis; `C46_no_key`: straight after init nothing is signed or accepted |
| C48 | decoder and verification on any encoding of a valid message | induction over the encoding relation; then one written-out decision |
| C49 | PSA hash functions with a log of calls | exact condition; negation |
| C50 | PSA key handles | exact statement of what is used; negation |
| C51 | Prefix-free | extension lemmas for every decoder loop (`Lemmas/Extend`), view of the message determines its end |
| C52 | Inline/detached exclusive | uniqueness of the message view |
| C53 | Options monotone | acceptance decomposed (`verify_ok`) and replayed under the looser options (`verify_run`) |
| C54 | Unbalanced levels reported | invariant: number of open levels along any sequence of encoder calls |
| C55 | Signing follows the latest settings | induction over arbitrary call histories, refinement of the context to "what was set last" (`Spec/Api`) |
| C56 | Verification follows the latest settings | the same for verification contexts; options by their numeric values |
| C57 | Tags of the most recent verification | partial: negation proved (stale tags); what tags are there after any calls, by induction over them (`C57_exact`) |
| C58 | Test signer = library signer | exact success condition of both signers (`TestMsg.sign_iff`, `sign1Sign_iff`) from the encoder refinement; partial: negation proved |
| C59 | Numbers of the test runner | digit loop against `Spec.decimal` by induction; partial: undefined behaviour and `XXX` proved |
| C60 | Verdict of the test runner | induction over the table; partial: unknown names, results cut to 32 bits |
| C61 | What a refusal depends on | simulation of the decoder on a prefix and on its continuation: every decoder step either reports the end of the input or is the same in both runs; wrapped strings are parametric in what follows |
| C62 | Accepted messages are well-formed CBOR | converse of the decoder lemmas: whatever the decoder steps over or returns is derivable in the grammar `Spec.Reads`, by induction over the nesting levels left and over the elements (`Lemmas/ReadBack`); clean derivations are RFC 8949 encodings; partial: negation proved, with a checker after RFC 8949 appendix C (`Lemmas/Scan`) that is proved to accept every encoding |
| C63 | What is returned is what the CBOR says | the items behind the message laid open (`Lemmas/Seen`), values of labels over both headers (`Spec/Seen`) |
| C64 | Refusal codes are truthful | every error exit of the header parser, the crit decoder, the body decoder and the checks behind it is traced back to its cause in the message laid open (`Lemmas/Refusals`, `Lemmas/RefusedBody`); the meaning of each code is written down in `Spec/Codes`; partial: negation proved for CBOR_NOT_WELL_FORMED |
| C65 | The verdict on every message | a decision procedure on abstract messages (`Spec/Verdict`: scan, alg, kid, IVs, content type, crit, in the order documented); the header parser as a function of the entries (`Lemmas/HeaderFn`), shown equal to the specification entry by entry (`Lemmas/Verdict`), every encoding via the grammar of C48 |
| C66 | The result codes of the crypto adapters | decision lists (`Spec/AdapterCodes`: the first fault decides) for every adapter function, for any behaviour of the library; hash runs over the strings of the Sig_structure |
| C67 | The outcome of every signing call | a decision procedure on context, payload and buffer size (`Props/SignOutcome`: context faults, room for what precedes the signature, hash, signature, room for the whole), shown equal to the run of the encoder by `sign_run` and the dispatch lemmas; with C66 for the real adapters |
| C68 | The codes a call can return | every error exit followed to its code (`Lemmas/AllCodes`), the adapters' codes listed (`Props/AllCodes`); a witness for each code shows that the lists are exact |
| C69 | The test suite's own messages | tables of literals (`Spec/Suite`), the signer's run from `TestMsg.sign_iff`; messages whose headers can be read via C65, messages whose beginning decides via C61's extension lemmas, the two that are neither by hand |
| C70 | The outcome with each adapter of the repository | C65 with the hashing left open (`verdict_hash`), filled in from C36 for the test adapter and C66 for the others |
| C71 | The outcome of two-step signing anywhere | simulation of the encoder by an ideal one (`Rel`) carried through both calls, then case split on the room left as in C67 |
| C72 | Every other test of t_cose_test.c passes | the messages in closed form (`Lemmas/SuiteMore`, from C67 and C71), verified via C65; SHA-256 of three literals evaluated by the kernel through an equal definition (`Lemmas/Sha256Fast`) |
| C73 | The test program with the test adapter | C69, C72 and C60 put together |
| C74 | What the tests with a crypto library return | the messages in closed form (C67, C71), verified via C65, for an adapter given by a contract (`KeyWorks`); induction over the table of test cases; decoding of the known-good messages evaluated with one adapter and carried to all by C14 and C20 |
| C75 | The test program with OpenSSL and with PSA | contracts per key and algorithm (`Spec/TestKeys.lean`) give `KeyWorks` for each adapter (C34, C46, DER conversion), then C74, C72, C69 and C60 put together; the balance of keys by induction over the tests run |
| C76 | The examples sign and verify what they say | messages in closed form (C67, C71) for an adapter given by `KeyWorks`, verified via C65; then the contracts of C75 for OpenSSL and PSA |
| C77 | The sizes the dynamic example allocates are exact | size query and decode-only size in closed form (C08, C43) against the message made in a buffer of exactly that size |
| C78 | The value an example returns says whether it worked | case analysis over every outcome of every call, with the prints as a trace |
| C79 | What the examples do with keys and memory | the trace run through a checker of objects in use (`Spec.Examples.live`), for all outcomes of all calls |
| C80 | Octets are printed so that they can be read back | induction over groups of eight octets, and a reader of hexadecimal as specification |
| C81 | Sizes of structs are printed in decimal | C59 for a buffer of 20 octets |
| C82 | What a passing test program shows | every test unfolded both ways into the calls it makes and what they returned; bounds on return values so that factors of 10000 and 32-bit results hide nothing; C75 for a library without checks |
| C83 | Messages between different builds and crypto libraries | the round trip of C03 with separate configurations and adapters: the signer's run (SigRun), the same to-be-signed hash on both sides (C67), the verifier's run; conversion of ECDSA signatures both ways (C34, C38) |
| C84 | The only ways in which accepted headers deviate from the rules | the verdict of C65 read backwards: what a header scan that succeeds says of labels, types and counts (`Scanned`, `HeaderRead`), set against the rules of `Message.Valid`; six messages, each with one deviation only, evaluated |
| C85 | What can be changed by way of the unprotected header | the verdict of C65 for two messages that differ in the unprotected header; what a scan of the protected header found is not overwritten (`Kept`), since a second occurrence is refused; the exception evaluated |
| C86 | What the key signs, and who can be behind an accepted message | two runs of the signing functions with adapters that differ in the signing functions only (`sign_congr`, `encSig_congr`): equal unless they differ at the call's own Sig_structure; with C10, C11, C40 and C21 for the verifying side |
| C87 | Messages made in place inside other CBOR are verified | `nested_sigRun` (C47's refinement of two-step signing inside other CBOR) composed with `own_core` (the verdict on the library's own messages, with tags around them) and C16 for the reported tags |
| C88 | The outcome of verification with tags on header parameters | the decoder's view of a message with tags (`ValIs`), shown to be that of `Message.untag` (`shown_untag`); the verdict of C65 is proved for any message whose headers are shown in that sense (`verdict_shown`) |
| C89 | The outcome of verification for every CBOR item | one lemma per element of the array and kind of fault (`Lemmas/ArrayBody.lean`), the decoder's view of an item (`Vals`), composed in `array_decode` against `Spec.readArray`; labels that are byte strings are shown to be as bad as integers beyond int64 (`headerFn_relabel`) |
| C90 | Exactly which octet strings are accepted | soundness: an accepted string is read back from the decoder's run as an item of the grammar `Spec.Reads` (`seen_of_view`); completeness: everything in `Reads` runs through the decoder as what it is (`reads_run`, `reads_item`), so C89 gives its outcome |
| C91 | Verification agrees with a short reference program | the grammar `Spec.Reads` is shown to be decided by the program `Spec.parse` (`parse_sound`, `parse_complete`, by mutual induction; `readItem_iff`), so it is prefix free and functional (`Reads.unique`); C89 and C90 then give the outcome |
| C92 | The signing context between the two steps | the second step with what is seen through the pointer to the protected header as a parameter (`encodeSignatureSeeing`), related to the ideal encoder as in C47 (`between_run`); what a message made in one call leaves behind the pointer is computed from the finished message (`sign_left_buf`), and what failed attempts leave from an invariant of the encoder (`Held`: the octets of the protected header stay where they are until the array is closed); then induction over the calls |
| C93 | The work of decoding is linear in the length of the message | counting functions beside the decoder (TCose/Work), following its control flow; each read pays for the octets it consumes and open levels are a potential (`workSkip_le`, `workSearch_le`, by induction on the fuel); no window of the decoder is longer than the message (`Dec.Sz`) |
| C94 | The result of verification for every octet string, with its error code | refinement to a reference program (Spec/Stop): a parser that says where and why it stops (`parse_stop`, by induction on the fuel), runs of a container up to the cut (`CutRun`), headers and arrays that are cut off (`header_unread`, `cut_body`); octets that are read by C91 |
| C95 | Everything verification stores, for every octet string and history of calls | the reference program of C94 extended with what is stored (`effectAll`); one lemma on what the decoder makes of any octets (`octets_decode`) serves both; the context after the checks (`checkDecoded_ctx`); sequences of calls by induction (`C95_history`) |
| C96 | The signing context as a machine | refinement: result by C67 and C70, the context after a call by cases on where signing stops (`C96_context`: `sign_stage` for a small buffer, `sign_run` otherwise, `dispatch_ctx`); sequences by induction with contexts equal up to the stale pointer (`sign_history`) |
| C97 | What each option of verification changes | the reference program of C94 compared with itself under two words of options, stage by stage |
| C98 | What each build switch changes in verification | the reference program of C94 compared with itself in two builds, stage by stage; the digest is that of the structure in both (`digestIn_eq`); header reading without the content type by cases (`readAll_plain`); the two adapters of the repository meet the assumption (`AlikeFor`) |
| C99 | What options, a detached payload and build switches change in signing | the decision procedure of C67 compared with itself; lengths of messages with and without tag and payload (`finished_inner`) |
| C100 | A tag in front of a message | the reference program of C94 on octets with and without the tag; that the program does not depend on its number of steps (`Lemmas.Fuel`), by induction; induction over the tags |
| C101 | Octets behind a message | the reference program of C94 and C95 on an item with and without octets behind it |
| C102 | The order of parameters in the unprotected header | permutations of a list of entries and what is collected from it (`scan_back`, by induction); the reference program of C94 and C95 on both messages |
| C103 | One more parameter in the unprotected header | what is collected from a header with an entry behind it (`scan_more`, by induction); the reference program of C94 and C95 on both messages |
| C104 | Encodings of a message, and values nobody looks at | the reference program of C94 and C95 on two encodings; headers with the same known part are read alike, by induction |
| C105 | The payload inside or outside a message | the reference program of C94 and C95 on both messages |
| C106 | The key id in the unprotected header | a header with another key id is read alike (`scan_kid`, by induction; `readHeader_kid`); the reference program of C94 and C95 on both messages |
| C107 | What key id and content type change in signing | the outcome of signing (`signed_eq`) on both contexts; lengths of the two messages compared |
| C108 | IV, Partial IV and content type in the unprotected header | a header with another value is read alike (`scan_value`, by induction; `readHeader_value`); the reference program of C94 and C95 on both messages |
| C109 | The signature in a message | the reference program of C94 and C95 on both messages; its last step as a function of the signature (`settle_judges`) |
| C110 | The key of the verifier | the reference program of C94 and C95; its last step as a function of the key (`settle_key`) |
| C111 | The key of the signer | each step of signing as a function of the key (`encodeParameters_key`, `signDispatch_key`) |
| C112 | What the caller asks to get back | verification with and without a place for the results, step by step |
| C113 | The auxiliary buffer of the verifier | the reference program of C94 and C95; its last step for two buffers (`settle_aux`) |
| C114 | The auxiliary buffer of the signer | the outcome of signing (`signed_eq`) for two buffers (`makeSig_aux`, `askSize_aux`) |
| C115 | What the test adapter accepts | the condition for acceptance of C90 with the test adapter in place; `sign1_run` for the codes |

## 4. Trusted base

### 4.1 Logic

The Lean 4.33.0 kernel and the axioms `propext`, `Classical.choice`, `Quot.sound`;
no axiom of our own, no `sorry`, no `native_decide`, no `bv_decide`. Axioms used by
the theorems named in `MANIFEST.json` (all in namespace `TCose.Props`):

* `propext`, `Classical.choice`, `Quot.sound`: `C01_hash_injective`, `C01_tbs_injective`, `C02_create_tbs`, `C02_create_tbs_hash`, `C02_hash_unsupported`, `C03_accepted_iff`, `C03_claim_false`, `C03_exact`, `C03_openssl`, `C03_psa`, `C03_round_trip_partial`, `C04_accepted_iff`, `C04_exact`, `C04_round_trip_partial`, `C05_claim_false`, `C05_equal_args_partial`, `C05_iff`, `C05_round_trip_swapped`, `C05_violated_swapped`, `C05_witness`, `C06_two_step_equals_one_shot`, `C07_output`, `C07_sign`, `C07_sign_detached`, `C08_openssl`, `C08_psa`, `C08_sign_then_size`, `C08_size_then_sign`, `C08_two_step`, `C09_in_bounds`, `C100_accepted`, `C100_any_tags`, `C100_first_prohibited`, `C100_first_required`, `C100_no_array`, `C100_one_more`, `C100_stored`, `C100_too_many`, `C101_behind`, `C101_never`, `C101_stored`, `C101_which`, `C102_claim_false`, `C102_exact`, `C102_order_partial`, `C103_accepted`, `C103_exact`, `C103_never_more`, `C104_alike`, `C104_encoding`, `C105_moved_out`, `C106_other_kid`, `C106_short_circuit`, `C107_unsigned`, `C108_other_value`, `C109_other_signature`, `C109_stored`, `C10_acceptance`, `C10_openssl`, `C10_psa`, `C10_refused`, `C110_other_key`, `C110_stored`, `C113_auxiliary`, `C114_signer_auxiliary`, `C115_accepts`, `C115_eddsa`, `C115_hashed`, `C11_short_circuit`, `C13_exact`, `C13_no_hash_partial`, `C14_claim_false`, `C14_exact`, `C14_independent_partial`, `C14_looked`, `C14_same_error`, `C15_both`, `C15_neither`, `C15_policy`, `C15_refused`, `C16_claim_false`, `C16_exact`, `C16_nth_tag_partial`, `C17_guard_off_by_one`, `C17_tag_storage`, `C18_slices`, `C19_outputs`, `C20_no_uninitialised`, `C21_alg_partial`, `C21_claim_false`, `C21_iff`, `C22_claim_false`, `C22_exact`, `C22_label_zero_false`, `C22_no_zero`, `C22_unknown_critical_partial`, `C23_crit`, `C24_flag`, `C24_limits`, `C24_no_overrun`, `C25_claim_false`, `C25_duplicates_partial`, `C26_claim_false`, `C26_content_type_partial`, `C26_returned`, `C27_require_kid`, `C28_claim_false`, `C28_four_elements_partial`, `C29_verify_reuse`, `C30_claim_false`, `C30_sign_exact`, `C30_sign_fresh`, `C30_verify_exact`, `C30_verify_fresh`, `C30_verify_history`, `C30_verify_other_partial`, `C31_sign`, `C31_verify`, `C32_sign_ok_enabled`, `C32_sign_refused`, `C32_supported_iff`, `C32_verify_enabled`, `C32_verify_refused`, `C34_openssl_sign`, `C34_openssl_verify`, `C34_sign`, `C34_verify`, `C35_test`, `C36_sha256_partial`, `C36_short_circuit_message`, `C36_tbs_hash`, `C36_test_adapter_hash`, `C37_cose_to_der`, `C37_der_to_cose`, `C37_key_size`, `C37_length_refused`, `C37_round_trip`, `C37_verify_length_refused`, `C38_in_bounds_partial`, `C38_sized_buffer`, `C39_leak`, `C39_verify_der`, `C39_verify_partial`, `C40_only_signed`, `C40_tampered`, `C41_terminates`, `C42_protected_reference`, `C43_no_ub_partial`, `C43_two_step_no_ub_partial`, `C43_two_step_ub_iff`, `C43_ub_iff`, `C44_both_content_types`, `C45_openssl_false`, `C45_openssl_iff`, `C45_openssl_partial`, `C45_psa_partial`, `C46_api_sign`, `C46_api_verify`, `C46_bad_key`, `C46_good_key`, `C46_no_key`, `C47_nested_output`, `C48_outcome`, `C48_returned`, `C51_prefix_free`, `C51_stream`, `C51_truncated`, `C52_exclusive`, `C52_exclusive_plain`, `C53_looser`, `C55_sign`, `C55_sign_detached`, `C56_options`, `C56_verify`, `C57_call`, `C57_exact`, `C57_most_recent_partial`, `C57_reported_partial`, `C57_right_iff`, `C57_stale_tags`, `C58_exact`, `C58_replica_partial`, `C59_number_partial`, `C59_twelve_octets`, `C60_output`, `C60_report`, `C60_status`, `C60_verdict_partial`, `C61_refused`, `C61_truncated`, `C62_claim_false`, `C62_protected_trailing`, `C62_well_formed_partial`, `C63_seen`, `C64_claim_false`, `C64_codes_partial`, `C65_encoding`, `C65_form`, `C65_returned`, `C65_verdict`, `C66_openssl_hash`, `C66_openssl_length`, `C66_openssl_sign_ecdsa`, `C66_openssl_sign_pss`, `C66_openssl_size`, `C66_openssl_unsupported`, `C66_openssl_verify_ecdsa`, `C66_openssl_verify_pss`, `C66_psa`, `C66_psa_hash`, `C67_limit`, `C67_openssl`, `C67_psa`, `C67_sign`, `C67_size`, `C67_size_openssl`, `C67_size_psa`, `C68_decode_only`, `C68_never`, `C68_no_alg`, `C68_no_alg_tagged`, `C68_verify_openssl`, `C68_verify_openssl_exact`, `C68_verify_psa`, `C68_verify_psa_exact`, `C69_messages`, `C69_outcomes`, `C69_suite`, `C69_test_adapter`, `C70_sign_test`, `C70_size_test`, `C70_test_code`, `C70_test_no_eddsa`, `C70_test_size_only`, `C70_verify_openssl`, `C70_verify_openssl_tagged`, `C70_verify_psa`, `C70_verify_psa_tagged`, `C70_verify_test`, `C70_verify_test_tagged`, `C71_nested`, `C71_size`, `C71_tagged`, `C72_content_type`, `C72_cwt`, `C72_decode_only`, `C72_detached`, `C72_example`, `C72_get_size`, `C72_hash_fail`, `C72_order_masked`, `C72_self`, `C72_signing_errors`, `C72_structure`, `C72_tags`, `C72_test_adapter`, `C72_verify_fail`, `C73_each`, `C73_output`, `C73_status`, `C74_bad_aux`, `C74_bad_aux_row`, `C74_basic`, `C74_basic_row`, `C74_cwt`, `C74_cwt_row`, `C74_known_good`, `C74_known_good_row`, `C74_sig_fail`, `C74_sig_fail_blind`, `C74_sig_fail_row`, `C74_size`, `C74_size_row`, `C74_unsupported`, `C74_unsupported_row`, `C75_each`, `C75_openssl`, `C75_output`, `C75_psa`, `C75_status`, `C76_one_step`, `C76_openssl`, `C76_psa`, `C76_two_step`, `C77_dynamic`, `C78_claim_false`, `C78_dynamic`, `C78_exit_status`, `C78_no_key`, `C78_one_step`, `C78_two_step_partial`, `C79_dynamic`, `C79_one_step`, `C79_openssl_leak`, `C79_openssl_left`, `C79_openssl_partial`, `C79_psa`, `C79_two_step`, `C80_dump`, `C80_injective`, `C81_large`, `C81_line`, `C81_sizes`, `C82_accepts_everything`, `C82_decode_only`, `C82_get_size`, `C82_known_good`, `C82_program`, `C82_shows`, `C82_sig_fail`, `C82_size`, `C82_structure`, `C83_detached`, `C83_interop`, `C83_openssl_builds`, `C83_openssl_to_psa`, `C83_psa_builds`, `C83_psa_to_openssl`, `C84_accepted`, `C84_each`, `C84_iff`, `C84_tagged`, `C85_claim_false`, `C85_kept_partial`, `C85_replaced`, `C85_replaced_tagged`, `C85_tagged_partial`, `C86_authentic`, `C86_signs`, `C86_signs_eddsa`, `C86_signs_own`, `C86_signs_own_eddsa`, `C87_accepted`, `C87_in_place`, `C88_alike`, `C88_form`, `C88_refused`, `C88_returned`, `C88_verdict`, `C89_accepted`, `C89_alike`, `C89_first_four`, `C89_openssl`, `C89_outcome`, `C89_psa`, `C89_returned`, `C89_test`, `C90_accepts`, `C90_decode_only`, `C90_test`, `C90_unique`, `C90_unreadable`, `C91_accepts`, `C91_no_form`, `C91_openssl`, `C91_psa`, `C91_reference`, `C91_test`, `C91_unique`, `C92_after_init`, `C92_after_sign`, `C92_after_size`, `C92_after_start_partial`, `C92_exact`, `C92_hollow_eddsa`, `C92_settings_partial`, `C92_slid_differs`, `C92_whole_iff`, `C93_linear`, `C93_skip`, `C94_all_octets`, `C94_alone`, `C94_test`, `C95_everything`, `C95_history`, `C95_openssl`, `C95_psa`, `C95_test`, `C96_call`, `C96_context`, `C96_history`, `C96_history_test`, `C96_test`, `C97_allow_short_circuit`, `C97_decode_only`, `C97_one_option`, `C97_other_bits`, `C97_require_kid`, `C97_tag_prohibited`, `C97_tag_required`, `C97_unknown_crit`, `C98_algorithms`, `C98_content_type`, `C98_content_type_accepts`, `C98_openssl`, `C98_openssl_alike`, `C98_psa`, `C98_short_circuit`, `C99_algorithms`, `C99_content_type`, `C99_detached`, `C99_omit_tag`, `C99_openssl_alike`, `C99_other_bits`, `C99_short_circuit`.
* `propext`, `Quot.sound`: `C06_limits`, `C08_no_signing`, `C09_flag`, `C106_adapters`, `C112_payload`, `C12_sign_repeats`, `C12_sign_verify`, `C12_verify_iff`, `C13_claim_false`, `C13_empty_signature_rejected`, `C13_violated_empty_signature`, `C14_no_crypto`, `C16_violated_index_four`, `C29_sign_no_hidden_state`, `C29_sign_reuse`, `C29_verify_no_hidden_state`, `C30_sign_zero`, `C33_encode_signature`, `C33_sign_aad`, `C33_verify`, `C33_verify_aad`, `C34_psa`, `C34_psa_hash`, `C34_psa_start`, `C35_no_hash_buffer_size`, `C35_openssl`, `C36_claim_false`, `C36_violated_no_return`, `C38_api_witness`, `C38_claim_false`, `C39_claim_false`, `C39_sign`, `C43_claim_false`, `C45_claim_false`, `C45_test_partial`, `C49_not_started`, `C49_released_iff_partial`, `C50_handle_partial`, `C54_levels_balanced`, `C55_work_irrelevant`, `C57_fresh_reports_zero`, `C59_int_min`, `C60_unknown_name`, `C60_wide_result`, `C64_first`, `C66_openssl_eddsa`, `C68_sign_openssl`, `C68_sign_psa`, `C69_table`, `C74_keys`, `C74_keys_loop`, `C74_loop`, `C75_balance`, `C75_leaks`, `C82_bad_aux`, `C82_basic`, `C82_content_type`, `C82_cwt`, `C82_detached`, `C82_example`, `C82_hash_fail`, `C82_make_cwt`, `C82_self`, `C82_tables`, `C82_tags`, `C82_unsupported`, `C82_verify_fail`, `C85_adapters`, `C88_ignored`, `C89_cbor`, `C92_refused`, `C92_too_late`, `C93_reached`, `C98_psa_alike`, `C99_psa_alike`, `openssl_quiet`.
* `propext`: `C03_short_circuit_kid_refused`, `C03_short_circuit_own_kid_refused`, `C03_short_circuit_pss_refused`, `C111_second_step`, `C111_signer_key`, `C112_parameters`, `C13_api_witness`, `C34_openssl_eddsa`, `C39_leak_reachable`, `C43_violated_size_query_with_aux`, `C50_claim_false`, `C54_limit`, `C57_claim_false`, `C58_claim_false`, `C58_content_type_dropped`, `C58_eddsa_refused`, `C58_kid_replaced`, `C58_short_circuit_ps`, `C68_message_codes_occur`, `C78_openssl_key`, `C78_psa_key`, `C82_all_parameters`, `C82_indef`, `C82_signing_errors`, `C89_nothing`, `C92_claim_false`, `psa_quiet`.
* `Quot.sound`: `C39_hash`, `C50_mark_and_upper_half_ignored`.
* none: `C34_openssl_hash`, `C35_hash_fits`, `C39_sig_size`, `C39_sign_eddsa`, `C39_verify_eddsa`, `C45_hash`, `C49_claim_false`.

### 4.2 Code that is modelled

| File | Modelled | Not modelled |
|---|---|---|
| `src/t_cose_sign1_sign.c` | all functions | – |
| `src/t_cose_sign1_verify.c` | all functions | – |
| `src/t_cose_parameters.c`, `.h` | all functions | – |
| `src/t_cose_util.c` | all functions | `t_cose_is_algorithm_supported` only through the adapter function it calls |
| `src/t_cose_short_circuit.c` | all functions | the placeholder for disabled builds |
| `src/t_cose_crypto.h` | `t_cose_check_list`, `t_cose_algorithm_is_ecdsa`, `t_cose_algorithm_is_rsassa_pss`, size constants, the interface | – |
| `inc/t_cose/t_cose_sign1_sign.h`, `t_cose_sign1_verify.h` | all inline functions, contexts, options | – |
| `inc/t_cose/q_useful_buf.h` | the buffer types | – (it only renames UsefulBuf) |
| `crypto_adapters/t_cose_openssl_crypto.c` | all functions | – |
| `crypto_adapters/t_cose_psa_crypto.c` | all functions | – |
| `crypto_adapters/t_cose_test_crypto.c`, `b_con_hash/sha256.c` | all functions | – |
| `test/t_cose_make_test_messages.c` | all functions | – |
| `test/run_tests.c`, `main.c` | all functions | – |
| `examples/t_cose_basic_example_ossl.c`, `examples/t_cose_basic_example_psa.c` | all functions: values returned, prints, keys and memory (`Verif/TestCode/Examples.lean`) | the octets of generated keys; `printf` itself |
| `test/t_cose_test.c` | all tests (`TestCode/Suite.lean`, `TestCode/SuiteMore.lean`, `TestCode/TestMain.lean`) | – |
| `test/t_cose_sign_verify_test.c` | all tests and the table of known-good messages (`TestCode/SignVerify.lean`, `TestCode/KnownGood.lean`) | `sign_verify_get_size_test`'s result of `QCBOREncode_Finish` with a failed encoder |
| `test/t_cose_make_openssl_test_key.c`, `test/t_cose_make_psa_test_key.c` | all functions (`TestCode/RealMain.lean`) | the octets of the keys; a library object has a number that is not used again after it was freed |
| the rest of `test/`, build files | the tables of expectations in `Verif/Conformance.lean` | everything else |

Not covered at all: stack use, timing (but for the count of decoding steps in C93) and
side channels, threads, zeroing of secrets,
alignment and aliasing beyond what is stated, compiler behaviour.

Simplifications inside the modelled files (also in the comments of the definitions):

* 64-bit `size_t`; the arithmetic that can wrap is modelled where it matters
  (`sha256_update`, algorithm id, PSA key id, DER conversion) and is otherwise on
  `Nat`. The encoder's 32-bit offsets are modelled.
* An algorithm id is an `Int`; the truncation to 32 bits on verification is modelled.
* The key is its library mark and a number (pointer value or handle).
* `t_cose_sign1_verify` with a NULL `payload` pointer is the flag `wantPayload`.
* `sha256.c`: `data[j] << 24` for `data[j] ≥ 128` is undefined in C (shift into the
  sign bit of `int`); modelled as the value every compiler in use gives.

### 4.3 QCBOR and UsefulBuf (not in `/repo`)

Modelled from the documentation and behaviour of QCBOR 1.2 in `Verif/Qcbor/*.lean`:

* Encoder: `UsefulOutBuf` with sticky "does not fit" flag and size-calculation mode,
  heads of arrays, maps and wrapped strings inserted at close time by moving data,
  sticky `uError`, nesting limit 15, offsets limited to 32 bits. Not tracked: the
  count of items at the top level.
* Decoder ("spiffy decode"): preorder traversal, nesting limit 15, array and map
  limits, tags (at most four per item, innermost first), indefinite-length arrays and
  maps, no string allocator, map search with duplicate detection and callback, entered
  levels, recoverable and unrecoverable errors, `EnterBstrWrapped`, sticky error.
  Built-in handling of tag content (dates, big numbers, …) is a parameter about which
  nothing is assumed, except in C88 and where two positions of a message are compared
  that it looks at content only (`QParams.Local`). It does not apply to arrays and maps:
  an array with an innermost tag 4, 5, 264 or 265 (decimal fractions and bigfloats),
  which QCBOR refuses unless it has two elements, stays an array. Not modelled: the table that maps tag numbers above 65529 to
  short ids (four entries, with a further `TOO_MANY_TAGS`); the peek for a "break" looks
  at the next octet only.
* `QCBORDecode_GetNext` leaves `QCBOR_TYPE_NONE` in the item on error.

The replay of the project's own test table in `Verif/Conformance.lean` (header, tag,
size, structure, error and RFC 8152/8392 vectors, and a Sig_structure digest made by
another implementation) is the check on this part. It found one deviation, which was
corrected: a "break" in the place of a map label is reported as `BAD_BREAK` (not well
formed), not as a label of a wrong type.

### 4.4 Libraries below the adapters

OpenSSL and PSA are records of functions (`Ossl.Lib`, `Psa.Lib`) with no assumption in
the model. Theorems that need one name it: `Spec.Ossl.Works` (no failure to allocate or
set up), `Digests`, `Fits`, `Sizes`, `Verifies`; `Spec.Psa.Digests`, `Fits`, `Sizes`,
`Verifies`, `Signs`. `Crypto/DemoOssl` and `Crypto/DemoPsa` satisfy them, so they are
not vacuous. `BN_bn2bin` and `BN_bin2bn` are modelled as big-endian conversion, freeing
NULL is no event, and the PSA macros that build algorithm ids are taken to work.
Collision resistance and unforgeability (C40) are hypotheses about the inputs
concerned, not claims.

## 5. Findings

Violations of a property, each proved by a theorem with a witness:

1. **C05** `t_cose_sign1_sign_aad(ctx, aad, payload, …)` passes its arguments in the
   order of the declaration of the internal function (`aad, payload`), but the
   definition takes them as `payload, aad`: the aad becomes the payload and the payload
   the external data. The project's tests call it with the arguments exchanged, which
   hides this. (`C05_violated_swapped`, `C05_claim_false`)
2. **C16** `t_cose_sign1_get_nth_tag(ctx, 4)` reads behind the four-element array: the
   guard is `n > T_COSE_MAX_TAGS_TO_RETURN`. (`C16_violated_index_four`)
3. **C17** The guard in `process_tags` is off by one in the same way; it is safe only
   because QCBOR never yields more than four tags. (`C17_guard_off_by_one`)
4. **C13** `short_circuit_sig_size` tests the pointer `sig_size` instead of the value:
   short-circuit signing with PS256/384/512 succeeds with an empty signature that never
   verifies. (`C13_violated_empty_signature`, `C13_api_witness`)
5. **C03** Messages the code refuses though it made them: signer kid equal to the
   short-circuit kid; short-circuit signature with the signer's own kid; short-circuit
   PS*. (`C03_*_refused`)
6. **C21** Algorithm ids below −2³¹ are cut to 32 bits: −2³²−7 is taken as ES256.
   (`C21_claim_false`)
7. **C22** The integer 0 terminates the label lists: a crit list `[100, 0, x]` does not make
   `x` critical, and an unknown label 0 is never found. (`C22_claim_false`,
   `C22_label_zero_false`)
8. **C25, C26** An integer content type in one header and a text one in the other, or
   an empty text one in both, is not noticed as a duplicate. (`C25_claim_false`,
   `C26_claim_false`)
9. **C28** Arrays with more than four elements are accepted; the extra elements are
   skipped. (`C28_claim_false`)
10. **C30** `auxiliary_buffer_size` is never reset in a verification context.
    (`C30_claim_false`)
11. **C14** Decode-only verification of an EdDSA message fails with
    `AUXILIARY_BUFFER_SIZE` if a too small auxiliary buffer is registered, depending on
    the external data. (`C14_claim_false`)
12. **C43** An EdDSA size calculation (NULL output buffer) with a real auxiliary buffer
    copies from a NULL pointer. (`C43_violated_size_query_with_aux`; exactly when: `C43_ub_iff`)
13. **C36** `sha256_update` never returns for 2³² octets or more in one call (32-bit
    counter). (`C36_violated_no_return`)
14. **C38** `ecdsa_signature_der_to_cose` checks the sum of the lengths of r and s
    against the buffer instead of twice the key size, and writes outside the buffer for
    sizes in between. (`C38_claim_false`, `C38_api_witness`)
15. **C39** `ecdsa_signature_cose_to_der` leaks the `ECDSA_SIG` if `ECDSA_SIG_set0`
    fails and the DER string if it does not fit; the latter is reachable with a sound
    library (P-521 key, build without ES512). (`C39_leak`, `C39_leak_reachable`)
16. **C45** OpenSSL `sig_size` accepts EdDSA in builds without it; the support queries
    name SHA-384/512 in builds where hashing with them is disabled; the test adapter's
    `sig_size` accepts every algorithm while signing accepts none. (`C45_claim_false`,
    `C45_openssl_false`)
17. **C49** The PSA adapter never aborts a hash operation after an error.
    (`C49_claim_false`)
18. **C50** The PSA adapter ignores the library mark of a key and cuts the 64-bit
    handle to 32 bits. (`C50_claim_false`)
19. **C57** The tag query is documented to report on the most recent verification. A
    message refused for its tags (or at its first octets) leaves the tags of an earlier
    message in the context, and a context that never verified anything reports the tag
    number 0. (`C57_stale_tags`, `C57_fresh_reports_zero`)
20. **C58** The signer the test suite uses for its negative tests differs from the one
    under test: it drops a content type, ignores the caller's key id with short-circuit
    signatures, refuses EdDSA, and its own `short_circuit_sign` refuses PS* (the bug of
    C13 is not in the copy, so the tests cannot meet it). (`C58_*`)
21. **C59** `NumToString` negates the least 32-bit number (undefined) and prints `XXX`
    for numbers beyond 999999999. (`C59_int_min`, `C59_number_partial`)
22. **C60** A misspelled test name on the command line runs nothing and exits with
    success; a result that is a multiple of 2³² counts as passed.
    (`C60_unknown_name`, `C60_wide_result`) Also, 256 failing tests make the process exit with
    status 0 where exit statuses are cut to eight bits (example beside `C60_status`).
23. **C62** Octets that are no CBOR item (additional information 28 to 30, an integer of
    indefinite length, …) are passed over in the values of unknown parameters and in
    elements behind the signature, and any octets behind the map in the protected header
    are; such messages are accepted. (`C62_claim_false`, `C62_protected_trailing`)
24. **C64** An element of the crit list that QCBOR cannot return for any reason (too many
    tags, say) is reported as `CBOR_NOT_WELL_FORMED`, because
    `decode_critical_parameter` maps every decoder error to that code
    (src/t_cose_parameters.c:157-184). (`C64_claim_false`)
25. **C68** Eight documented error codes are never returned by signing or verification:
    `NO_ALG_ID`, `BAD_SHORT_CIRCUIT_KID`, `MAKING_PROTECTED`, `INVALID_ARGUMENT`, `FAIL`,
    `UNKNOWN_KEY`, `WRONG_TYPE_OF_KEY`, `SIG_STRUCT`. A message without algorithm gives
    `UNSUPPORTED_SIGNING_ALG`, a short-circuit signature that does not match gives
    `SIG_VERIFY`. (`C68_never`, `C68_no_alg`)
26. **C69** The message made with `T_COSE_TEST_NOT_WELL_FORMED_1` is not well-formed only
    for payloads of up to 14 octets; for longer ones the outcome depends on the
    signature octets. `all_header_parameters_test` does not look at the result of the
    verification and would read uninitialised parameters if it failed.
27. **C72** The self test with external data calls `t_cose_sign1_sign_aad` with payload and
    external data in the order of the implementation, which is not that of the documentation
    (finding on C05), so the suite does not notice; with the documented order the same test
    fails with 2013. (`C72_order_masked`) The detached-content test compares its payload with
    a copy of itself (test/t_cose_test.c:185, 201-204).
28. **C74** `sig_fail_test` cannot fail for the reason it exists: the value for an unexpected
    result of the verification is overwritten with 0 (test/t_cose_sign_verify_test.c:384-388), so
    it also passes with an adapter that accepts every signature (`C74_sig_fail_blind`). The
    CWT test overwrites the value for a wrong payload in the same way (lines 543-548). The test
    of unsupported algorithms does not look at the result of signing, and the size test adds the
    length of the key id to the expected size of the auxiliary buffer although the key id is not
    signed; it passes because of the tolerance of 30 octets.
29. **C79** `make_ossl_key_pair` in the OpenSSL example never frees the `EVP_PKEY_CTX`
    (examples/t_cose_basic_example_ossl.c:82-116), so every run of each example leaks it
    (`C79_openssl_leak`); on every failing path of the examples the key, and with dynamic
    buffers the buffers, are leaked too.
30. **C78** `two_step_sign_example` returns 0 and prints `success` if `QCBOREncode_Finish` fails
    (lines 485-489; examples/t_cose_basic_example_psa.c:535-539): the value printed and returned
    is that of the call before (`C78_claim_false`). The key is left. With the constants of the
    example and P-256 keys the message fits, so it cannot happen unless the code is changed.
31. **C78** `main` of both examples drops what the examples return: the exit status is 0 even
    if every example failed (`C78_exit_status`).
32. **C81** `PrintSizesTCose` prints names of structs that do not exist (`t_cose_sign1_ctx`,
    `t_cose_signing_key`) for the sizes of `t_cose_sign1_sign_ctx` and `t_cose_key`.
33. **C82** As a consequence of 28 the whole test program, built with OpenSSL or PSA, passes with
    a library that accepts every signature (`C82_accepts_everything`): no other test gives a
    wrong signature to the adapter. Only the short-circuit tests see a wrong signature, and those
    are compared by t_cose itself. Also, `all_header_parameters_test` does not look at the result
    of the verification, and an exit status of 0 does not exclude that a multiple of 256 keys
    was left (`C82_program`).
34. **C85** A text as content type in the unprotected header takes the place of an empty text in the
    protected header, although that one is signed (`C85_claim_false`).
35. **C92** The signing context keeps a pointer to the protected header in the output buffer between the
    two steps. If the context is used for another message in between, the second step reads through a
    pointer that points elsewhere, succeeds, and the message cannot be verified (`C92_claim_false`).
    After a message made in one call it points one octet too early, because closing the array moves
    what was written (`C92_after_sign`); after a size calculation it is NULL (`C92_after_size`), which
    for EdDSA is a copy from NULL; after an initialisation it is NULL with length 0
    (`C92_after_init`). The header file does not say that a context must not be used in between.
    `C92_exact` says what is signed for every sequence of calls in between.
36. **C102** The order of the entries of the unprotected header matters: label 0 ends the list of unknown labels, so
    it is recorded without being counted, unless the list is full. A message with ten other unknown integer labels
    is accepted with label 0 in front of them and refused with `TOO_MANY_PARAMETERS` with label 0 behind them
    (`C102_claim_false`); `C102_exact` says that this is the only case.

Observations (not violations of a listed property, or implied by the theorems):

* Which signatures OpenSSL verifies with ES256 depends on whether the build has ES512 or ES384: the buffer
  for the DER form is sized by the largest algorithm of the build, not by the key. With a P-521 key, which
  COSE permits with ES256, verification in a build without ES512 and ES384 ends with `SIG_FAIL`
  (example beside `C98_openssl_alike`).
* A short-circuit signature is accepted if it *begins* with the digest (C12).
* A payload inside a message given to `verify_detached` is reported as `CBOR_FORMATTING`. A parameter twice in one
  header is `PARAMETER_CBOR`, not `DUPLICATE_PARAMETER` (C64).
* A message without algorithm gives `UNSUPPORTED_SIGNING_ALG`, except with decode-only.
* `sign_detached` with a NULL payload fails; `verify_detached` accepts a NULL payload.
* A zero-length output buffer runs the size calculation and then fails with
  `TOO_SMALL`.
* The maps and the null of a detached message may carry tags.
* With `T_COSE_DISABLE_CONTENT_TYPE`, `crit: [3]` is accepted although the parameter is
  not processed.
* An unknown integer label 0 is never counted against the limit of ten, but is refused
  once ten others were recorded.
* A tag number 2⁶⁴−1 on the message ends the list of returned tags.
* `short_circuit_sign` would not return for an empty hash; no adapter yields one.
* Encoder offsets of 2³²−9 and more give `CBOR_FORMATTING`.
* In the OpenSSL adapter an unsupported algorithm is reported before a bad key is.
* A caller of the two-step interface who closes the wrapping t_cose opened and opens one
  of their own is not noticed; the output has six elements and is refused (C54).
* OpenSSL digest calls count any nonzero return code as success.
