{"id": "C01", "title": "Signed bytes determine what was signed", "statement": "The byte string that gets signed for a message is an injective function of (protected header bytes, additional authenticated data, payload): two different triples never yield the same to-be-signed bytes, so a signature can never be re-interpreted with bytes moved from one field to another.", "quantifier": "all pairs of triples of byte strings of any length below 2^64", "why_tests_cant": "Injectivity is a statement about every pair of inputs of unbounded length; a test can only sample pairs.", "anchors": ["src/t_cose_util.c:create_tbs", "src/t_cose_util.c:create_tbs_hash", "src/t_cose_util.c:hash_bstr"]}
{"id": "C02", "title": "Incremental hash covers exactly the Sig_structure", "statement": "For hash-then-sign algorithms the digest given to the crypto library is the digest, under the hash that goes with the algorithm, of exactly the RFC 8152 Sig_structure encoding [\"Signature1\", protected, aad, payload]; these are the same bytes that the EdDSA path serialises into the auxiliary buffer, and absent (NULL) data counts as an empty byte string.", "quantifier": "all protected headers, aad, payloads (including NULL), algorithms and build configurations, and any hash adapter meeting its contract", "why_tests_cant": "Ranges over unbounded inputs and over all hash implementations; tests compare a handful of vectors with one library.", "anchors": ["src/t_cose_util.c:create_tbs_hash", "src/t_cose_util.c:create_tbs", "src/t_cose_util.c:hash_bstr", "src/t_cose_util.c:hash_alg_id_from_sig_alg_id"]}
{"id": "C03", "title": "Sign then verify round trip (inline payload)", "statement": "A message successfully produced by t_cose_sign1_sign verifies with t_cose_sign1_verify under the matching key with every option combination that does not forbid it, and the verifier returns exactly the payload, algorithm, key id and content type that were signed, for every supported algorithm, with and without the CBOR tag.", "quantifier": "all payloads, keys, key ids, content types, algorithms, option flags, output buffers big enough, and any crypto adapter whose verify accepts what its sign produced", "why_tests_cant": "Unbounded payload/kid/content-type sizes cross every CBOR length-encoding boundary; tests use a few fixed payloads.", "anchors": ["inc/t_cose/t_cose_sign1_sign.h:t_cose_sign1_sign", "inc/t_cose/t_cose_sign1_verify.h:t_cose_sign1_verify", "src/t_cose_sign1_sign.c:t_cose_sign1_sign_aad_internal", "src/t_cose_sign1_verify.c:t_cose_sign1_verify_internal"]}
{"id": "C04", "title": "Sign then verify round trip (detached payload)", "statement": "A message produced by t_cose_sign1_sign_detached carries null in the payload slot and verifies with t_cose_sign1_verify_detached when given the same payload and aad.", "quantifier": "all payloads, aads, keys, key ids, content types, algorithms, options, adapters as in C03", "why_tests_cant": "Unbounded sizes and all option combinations.", "anchors": ["inc/t_cose/t_cose_sign1_sign.h:t_cose_sign1_sign_detached", "inc/t_cose/t_cose_sign1_verify.h:t_cose_sign1_verify_detached", "src/t_cose_sign1_sign.c:t_cose_sign1_sign_aad_internal", "src/t_cose_sign1_verify.c:t_cose_sign1_verify_internal"]}
{"id": "C05", "title": "sign_aad signs the payload with the aad it was given", "statement": "t_cose_sign1_sign_aad(ctx, aad, payload, ...) embeds `payload` in the message and covers `aad` as external data; t_cose_sign1_verify_aad with the same aad accepts it and returns the payload, and with a NULL aad it is equivalent to t_cose_sign1_sign.", "quantifier": "all aads, payloads, contexts and buffers", "why_tests_cant": "The existing tests pass the arguments in the order of the defect, so they agree with the wrong behaviour; only a statement over all inputs tied to the documented parameter order exposes it.", "anchors": ["inc/t_cose/t_cose_sign1_sign.h:t_cose_sign1_sign_aad", "src/t_cose_sign1_sign.c:t_cose_sign1_sign_aad_internal"]}
{"id": "C06", "title": "Two-step API equals one-shot API", "statement": "Encoding parameters, adding the payload with any CBOR-encoder calls that produce the payload bytes, then encoding the signature and finishing, yields byte-for-byte the same message and result code as the one-shot signing call on those payload bytes.", "quantifier": "all payloads written by any balanced sequence of encoder calls, all contexts, buffers and adapters", "why_tests_cant": "Ranges over arbitrary caller-chosen encoder call sequences between the two library calls.", "anchors": ["inc/t_cose/t_cose_sign1_sign.h:t_cose_sign1_encode_parameters", "inc/t_cose/t_cose_sign1_sign.h:t_cose_sign1_encode_signature", "src/t_cose_sign1_sign.c:t_cose_sign1_encode_signature_aad_internal", "src/t_cose_sign1_sign.c:t_cose_sign1_encode_parameters_internal"]}
{"id": "C07", "title": "Output is exactly the RFC 8152 COSE_Sign1 encoding", "statement": "On success the output bytes are precisely the (optionally tag-18) definite-length array of: bstr-wrapped map {1: alg}, map of kid and content type as configured, payload bstr or null, signature bstr, with shortest-form heads; nothing else is written to the result.", "quantifier": "all contexts, payloads, algorithms, buffers and adapters", "why_tests_cant": "Format correctness across all size classes needs every payload length, not samples.", "anchors": ["src/t_cose_sign1_sign.c:t_cose_sign1_sign_aad_internal", "src/t_cose_sign1_sign.c:encode_protected_parameters", "src/t_cose_sign1_sign.c:add_unprotected_parameters", "src/t_cose_sign1_sign.c:t_cose_sign1_encode_parameters_internal"]}
{"id": "C08", "title": "Size calculation is exact", "statement": "Calling a signing function with a NULL output buffer returns precisely the length that the real call produces with a large enough buffer, without performing a cryptographic signature.", "quantifier": "all contexts, payloads, aads, and adapters whose signature-size function is exact", "why_tests_cant": "Needs to hold for every payload and kid length including all head-size boundaries.", "anchors": ["src/t_cose_sign1_sign.c:t_cose_sign1_sign_aad_internal", "src/t_cose_sign1_sign.c:sign1_sign_default", "src/t_cose_sign1_sign.c:sign1_sign_eddsa", "src/t_cose_sign1_sign.c:sign1_sign_short_circuit"]}
{"id": "C09", "title": "Output buffer is never overrun and never silently truncated", "statement": "Signing succeeds only with a message that fits in the caller's buffer; every byte outside the caller's buffer is untouched, and if the buffer is at least as long as the computed size the call does not fail for lack of space, while a smaller buffer always gives an error.", "quantifier": "all buffer sizes, contexts, payloads and adapters that respect their buffer", "why_tests_cant": "The failing buffer size depends on every input; tests try a couple of sizes.", "anchors": ["src/t_cose_sign1_sign.c:t_cose_sign1_sign_aad_internal", "src/t_cose_sign1_sign.c:t_cose_sign1_encode_signature_aad_internal"]}
{"id": "C10", "title": "Acceptance implies a valid signature over what is returned", "statement": "If verification succeeds (not decode-only, not permitted short-circuit) then the crypto library accepted the message's signature, under the configured key and the algorithm in the protected header, for the digest (or bytes, for EdDSA) of the Sig_structure built from exactly the received protected header bytes, the given aad, and the payload that is returned.", "quantifier": "all input byte strings, aads, option flags, keys and crypto adapters", "why_tests_cant": "This is a claim about every possible attacker-supplied byte string.", "anchors": ["src/t_cose_sign1_verify.c:t_cose_sign1_verify_internal", "src/t_cose_sign1_verify.c:sign1_verify_default", "src/t_cose_sign1_verify.c:sign1_verify_eddsa"]}
{"id": "C11", "title": "Short-circuit messages are refused unless explicitly allowed", "statement": "A message whose key id is the short-circuit kid is never reported as verified unless the caller set ALLOW_SHORT_CIRCUIT (or asked for decode-only), and messages with any other kid are never verified by the short-circuit rule.", "quantifier": "all input byte strings, aads, flags, keys, adapters and build configurations", "why_tests_cant": "Security gate over all attacker inputs.", "anchors": ["src/t_cose_sign1_verify.c:sign1_verify_short_circuit", "src/t_cose_sign1_verify.c:t_cose_sign1_verify_internal"]}
{"id": "C12", "title": "Short-circuit verification rule", "statement": "When allowed, a short-circuit message is accepted if and only if its signature begins with the Sig_structure digest; short-circuit signing produces the digest repeated to the size of the corresponding ECDSA signature, so what is signed this way verifies.", "quantifier": "all digests, signatures, algorithms and sizes", "why_tests_cant": "Loop over arbitrary digest and signature lengths.", "anchors": ["src/t_cose_short_circuit.c:short_circuit_sign", "src/t_cose_short_circuit.c:t_cose_crypto_short_circuit_verify", "src/t_cose_short_circuit.c:short_circuit_sig_size"]}
{"id": "C13", "title": "Short-circuit signing rejects algorithms it has no size for", "statement": "Short-circuit signing with an algorithm for which no signature size is defined fails with an unsupported-algorithm error instead of producing a message with an empty signature.", "quantifier": "all algorithm ids and contexts", "why_tests_cant": "Requires exploring every algorithm/flag combination, including ones nobody thought to test.", "anchors": ["src/t_cose_short_circuit.c:short_circuit_sig_size", "src/t_cose_short_circuit.c:short_circuit_sign"]}
{"id": "C14", "title": "Decode-only never consults key or crypto and always decodes", "statement": "With DECODE_ONLY, the outcome and returned data do not depend on the key, the aad, the signature bytes or the crypto adapter, no crypto operation is run, and any message that decodes is returned with success.", "quantifier": "all inputs, keys, adapters, auxiliary buffers", "why_tests_cant": "Non-interference over all keys and adapters cannot be sampled.", "anchors": ["src/t_cose_sign1_verify.c:sign1_verify_default", "src/t_cose_sign1_verify.c:sign1_verify_eddsa", "src/t_cose_sign1_verify.c:sign1_verify_short_circuit"]}
{"id": "C15", "title": "Tag policy is enforced", "statement": "With TAG_REQUIRED, only messages whose innermost tag is 18 can succeed; with TAG_PROHIBITED, none of those can; with neither, both forms are accepted identically; with both set nothing succeeds.", "quantifier": "all inputs with any number of tags and all flag words", "why_tests_cant": "All tag stacks and flag combinations.", "anchors": ["src/t_cose_sign1_verify.c:process_tags"]}
{"id": "C16", "title": "Unprocessed tags are reported correctly", "statement": "After a successful verification, the n-th tag query returns the enclosing tags of the message from the inside out, excluding the COSE_Sign1 tag that was processed, then the invalid-tag value for every larger index, and never reads outside the context.", "quantifier": "all inputs, all indices n, and all histories of calls on the context (including none)", "why_tests_cant": "All indices and histories; the defect is at one specific index.", "anchors": ["inc/t_cose/t_cose_sign1_verify.h:t_cose_sign1_get_nth_tag", "src/t_cose_sign1_verify.c:process_tags"]}
{"id": "C17", "title": "Tag storage is never overrun", "statement": "Whatever tags the message carries, verification never writes outside the fixed array of returned tags in the context.", "quantifier": "all inputs; also as a function of how many tags the CBOR decoder can deliver per item", "why_tests_cant": "Safety depends on a limit in another library; a test cannot show which limit the code relies on.", "anchors": ["src/t_cose_sign1_verify.c:process_tags"]}
{"id": "C18", "title": "Everything returned points into the message", "statement": "On success the payload and every returned header string (kid, iv, partial iv, content type) is a contiguous, in-bounds slice of the input message (or absent), disjoint from nothing but the message itself.", "quantifier": "all input byte strings", "why_tests_cant": "Memory-safety style claim about every malformed input.", "anchors": ["src/t_cose_sign1_verify.c:t_cose_sign1_verify_internal", "src/t_cose_parameters.c:parse_cose_header_parameters"]}
{"id": "C19", "title": "Outputs are written only on success", "statement": "If verification fails, the caller's payload and parameters outputs are left unchanged; the call never modifies the key, options or auxiliary buffer registration in the context.", "quantifier": "all inputs, all prior contents of the outputs, all failure causes", "why_tests_cant": "All error paths, including ones only reachable with crafted input.", "anchors": ["src/t_cose_sign1_verify.c:t_cose_sign1_verify_internal"]}
{"id": "C20", "title": "No dependence on uninitialised memory", "statement": "The result of verification is a function of its arguments only: it does not depend on the indeterminate initial contents of local variables that are read on some error paths.", "quantifier": "all inputs and all initial memory contents", "why_tests_cant": "Uninitialised reads are invisible to ordinary tests when the garbage happens to be benign.", "anchors": ["src/t_cose_sign1_verify.c:t_cose_sign1_verify_internal"]}
{"id": "C21", "title": "Algorithm is taken faithfully from the protected header", "statement": "If verification succeeds and reports algorithm a, the protected header of the message contains the parameter alg with exactly the integer a; an algorithm in the unprotected header is never accepted.", "quantifier": "all messages, including every 64-bit alg value", "why_tests_cant": "The value space is 2^64; the defect is outside the values tests use.", "anchors": ["src/t_cose_parameters.c:parse_cose_header_parameters"]}
{"id": "C22", "title": "Unknown critical parameters are rejected", "statement": "If the protected header's crit list names a label that appears in either header bucket and that the library does not process, verification fails unless UNKNOWN_CRIT_ALLOWED is set.", "quantifier": "all messages with any labels and any crit list", "why_tests_cant": "All combinations of crit lists and unknown labels, integer and text, in both buckets.", "anchors": ["src/t_cose_parameters.c:check_critical_labels", "src/t_cose_parameters.c:decode_critical_parameter", "src/t_cose_parameters.c:add_label_to_list"]}
{"id": "C23", "title": "crit parameter well-formedness", "statement": "A crit parameter in the unprotected header, an empty crit list, a crit list with an element that is neither integer nor text, or one with more than ten integers or more than ten strings always makes verification fail.", "quantifier": "all messages", "why_tests_cant": "All list shapes and lengths.", "anchors": ["src/t_cose_parameters.c:decode_critical_parameter"]}
{"id": "C24", "title": "Unknown-parameter limit and label-list safety", "statement": "Messages with more than ten unknown integer-labelled (nonzero) or more than ten unknown text-labelled parameters over both buckets are refused; and no message makes the fixed-size label lists overflow or be scanned past their end.", "quantifier": "all messages with any number of parameters", "why_tests_cant": "Bounds safety for every message size.", "anchors": ["src/t_cose_parameters.c:add_label_to_list", "src/t_cose_parameters.c:header_parameter_callback", "src/t_cose_parameters.c:is_label_list_clear", "src/t_cose_parameters.c:check_critical_labels"]}
{"id": "C25", "title": "Duplicate header parameters are rejected", "statement": "A message in which the same known header parameter (alg, kid, iv, partial iv, content type) occurs twice, within one bucket or across the two buckets, is refused.", "quantifier": "all messages", "why_tests_cant": "All pairs of occurrences and value kinds; the defect is in one type combination.", "anchors": ["src/t_cose_parameters.c:parse_cose_header_parameters"]}
{"id": "C26", "title": "Content type range", "statement": "Verification succeeds only if a content-type parameter that is present is a text string or an integer between 0 and 65535, and the value is returned unchanged in the matching output field, with the other left empty.", "quantifier": "all messages, all content-type values", "why_tests_cant": "All 64-bit values and CBOR types.", "anchors": ["src/t_cose_parameters.c:parse_cose_header_parameters"]}
{"id": "C27", "title": "REQUIRE_KID", "statement": "With REQUIRE_KID set, success implies that the message carries a kid in one of its headers and that kid is what is returned.", "quantifier": "all messages and flags", "why_tests_cant": "All messages.", "anchors": ["src/t_cose_sign1_verify.c:t_cose_sign1_verify_internal"]}
{"id": "C28", "title": "A COSE_Sign1 is exactly four elements and nothing follows", "statement": "Success implies that the input is one CBOR array with exactly four elements, of the right types, and that no bytes follow it.", "quantifier": "all inputs", "why_tests_cant": "All malformed inputs; the defect needs a message with a fifth element.", "anchors": ["src/t_cose_sign1_verify.c:t_cose_sign1_verify_internal"]}
{"id": "C29", "title": "Verification contexts carry no hidden state", "statement": "The result of a verification on a context depends only on the key, options and auxiliary buffer set, not on what was verified with that context before; likewise signing.", "quantifier": "all histories of calls on a context", "why_tests_cant": "Unbounded histories.", "anchors": ["src/t_cose_sign1_verify.c:t_cose_sign1_verify_internal", "src/t_cose_sign1_sign.c:t_cose_sign1_sign_aad_internal"]}
{"id": "C30", "title": "Auxiliary size query describes the most recent operation", "statement": "The auxiliary-buffer-size query returns the exact number of bytes of Sig_structure for the most recent EdDSA operation and zero if the most recent operation did not need an auxiliary buffer.", "quantifier": "all histories of calls on a context", "why_tests_cant": "The defect needs an EdDSA operation followed by another algorithm on the same context.", "anchors": ["inc/t_cose/t_cose_sign1_sign.h:t_cose_sign1_sign_auxiliary_buffer_size", "inc/t_cose/t_cose_sign1_verify.h:t_cose_sign1_verify_auxiliary_buffer_size", "src/t_cose_sign1_verify.c:sign1_verify_eddsa", "src/t_cose_sign1_sign.c:sign1_sign_eddsa"]}
{"id": "C31", "title": "Auxiliary buffer threshold for EdDSA", "statement": "EdDSA sign and verify work with any auxiliary buffer at least as long as the reported size, report AUXILIARY_BUFFER_SIZE for any shorter one and NEED_AUXILIARY_BUFFER for none, never writing past the buffer.", "quantifier": "all buffer lengths, payloads, aads", "why_tests_cant": "All lengths.", "anchors": ["src/t_cose_sign1_sign.c:sign1_sign_eddsa", "src/t_cose_sign1_verify.c:sign1_verify_eddsa", "src/t_cose_util.c:create_tbs"]}
{"id": "C32", "title": "Unsupported algorithms are refused before any output", "statement": "Signing with an algorithm id that is not supported by the build fails with UNSUPPORTED_SIGNING_ALG, produces no output and runs no crypto; a message with an unsupported, or no, algorithm never verifies.", "quantifier": "all 2^32 algorithm ids and all build configurations", "why_tests_cant": "Whole id space times configurations.", "anchors": ["src/t_cose_util.c:signature_algorithm_id_is_supported", "src/t_cose_util.c:hash_alg_id_from_sig_alg_id", "src/t_cose_sign1_sign.c:t_cose_sign1_encode_parameters_internal"]}
{"id": "C33", "title": "Absent and empty aad/payload are equivalent where documented", "statement": "NULL aad and zero-length aad are interchangeable in signing and verification; t_cose_sign1_verify equals t_cose_sign1_verify_aad with NULL aad.", "quantifier": "all messages and contexts", "why_tests_cant": "Equality of two functions over all inputs.", "anchors": ["src/t_cose_util.c:hash_bstr", "inc/t_cose/t_cose_sign1_verify.h:t_cose_sign1_verify", "inc/t_cose/t_cose_sign1_verify.h:t_cose_sign1_verify_aad"]}
{"id": "C34", "title": "Errors from the layers below are never turned into success", "statement": "If any hash, signature or CBOR-encoder step used by signing or verification reports an error, the API call returns an error (never success), and the crypto adapters report success only when the underlying library did.", "quantifier": "all behaviours of the crypto library and all inputs", "why_tests_cant": "Fault-injection over all call sites and error codes.", "anchors": ["src/t_cose_sign1_sign.c:t_cose_sign1_sign_aad_internal", "src/t_cose_sign1_verify.c:t_cose_sign1_verify_internal", "crypto_adapters/t_cose_psa_crypto.c:psa_status_to_t_cose_error_signing", "crypto_adapters/t_cose_openssl_crypto.c:t_cose_crypto_verify"]}
{"id": "C35", "title": "Hash buffers are always large enough", "statement": "For every build configuration and every algorithm that configuration supports, the digest produced fits in the fixed stack buffer used for it.", "quantifier": "all 2^k combinations of disable options and all algorithms", "why_tests_cant": "Configurations are not enumerated by tests.", "anchors": ["src/t_cose_crypto.h:T_COSE_CRYPTO_MAX_HASH_SIZE", "src/t_cose_util.c:hash_alg_id_from_sig_alg_id", "src/t_cose_util.c:signature_algorithm_id_is_supported"]}
{"id": "C36", "title": "Bundled SHA-256 is SHA-256, independent of chunking", "statement": "The bundled SHA-256 computes the FIPS 180-4 function of the concatenation of the data given to it, however it is split into update calls.", "quantifier": "all messages below 2^61 bytes and all ways of splitting them", "why_tests_cant": "Unbounded message and unbounded splits.", "anchors": ["crypto_adapters/b_con_hash/sha256.c:sha256_update", "crypto_adapters/b_con_hash/sha256.c:sha256_final", "crypto_adapters/b_con_hash/sha256.c:sha256_transform"]}
{"id": "C37", "title": "ECDSA signature conversion round trip", "statement": "Converting a library (DER) signature to COSE fixed-width r||s and back preserves (r, s); the COSE form is always exactly twice the key length; signatures of any other length are refused on verification.", "quantifier": "all r, s below the key's order, all key sizes", "why_tests_cant": "All integers including those with leading zero bytes.", "anchors": ["crypto_adapters/t_cose_openssl_crypto.c:ecdsa_signature_der_to_cose", "crypto_adapters/t_cose_openssl_crypto.c:ecdsa_signature_cose_to_der", "crypto_adapters/t_cose_openssl_crypto.c:ecdsa_key_size"]}
{"id": "C38", "title": "ECDSA signature conversion stays inside its buffer", "statement": "Writing the fixed-width signature never writes outside the caller's signature buffer, whatever the buffer size: if it does not fit an error is returned.", "quantifier": "all buffer sizes, key sizes and r, s values", "why_tests_cant": "Only a narrow band of buffer sizes overflows, invisible to tests that use generous buffers.", "anchors": ["crypto_adapters/t_cose_openssl_crypto.c:ecdsa_signature_der_to_cose"]}
{"id": "C39", "title": "No leak of crypto-library objects", "statement": "Every object allocated from the OpenSSL library during a t_cose crypto call is freed exactly once on every success and error path.", "quantifier": "all combinations of failures of the library calls", "why_tests_cant": "Needs every failure combination.", "anchors": ["crypto_adapters/t_cose_openssl_crypto.c:t_cose_crypto_sign", "crypto_adapters/t_cose_openssl_crypto.c:t_cose_crypto_verify", "crypto_adapters/t_cose_openssl_crypto.c:ecdsa_signature_cose_to_der", "crypto_adapters/t_cose_openssl_crypto.c:t_cose_crypto_hash_start", "crypto_adapters/t_cose_openssl_crypto.c:t_cose_crypto_hash_finish"]}
{"id": "C40", "title": "Tampering is detected", "statement": "If the crypto layer is unforgeable for the key (it accepts only digests/bytes that were signed) and the hash is collision-free on the inputs concerned, then any accepted message has the same protected header, aad and payload as one that was signed; changing any bit of them makes verification fail.", "quantifier": "all pairs of messages", "why_tests_cant": "Quantifies over all modifications.", "anchors": ["src/t_cose_sign1_verify.c:t_cose_sign1_verify_internal", "src/t_cose_util.c:create_tbs_hash"]}
{"id": "C41", "title": "Verification terminates with a defined answer on every input", "statement": "For every byte string, verification terminates, with a number of decoding steps bounded by the input length, in one of the documented error codes.", "quantifier": "all byte strings, including deeply nested and indefinite-length input", "why_tests_cant": "Termination over all inputs.", "anchors": ["src/t_cose_sign1_verify.c:t_cose_sign1_verify_internal", "src/t_cose_parameters.c:parse_cose_header_parameters"]}
{"id": "C42", "title": "Protected-header reference stays valid", "statement": "The signing context keeps only a reference into the output buffer for the protected header; whatever the caller encodes between the two signing steps, the bytes it refers to when the signature is computed are still the encoded protected header.", "quantifier": "all encoder call sequences between encode_parameters and encode_signature, all positions of the COSE message inside a larger CBOR structure", "why_tests_cant": "Any caller sequence; depends on in-place memory moves in the encoder.", "anchors": ["src/t_cose_sign1_sign.c:encode_protected_parameters", "src/t_cose_sign1_sign.c:t_cose_sign1_encode_signature_aad_internal"]}
{"id": "C43", "title": "No undefined memory access while signing", "statement": "For every buffer/NULL-buffer combination documented as allowed, signing never reads through a NULL pointer or outside a caller buffer.", "quantifier": "all combinations of NULL/real output buffer, auxiliary buffer, payload, aad, kid", "why_tests_cant": "Specific combinations (size calculation with a real auxiliary buffer) are not tested.", "anchors": ["src/t_cose_sign1_sign.c:sign1_sign_eddsa", "src/t_cose_util.c:create_tbs"]}
{"id": "C44", "title": "Conflicting content types are refused when signing", "statement": "If both an integer and a string content type are configured, signing fails with DUPLICATE_PARAMETER and produces no output.", "quantifier": "all contexts", "why_tests_cant": "All contexts.", "anchors": ["src/t_cose_sign1_sign.c:add_unprotected_parameters"]}
{"id": "C45", "title": "Adapters agree on algorithms", "statement": "For each crypto adapter and build configuration, the algorithms accepted by sign, verify and signature-size coincide, each uses the hash that t_cose hashes with, and the adapter's support query agrees with what signing accepts.", "quantifier": "all algorithm ids and configurations", "why_tests_cant": "Whole id space times configurations times adapters.", "anchors": ["crypto_adapters/t_cose_openssl_crypto.c:t_cose_crypto_is_algorithm_supported", "crypto_adapters/t_cose_openssl_crypto.c:configure_pkey_context", "crypto_adapters/t_cose_psa_crypto.c:cose_alg_id_to_psa_alg_id", "src/t_cose_crypto.h:t_cose_algorithm_is_ecdsa"]}
{"id": "C46", "title": "Keys of another library or empty keys are refused", "statement": "With the OpenSSL adapter a key not marked as an OpenSSL key gives INCORRECT_KEY_FOR_LIB and a NULL key gives EMPTY_KEY for every sign, verify and size operation; no library call is made with it.", "quantifier": "all keys and operations", "why_tests_cant": "All key values.", "anchors": ["crypto_adapters/t_cose_openssl_crypto.c:key_convert"]}
{"id": "C47", "title": "A COSE_Sign1 can be produced in place inside a larger structure", "statement": "When the two-step signing functions are used with an encoder that already holds other data and open arrays, maps or wrapped byte strings, the octets already written are kept, exactly the RFC 8152 encoding of the message is appended, and the enclosing level counts exactly one more item.", "quantifier": "all preceding encoder call sequences (balanced or not), all payload call sequences, contexts, buffers and adapters", "why_tests_cant": "The tests only sign at the start of an empty buffer; offsets and nesting positions are unbounded.", "anchors": ["src/t_cose_sign1_sign.c:t_cose_sign1_encode_parameters_internal", "src/t_cose_sign1_sign.c:t_cose_sign1_encode_signature_aad_internal"]}
{"id": "C48", "title": "Every valid message is judged on its signature and the options only", "statement": "For every message that follows RFC 8152 within the documented limits of t_cose and QCBOR, in any CBOR encoding of its items (any head widths, definite or indefinite lengths of arrays and maps), verification ends with the outcome of one written-out decision: tag policy, then REQUIRE_KID, then unknown critical parameters, then the short-circuit rule, the EdDSA rule, or the adapter's verdict on the digest of the Sig_structure. On success the returned parameters and payload are those of the message.", "quantifier": "all messages, encodings, header parameters, contexts, options, external data, build configurations and adapters", "why_tests_cant": "There are infinitely many encodings of one message and all option and configuration combinations; tests use a few canonical encodings.", "anchors": ["src/t_cose_sign1_verify.c:t_cose_sign1_verify_internal", "src/t_cose_parameters.c:parse_cose_header_parameters"]}
{"id": "C49", "title": "PSA hash operations are released", "statement": "Whenever t_cose is done with a hash, successful or not, the PSA hash operation it set up is no longer active, so no resources of the library stay bound.", "quantifier": "all algorithms, inputs, build configurations and behaviours of the PSA library", "why_tests_cant": "Needs a failing update or finish inside the library at every position.", "anchors": ["crypto_adapters/t_cose_psa_crypto.c:t_cose_crypto_hash_start", "crypto_adapters/t_cose_psa_crypto.c:t_cose_crypto_hash_update", "crypto_adapters/t_cose_psa_crypto.c:t_cose_crypto_hash_finish"]}
{"id": "C50", "title": "PSA key handles are used as given", "statement": "With the PSA adapter a key made for another crypto library is refused, and a successful operation used exactly the PSA key whose handle was configured.", "quantifier": "all 64-bit key handles, all library marks, all inputs", "why_tests_cant": "The handle space is 64 bits; tests use small handles.", "anchors": ["crypto_adapters/t_cose_psa_crypto.c:t_cose_crypto_verify", "crypto_adapters/t_cose_psa_crypto.c:t_cose_crypto_sign", "inc/t_cose/t_cose_common.h:t_cose_key"]}
{"id": "C51", "title": "Accepted messages are prefix-free", "statement": "A message that some verification call accepts is not accepted with anything appended, and no proper prefix of it is accepted: the boundary of a message is determined by its octets, and messages written one after the other can be cut apart into accepted messages in one way only.", "quantifier": "all messages, appended octets, truncation points, build configurations, adapters, keys, options, external data and kinds of payload of both calls", "why_tests_cant": "Tests append or cut a few octets of a few messages; indefinite lengths, nested headers and both payload kinds multiply the cases.", "anchors": ["src/t_cose_sign1_verify.c:t_cose_sign1_verify_internal"]}
{"id": "C52", "title": "Inline and detached payloads are exclusive", "statement": "No message is accepted both by the functions that take the payload from the message and by the function for detached payloads.", "quantifier": "all messages, build configurations, adapters, keys, options, external data and detached payloads of both calls", "why_tests_cant": "A confusion would need a particular encoding of the payload position; tests use two encodings.", "anchors": ["src/t_cose_sign1_verify.c:t_cose_sign1_verify_internal", "inc/t_cose/t_cose_sign1_verify.h:t_cose_sign1_verify_detached"]}
{"id": "C53", "title": "Options are monotone", "statement": "A message accepted with some options is accepted, with identical parameters, payload, tags and auxiliary-buffer size, when requirements (REQUIRE_KID, TAG_REQUIRED, TAG_PROHIBITED) are dropped or permissions (ALLOW_SHORT_CIRCUIT, UNKNOWN_CRIT_ALLOWED, DECODE_ONLY) are added.", "quantifier": "all messages, all pairs of comparable option words, build configurations, adapters, keys, external data", "why_tests_cant": "64 option combinations times all message shapes; interactions between options are not enumerated by tests.", "anchors": ["src/t_cose_sign1_verify.c:t_cose_sign1_verify_internal", "inc/t_cose/t_cose_sign1_verify.h:T_COSE_OPT_REQUIRE_KID"]}
{"id": "C54", "title": "Unbalanced payload levels are reported", "statement": "If two-step signing succeeds through QCBOREncode_Finish, the encoder calls between its two steps closed exactly as many arrays, maps and byte-string wrappings as they opened.", "quantifier": "all sequences of encoder calls, contexts, adapters, external data and output buffers, including size calculation", "why_tests_cant": "Tests contain one unbalanced sequence; the sequences are unbounded.", "anchors": ["src/t_cose_sign1_sign.c:t_cose_sign1_encode_signature_aad_internal", "src/t_cose_sign1_sign.c:t_cose_sign1_encode_parameters_internal"]}
{"id": "C55", "title": "Signing follows the latest settings", "statement": "After any history of calls on a signing context, a message produced by t_cose_sign1_sign or t_cose_sign1_sign_detached is the RFC 8152 message described by the options and algorithm of the last initialisation and the key, kid and content type set last since then, signed with that key. Signing calls, failed or not, size calculations and unfinished two-step calls leave no trace in later results.", "quantifier": "all sequences of API calls with all arguments and outcomes, all configurations and adapters", "why_tests_cant": "Histories are unbounded; tests use a context for one or two calls.", "anchors": ["inc/t_cose/t_cose_sign1_sign.h:t_cose_sign1_sign_init", "inc/t_cose/t_cose_sign1_sign.h:t_cose_sign1_set_signing_key", "inc/t_cose/t_cose_sign1_sign.h:t_cose_sign1_set_content_type_uint", "src/t_cose_sign1_sign.c:t_cose_sign1_sign_aad_internal"]}
{"id": "C56", "title": "Verification follows the latest settings", "statement": "After any history of calls on a verification context, a verification has the result it has with a fresh context carrying the options of the last initialisation and the key and auxiliary buffer set last; the option bits 0x01, 0x02, 0x04, 0x08 and 0x10 have the documented effect.", "quantifier": "all sequences of API calls with all arguments and outcomes, all messages, all option words", "why_tests_cant": "Histories and messages are unbounded.", "anchors": ["inc/t_cose/t_cose_sign1_verify.h:t_cose_sign1_verify_init", "inc/t_cose/t_cose_sign1_verify.h:t_cose_sign1_set_verification_key", "src/t_cose_sign1_verify.c:t_cose_sign1_verify_internal"]}
{"id": "C57", "title": "Tags of the most recent verification", "statement": "t_cose_sign1_get_nth_tag reports the unprocessed tags of the message of the most recent verification call, and the invalid tag if that message was refused for its tags or nothing was verified yet.", "quantifier": "all histories of calls on the context, all messages, all indices", "why_tests_cant": "Needs a context reused after a refusal; tests query tags only after one successful call.", "anchors": ["inc/t_cose/t_cose_sign1_verify.h:t_cose_sign1_get_nth_tag", "src/t_cose_sign1_verify.c:process_tags"]}
{"id": "C58", "title": "The test suite's signer is the library's signer", "statement": "With no test option set, t_cose_test_message_sign1_sign returns the same octets as t_cose_sign1_sign for the same context, payload and buffer, and succeeds exactly when it does; only so do the negative tests made with it say something about messages of the library.", "quantifier": "all builds, adapters, signing contexts, payloads and buffers", "why_tests_cant": "The copy is the means by which the tests make messages; nothing compares it with the original.", "anchors": ["test/t_cose_make_test_messages.c:t_cose_test_message_sign1_sign", "src/t_cose_sign1_sign.c:t_cose_sign1_sign"]}
{"id": "C59", "title": "Numbers printed by the test runner", "statement": "NumToString yields the decimal representation of every 32-bit number if it fits the buffer with its terminating NUL and an empty string otherwise, and has defined behaviour.", "quantifier": "all 32-bit numbers, all buffer sizes", "why_tests_cant": "2^32 numbers times all buffer sizes; it only ever prints results of failing tests.", "anchors": ["test/run_tests.c:NumToString"]}
{"id": "C60", "title": "Verdict of the test runner", "statement": "RunTestsTCose returns 0 exactly when every requested test returned 0, every name on the command line selects a test, and the reported counts and lines are those of the requested tests.", "quantifier": "all test tables, all results, all lists of names", "why_tests_cant": "It decides whether the tests pass; no test runs it on failing tests.", "anchors": ["test/run_tests.c:RunTestsTCose", "main.c:main"]}
{"id": "C61", "title": "What a refusal depends on", "statement": "Octets that are not a complete message and are refused for what they say (tags, unprotected, duplicate, critical, content type or too many parameters) are refused with the same code however they continue; and every proper prefix of an accepted message is refused in the same call as unreadable, never for what it says.", "quantifier": "all prefixes and continuations, all builds, adapters, keys, options, external data", "why_tests_cant": "It relates a run on each octet string to the runs on all its continuations; the tests look at complete messages only.", "anchors": ["src/t_cose_sign1_verify.c:t_cose_sign1_verify_internal", "src/t_cose_parameters.c:parse_cose_header_parameters", "src/t_cose_parameters.c:decode_critical_parameter"]}
{"id": "C62", "title": "Accepted messages are well-formed CBOR", "statement": "A message whose verification succeeds is one well-formed CBOR item (RFC 8949) and nothing more, and the protected header is empty or one well-formed CBOR map.", "quantifier": "all octet strings, all builds, adapters, keys, options, external data, payloads", "why_tests_cant": "It is a statement about every octet string that is accepted; the tests accept a few dozen, all made by an encoder.", "anchors": ["src/t_cose_sign1_verify.c:t_cose_sign1_verify_internal", "src/t_cose_parameters.c:parse_cose_header_parameters"]}
{"id": "C63", "title": "What is returned and verified is what the CBOR says", "statement": "On success the message is, read by the CBOR grammar, an array that starts with a byte string, a map, the payload and a byte string; the returned algorithm, key id, iv, partial iv and content type are the values the two header maps have for labels 1, 4, 5, 6 and 3, each there at most once (a single content type), and absent exactly when the maps do not have them; and the signature accepted by the adapter is the fourth element, over the octets of the first.", "quantifier": "all octet strings, all builds, adapters, keys, options, external data, payloads", "why_tests_cant": "It connects every accepted octet string with a grammar that is independent of the decoder.", "anchors": ["src/t_cose_sign1_verify.c:t_cose_sign1_verify_internal", "src/t_cose_parameters.c:parse_cose_header_parameters", "src/t_cose_parameters.c:decode_critical_parameter"]}
{"id": "C64", "title": "Refusal codes are truthful", "statement": "When a COSE_Sign1 is refused with one of the codes about messages, what the documentation of that code says is true of the message: a parameter really is in both headers, the alg or crit parameter really is unprotected, an unknown parameter really is critical, the tag really is missing, the auxiliary buffer really is too small, and so on for each code; and input whose first octet cannot start a CBOR item is CBOR_NOT_WELL_FORMED, input starting with a number, a simple value or a map is SIGN1_FORMAT.", "quantifier": "all octet strings that decode as an array of the four elements (first part), all octet strings by first octet (second part), all builds, adapters, options, external data, buffers", "why_tests_cant": "Tests check that given defects produce given codes; here every code produced, on whatever message, must have its cause.", "anchors": ["inc/t_cose/t_cose_common.h:enum t_cose_err_t", "src/t_cose_sign1_verify.c:t_cose_sign1_verify_internal", "src/t_cose_parameters.c:parse_cose_header_parameters", "src/t_cose_parameters.c:decode_critical_parameter", "src/t_cose_parameters.c:check_critical_labels"]}
{"id": "C65", "title": "The verdict on every message", "statement": "For every COSE_Sign1 message within QCBOR's limits that carries no tags on known parameters, good or bad, and every encoding of it, verification ends exactly as a decision procedure on the abstract message says: tag policy first, then the first fault in the protected header, the first fault in the unprotected header, the payload's place, key-id requirement, unknown critical parameters, and then the decision on the signature, with the error code in each case. Two encodings of one message with the same protected octets have the same result, and a fault in the headers is reported whatever key, signature, payload, adapters and other options are.", "quantifier": "all abstract messages (any header maps, also invalid ones), all encodings of them (definite and indefinite lengths, wide heads), all builds, adapters, options, keys, external data, payload modes, stale output buffers", "why_tests_cant": "The set of header contents is infinite, and the order in which faults are reported and its independence of the encoding can only be sampled by tests.", "anchors": ["src/t_cose_sign1_verify.c:t_cose_sign1_verify_internal", "src/t_cose_parameters.c:parse_cose_header_parameters", "src/t_cose_parameters.c:decode_critical_parameter", "src/t_cose_parameters.c:check_critical_labels", "src/t_cose_parameters.c:header_parameter_callback"]}
{"id": "C66", "title": "The result codes of the crypto adapters", "statement": "With the OpenSSL adapter and with the PSA adapter, every signing, verification, size and hash operation gives the code of the first thing that went wrong, by a fixed table: an algorithm the build does not have, a key of another library or an empty one, memory, set-up, conversion of the signature, and last the library's verdict. T_COSE_ERR_SIG_VERIFY is given only when the library says that the signature is not valid or an ECDSA signature has the wrong length. The hash runs over strings that make up the Sig_structure and the first failing call decides.", "quantifier": "all behaviours of the crypto library (return value of every call), all builds, algorithms, keys, hashes, signatures, buffer sizes, headers, external data and payloads", "why_tests_cant": "The failures of the libraries cannot be provoked with the real ones, and their number combines with the order of the calls.", "anchors": ["crypto_adapters/t_cose_openssl_crypto.c:t_cose_crypto_verify", "crypto_adapters/t_cose_openssl_crypto.c:t_cose_crypto_sign", "crypto_adapters/t_cose_openssl_crypto.c:t_cose_crypto_hash_finish", "crypto_adapters/t_cose_psa_crypto.c:psa_status_to_t_cose_error_signing", "crypto_adapters/t_cose_psa_crypto.c:psa_status_to_t_cose_error_hash", "src/t_cose_util.c:create_tbs_hash"]}
{"id": "C67", "title": "The outcome of every signing call", "statement": "The result of the one-call signing functions is a function of the context, the payload, the external data and the size of the buffer that is written down apart from the code: contexts are refused for an algorithm the build does not have, a short-circuit option the build does not have, and two content types, in this order; a buffer too short for what precedes the signature is too small; then hashing, then making the signature in the room that is left give their own codes; then the buffer must hold the whole message; otherwise the result is exactly the COSE_Sign1 with that signature. The size query decides in the same order. With the OpenSSL and PSA adapters this holds for every behaviour of the library's hash calls. Messages that begin beyond QCBOR's 4 GiB limit are refused.", "quantifier": "all builds, contexts, payloads (inline and detached), external data, buffers of every size and content, adapters, library behaviours", "why_tests_cant": "The outcome changes with every combination of option bits, content types, algorithm, buffer size and library failure, for unbounded payloads.", "anchors": ["src/t_cose_sign1_sign.c:t_cose_sign1_sign_aad_internal", "src/t_cose_sign1_sign.c:t_cose_sign1_encode_parameters_internal", "src/t_cose_sign1_sign.c:t_cose_sign1_encode_signature_aad_internal", "src/t_cose_util.c:create_tbs_hash", "src/t_cose_short_circuit.c:short_circuit_sign"]}
{"id": "C68", "title": "The codes a call can return", "statement": "Verification returns, besides success, exactly 17 codes about the message and 8 that come from the crypto (one list for OpenSSL, one for PSA), each of which occurs; with the decode-only option only the 17, whatever the adapter. Signing returns only its own 9 codes and those of the adapter. Eight codes of the documented list (among them NO_ALG_ID, BAD_SHORT_CIRCUIT_KID, UNKNOWN_KEY and WRONG_TYPE_OF_KEY) are never returned: a message without algorithm and without other faults is refused with UNSUPPORTED_SIGNING_ALG. Codes about messages never come from an adapter.", "quantifier": "all messages, contexts, options, payloads, external data, builds, and all behaviours of the crypto library", "why_tests_cant": "That a code is never returned is a claim about all inputs and all failures of the library.", "anchors": ["inc/t_cose/t_cose_common.h:t_cose_err_t", "src/t_cose_sign1_verify.c:t_cose_sign1_verify_internal", "src/t_cose_sign1_sign.c:t_cose_sign1_sign_aad_internal", "crypto_adapters/t_cose_openssl_crypto.c:t_cose_crypto_verify", "crypto_adapters/t_cose_psa_crypto.c:psa_status_to_t_cose_error_signing"]}
{"id": "C69", "title": "The test suite's own messages", "statement": "Every option of the test suite's signer (and the combinations the suite uses) makes exactly the message that a table of literals gives, for every payload, whenever it fits the buffer; signing with it and verifying gives exactly the outcome listed for it; and bad_parameters_test, crit_parameters_test, indef_array_and_map_test and all_header_parameters_test return 0.", "quantifier": "all payloads (up to 14 octets for the one message whose fault depends on it), all buffer contents and sizes, all builds with short-circuit signatures, all adapters that hash, in particular the test adapter with nothing assumed", "why_tests_cant": "The tests run with one payload, one adapter and one build; that an expectation holds for all of them is what makes the test a test of the header parser and not of the set-up.", "anchors": ["test/t_cose_make_test_messages.c:t_cose_test_message_sign1_sign", "test/t_cose_test.c:run_test_sign_and_verify", "test/t_cose_test.c:bad_parameters_test", "test/t_cose_test.c:crit_parameters_test", "test/t_cose_test.c:indef_array_and_map_test", "test/t_cose_test.c:all_header_parameters_test"]}
{"id": "C70", "title": "The outcome with each adapter of the repository", "statement": "For every message that QCBOR can take apart, verification with the test adapter, the OpenSSL adapter and the PSA adapter ends as the decision procedure of C65 says, with the hash that the adapter really gives: SHA-256 of FIPS 180-4 for the test adapter (or the failure that its test hooks inject, or UNSUPPORTED_HASH), and for OpenSSL and PSA what the library's calls report over parts that make up the Sig_structure, failures included. Signing with the test adapter ends as the decision procedure of C67 says with the same hash.", "quantifier": "all messages in all encodings, contexts, options, payloads, external data, builds, test-hook settings and all behaviours of the crypto libraries", "why_tests_cant": "The tests run a handful of messages with one adapter each; library failures are not injected at all except for the two hash hooks.", "anchors": ["src/t_cose_sign1_verify.c:t_cose_sign1_verify_internal", "src/t_cose_util.c:create_tbs_hash", "crypto_adapters/t_cose_test_crypto.c:t_cose_crypto_hash_finish", "crypto_adapters/t_cose_openssl_crypto.c:t_cose_crypto_hash_finish", "crypto_adapters/t_cose_psa_crypto.c:t_cose_crypto_hash_finish"]}
{"id": "C71", "title": "The outcome of two-step signing anywhere", "statement": "After any encoder calls by the caller, and with any payload written between the two calls, t_cose_sign1_encode_parameters fails exactly for the faults of the context that C67 lists, and t_cose_sign1_encode_signature_aad ends exactly as one decision procedure says, from the hash and the room left in the buffer. When it ends well, the encoder has run out of buffer exactly if what was there before and the whole message do not fit; otherwise it holds what was there before followed by the message, the caller's open arrays and maps are as they were with one more item, and after tags alone finishing gives the tags followed by the message.", "quantifier": "all sequences of encoder calls before, all payload contents, contexts, options, external data, keys, adapters whose signatures fit, and buffer sizes", "why_tests_cant": "The tests use the two-step calls at the top level with a few payloads and one buffer size; nesting, every boundary of the buffer and every failure are far more than can be listed.", "anchors": ["src/t_cose_sign1_sign.c:t_cose_sign1_encode_parameters_internal", "src/t_cose_sign1_sign.c:t_cose_sign1_encode_signature_aad_internal"]}
{"id": "C72", "title": "Every other test of t_cose_test.c passes, and what it depends on", "statement": "In every build with short-circuit signatures, each remaining test function of test/t_cose_test.c returns 0: decode of sample structures, self test with and without external data, detached content, tampering with payload or external data, errors in signing, CWT of RFC 8392, decode-only, the COSE working group example, content types, injected hash failures, tags, and size calculation. Which of them depend on the hash and how is stated outright: the two self tests pass exactly if the hash of one Sig_structure is the expected one, the tampering test exactly if two pairs of Sig_structures have different hashes, the others for every hash. The self test with external data passes only because its arguments are exchanged in the same way as in the function it tests.", "quantifier": "all builds, all contents of uninitialised buffers and hash contexts, all adapters with 32-octet digests (all adapters at all for the tests of structure and of signing errors)", "why_tests_cant": "A test that passes once says nothing about other builds, other memory contents and other hash implementations, nor whether it would notice the defect it is meant for.", "anchors": ["test/t_cose_test.c:short_circuit_self_test", "test/t_cose_test.c:short_circuit_verify_fail_test", "test/t_cose_test.c:short_circuit_make_cwt_test", "test/t_cose_test.c:tags_test", "test/t_cose_test.c:get_size_test", "test/t_cose_test.c:sign1_structure_decode_test", "test/t_cose_test.c:short_circuit_hash_fail_test"]}
{"id": "C73", "title": "The test program with the test adapter reports success", "statement": "Built as Makefile.test does, the test program prints for every test of the build its name and PASSED, then that 16, 15 or 1 tests were run (depending on the build) and none failed, and ends with status 0; and whatever tests are asked for by name, none fails and the status is 0.", "quantifier": "all builds, all contents of uninitialised memory, all lists of test names", "why_tests_cant": "It is the test program itself; one run says nothing about other builds and other memory contents.", "anchors": ["test/run_tests.c:s_tests", "test/run_tests.c:RunTestsTCose", "main.c:main", "crypto_adapters/t_cose_test_crypto.c:check_for_key_pair_leaks"]}
{"id": "C74", "title": "What the tests with a crypto library return", "statement": "In every build, with every adapter whose keys work (hashing defined for the algorithm, signatures of a fixed size of at most 256 octets that the same key verifies), each test of test/t_cose_sign_verify_test.c returns 0: basic signing and verifying, tampering, the CWT of RFC 8392, sizes with and without key id (message size, auxiliary buffer size, one-call and two-step signing), messages made by others, unsupported algorithms, bad auxiliary buffers. The known-good test depends on exactly one fact per row: that the adapter accepts the signature in the table for the Sig_structure of RFC 8152; the unsupported test on exactly the refusal by the adapter; the auxiliary buffer test on nothing about the adapter. The tampering test returns 0 even with an adapter that accepts every signature, because its verdict is overwritten. Every test frees each key it makes exactly once on every path.", "quantifier": "all builds, adapters, keys, sets of supported algorithms, contents of uninitialised buffers", "why_tests_cant": "The tests run with one library, one key per algorithm and one build; that a test cannot fail, or leaks a key on an error path, does not show when it passes.", "anchors": ["test/t_cose_sign_verify_test.c:sign_verify_basic_test", "test/t_cose_sign_verify_test.c:sign_verify_sig_fail_test", "test/t_cose_sign_verify_test.c:sign_verify_make_cwt_test", "test/t_cose_sign_verify_test.c:sign_verify_get_size_test", "test/t_cose_sign_verify_test.c:sign_verify_known_good_test", "test/t_cose_sign_verify_test.c:sign_verify_unsupported_test", "test/t_cose_sign_verify_test.c:sign_verify_bad_auxiliary_buffer"]}
{"id": "C75", "title": "The test program with OpenSSL and with PSA", "statement": "Built with OpenSSL or PSA (Makefile.ossl, Makefile.psa), in every configuration, with a library that hashes, imports the test keys, signs, verifies and accepts the signatures in the test data as documented, every test returns 0; without arguments the program prints the name and PASSED for each of the 22 tests (21 without content type, 8 without short-circuit signatures) and a summary without failures; the exit status is 0 whichever tests are named. Whatever the tests return, whichever are run and whatever the library does, every key made is freed before the next is made, and the PSA leak check at the end counts no key.", "quantifier": "all builds, libraries meeting the contract, stack contents, sizes for the NULL buffer, lists of test names; for the balance of keys all libraries and all results", "why_tests_cant": "This is the claim that the tests pass, for all builds and libraries at once; leaks on failing paths only show when tests fail.", "anchors": ["main.c:main", "test/run_tests.c:s_tests", "test/run_tests.c:RunTestsTCose", "test/t_cose_make_openssl_test_key.c:make_key_pair", "test/t_cose_make_psa_test_key.c:make_key_pair", "test/t_cose_make_psa_test_key.c:free_key_pair", "test/t_cose_make_psa_test_key.c:check_for_key_pair_leaks"]}
{"id": "C76", "title": "The examples sign and verify what they say", "statement": "With a key that works for ES256 and arrays of 300 octets (97 for the payload, 109 plus the signature for the message are needed), one_step_sign_example and two_step_sign_example return 0, report success of every step, and print the tagged COSE_Sign1 message of RFC 8152 whose payload is the CBOR map of the example, with a signature the adapter accepts for the Sig_structure, and then that payload. With OpenSSL that generates working keys, and with PSA that imports the key, main runs all its examples in this way.", "quantifier": "all builds, adapters with a working key, libraries meeting the contract, contents of the arrays, stack contents", "why_tests_cant": "The examples are never run by the tests, and a run shows one library, key and build; the sizes of the arrays are constants nobody checks.", "anchors": ["examples/t_cose_basic_example_ossl.c:one_step_sign_example", "examples/t_cose_basic_example_ossl.c:two_step_sign_example", "examples/t_cose_basic_example_ossl.c:make_ossl_key_pair", "examples/t_cose_basic_example_ossl.c:main", "examples/t_cose_basic_example_psa.c:one_step_sign_example", "examples/t_cose_basic_example_psa.c:two_step_sign_example", "examples/t_cose_basic_example_psa.c:make_psa_ecdsa_key_pair", "examples/t_cose_basic_example_psa.c:main"]}
{"id": "C77", "title": "The sizes the dynamic example allocates are exact", "statement": "With a key that works for EdDSA and malloc that gives memory, dynamic_buffer_example returns 0; the size it asks of the size query and allocates for the output is the length of the message it then makes, to the octet; the sizes of both auxiliary buffers are the length of the Sig_structure, to the octet; it prints the message and its payload.", "quantifier": "all builds with EdDSA, adapters with a working key, heap contents and addresses, sizes of the NULL buffer of at least 1000", "why_tests_cant": "An allocation one octet short or too long passes on most allocators; the example is not among the tests.", "anchors": ["examples/t_cose_basic_example_ossl.c:dynamic_buffer_example"]}
{"id": "C78", "title": "The value an example returns says whether it worked", "statement": "Whatever the library and malloc do, an example returns 0 exactly if it printed a payload as verified, and the payload it prints is that of the message it printed, which t_cose_sign1_verify accepted without options and with the key of the example. (False of two_step_sign_example, which returns 0 when QCBOREncode_Finish fails.)", "quantifier": "all builds, adapters, key makers, heaps, array lengths, decoder limits", "why_tests_cant": "The failing paths need a library or allocator that fails at each of some twenty places.", "anchors": ["examples/t_cose_basic_example_ossl.c:one_step_sign_example", "examples/t_cose_basic_example_ossl.c:two_step_sign_example", "examples/t_cose_basic_example_ossl.c:dynamic_buffer_example", "examples/t_cose_basic_example_ossl.c:main", "examples/t_cose_basic_example_psa.c:one_step_sign_example", "examples/t_cose_basic_example_psa.c:two_step_sign_example", "examples/t_cose_basic_example_psa.c:main"]}
{"id": "C79", "title": "What the examples do with keys and memory", "statement": "Whatever the library and malloc do, no example uses or frees a key, key generation context or buffer that it does not hold, makes one over another that it holds, or uses an unset variable. An example that printed the payload has freed its key and buffers; one that did not has not freed its key, nor the message buffer. With PSA nothing is left after success. (With OpenSSL the key generation context is always left.)", "quantifier": "all builds, adapters, key makers, heaps, array lengths", "why_tests_cant": "Leaks and double frees on failing paths only show when each call fails in turn under a memory checker.", "anchors": ["examples/t_cose_basic_example_ossl.c:make_ossl_key_pair", "examples/t_cose_basic_example_ossl.c:free_ossl_key_pair", "examples/t_cose_basic_example_ossl.c:one_step_sign_example", "examples/t_cose_basic_example_ossl.c:two_step_sign_example", "examples/t_cose_basic_example_ossl.c:dynamic_buffer_example", "examples/t_cose_basic_example_psa.c:make_psa_ecdsa_key_pair", "examples/t_cose_basic_example_psa.c:free_psa_ecdsa_key_pair"]}
{"id": "C80", "title": "Octets are printed so that they can be read back", "statement": "print_useful_buf prints the label, the number of octets in decimal, and lines with four spaces and eight octets each in two lower-case hexadecimal digits and a space; reading the digits back gives the octets, so different buffers are printed differently.", "quantifier": "all labels and buffers", "why_tests_cant": "A wrong line break or digit shows only for some lengths and octets.", "anchors": ["examples/t_cose_basic_example_ossl.c:print_useful_buf", "examples/t_cose_basic_example_psa.c:print_useful_buf"]}
{"id": "C81", "title": "Sizes of structs are printed in decimal", "statement": "PrintSizesTCose prints five lines with the name and size of a struct in decimal and an empty line, for all sizes below a thousand million; larger sizes come out as XXX or negative, and 2^31 is undefined behaviour.", "quantifier": "all sizes", "why_tests_cant": "The sizes are constants of one compiler.", "anchors": ["test/run_tests.c:PrintSize", "test/run_tests.c:PrintSizesTCose", "test/run_tests.c:NumToString", "main.c:fputs_wrapper"]}
{"id": "C82", "title": "What a passing test program shows", "statement": "For every crypto adapter, key maker and memory, each test of the program built with OpenSSL or PSA returns 0 exactly if a stated list of facts about the library holds, and the exit status is 0 exactly if every test returned 0 and the number of keys left is a multiple of 256. What is not in the lists the tests do not show: a library that accepts every signature passes all of them.", "quantifier": "all adapters, all keys or failures to make them, all contents of memory, all build configurations", "why_tests_cant": "A test cannot say what it would have missed; that takes every adapter it could have been run with.", "anchors": ["test/t_cose_sign_verify_test.c:sign_verify_basic_test", "test/t_cose_sign_verify_test.c:sig_fail_test", "test/t_cose_sign_verify_test.c:known_good_test", "test/t_cose_test.c:short_circuit_self_test", "test/run_tests.c:RunTestsTCose", "main.c:main"]}
{"id": "C83", "title": "Messages between different builds and crypto libraries", "statement": "A message signed by a program of one build with one crypto adapter is accepted by a program of another build with another adapter, and the payload, algorithm and key id come back as signed, provided the verifying build has the algorithm, both hash alike and the verifier's library accepts, in its own format, the signatures that the signer's library makes in its own. The content type comes back as signed, or as absent if the verifying build does not process it. In particular OpenSSL's DER signatures reach PSA, and PSA's fixed-size signatures reach OpenSSL, in a form they accept.", "quantifier": "all pairs of build configurations, all adapters or libraries that meet the conditions, all keys, payloads, external data, options and buffers with which signing succeeds", "why_tests_cant": "The test program signs and verifies in one process with one library; no test crosses libraries or build options.", "anchors": ["src/t_cose_sign1_sign.c:t_cose_sign1_encode_signature", "src/t_cose_sign1_verify.c:t_cose_sign1_verify_internal", "crypto_adapters/t_cose_openssl_crypto.c:ecdsa_signature_der_to_cose", "crypto_adapters/t_cose_openssl_crypto.c:ecdsa_signature_cose_to_der", "crypto_adapters/t_cose_psa_crypto.c:t_cose_crypto_sign", "crypto_adapters/t_cose_psa_crypto.c:t_cose_crypto_verify"]}
{"id": "C84", "title": "The only ways in which accepted headers deviate from the rules", "statement": "An accepted message has header parameters that follow the rules of RFC 8152 (no label twice, each parameter of table 2 of its type and in its place, crit non-empty, limits on unknown parameters), and none that is critical and unknown unless the option allows it, except for deviations of six kinds: a label outside table 2 used twice; two content types, one text and one number, or the protected one empty, or unread; a content type of a wrong type that the build does not read; an algorithm below the 32-bit numbers; more than ten unknown integer labels, 0 among them; and 0 or the empty text in crit. Each of the six occurs alone in some accepted message.", "quantifier": "all messages within the limits of QCBOR, in every encoding, all build configurations, options, adapters, keys, payload modes and external data", "why_tests_cant": "Tests refuse chosen bad headers; they cannot show that no other bad header is accepted.", "anchors": ["src/t_cose_parameters.c:parse_cose_header_parameters", "src/t_cose_parameters.c:decode_critical_parameter", "src/t_cose_parameters.c:check_critical_labels", "src/t_cose_sign1_verify.c:t_cose_sign1_verify_internal"]}
{"id": "C85", "title": "What can be changed by way of the unprotected header", "statement": "When a message is accepted, every parameter of its protected header (algorithm, key id, IV, partial IV, content type) is returned as it stands there, whatever the unprotected header contains. Replacing the unprotected header of an accepted message leaves it accepted exactly if the headers can still be read, the key id is there if required and no critical parameter is unknown: with adapters that do not look at the key id nothing else depends on the unprotected header, unless the key id of short-circuit signatures is put in or taken out.", "quantifier": "all messages within the limits of QCBOR in every encoding, all unprotected headers put in their place, all build configurations, options, keys, payload modes and external data; all adapters for the first part, those that ignore the key id (OpenSSL, PSA, test) for the second", "why_tests_cant": "Tests try a few tampered headers; what an attacker can do to the part of the message that is not signed is a statement about all headers.", "anchors": ["src/t_cose_parameters.c:parse_cose_header_parameters", "src/t_cose_parameters.c:header_parameter_callback", "src/t_cose_sign1_verify.c:t_cose_sign1_verify_internal"]}
{"id": "C86", "title": "What the key signs, and who can be behind an accepted message", "statement": "The only thing a signing call, in one step or in two, has signed with the private key is the Sig_structure of its own algorithm, external data and payload (or its digest), under its own key and algorithm; nothing when only the size is asked for or a short-circuit signature is made; and a call that succeeds did have it signed. So if signatures cannot be forged and digests do not collide, a message accepted with the public key, short-circuit signatures not being allowed, goes back to one of the calls made: external data, payload, protected header and reported algorithm are those of that call.", "quantifier": "all lists of signing calls, one-step and two-step, each with its own adapter (randomised signatures), context, configuration and buffers; all messages, all verification options, configurations and payload modes; all adapters with streaming hashes", "why_tests_cant": "That a key is never used on anything but the call's own data is a statement about all calls, and that nothing else can be accepted one about all messages an attacker could make.", "anchors": ["src/t_cose_sign1_sign.c:t_cose_sign1_encode_signature_aad_internal", "src/t_cose_sign1_sign.c:t_cose_sign1_sign_aad_internal", "src/t_cose_sign1_verify.c:t_cose_sign1_verify_internal", "src/t_cose_util.c:create_tbs_hash", "src/t_cose_util.c:create_tbs"]}
{"id": "C87", "title": "Messages made in place inside other CBOR are verified", "statement": "A COSE_Sign1 made by the two signing calls inside CBOR that the application is encoding, with tags of the application's own before it, stands in the output directly behind what was there before. Cut out with those tags and given to verification, the outcome is determined outright by the options of the signer and the verifier; with the matching key, suitable options and (for EdDSA) a sufficient auxiliary buffer it is accepted, the payload returned is what was encoded between the two calls, and the tags reported are the application's, from the inside out.", "quantifier": "all sequences of encoder operations before the message, all tags within the limit of QCBOR, all payload contents built between the calls, all contexts, options, configurations, external data; all adapters whose signatures verify", "why_tests_cant": "Tests sign into fresh buffers; what comes before, the nesting and the tags are unbounded.", "anchors": ["src/t_cose_sign1_sign.c:t_cose_sign1_encode_parameters", "src/t_cose_sign1_sign.c:t_cose_sign1_encode_signature_aad_internal", "src/t_cose_sign1_verify.c:process_tags", "src/t_cose_sign1_verify.c:t_cose_sign1_verify_internal"]}
{"id": "C88", "title": "The outcome of verification with tags on header parameters", "statement": "A message with any tags on the values of its header parameters, and on the labels listed in crit, is verified exactly as the message with what is left of its headers when the tags have been taken into account: tags that QCBOR only collects make no difference at all, tags that change the type of a value make it one of no use, and values with too many tags or with content that is an error under the tag cannot be read. A message with a value of that last kind for one of the labels 1 to 6 is never accepted. Messages of which the same is left are verified alike.", "quantifier": "all messages within the limits of QCBOR, all encodings, all tags and all tag-content rules that look at content only; all contexts, options, configurations, payload modes; all adapters (with streaming hashes for the verdict itself)", "why_tests_cant": "No test has a tag on a header parameter; the combinations of tags, nesting in crit and the order of faults are unbounded.", "anchors": ["src/t_cose_parameters.c:parse_cose_header_parameters", "src/t_cose_parameters.c:decode_critical_parameter", "src/t_cose_sign1_verify.c:t_cose_sign1_verify_internal"]}
{"id": "C89", "title": "The outcome of verification for every CBOR item", "statement": "Whatever item is passed for a COSE_Sign1 message, with whatever octets behind it, the result of verification is settled by the item alone, in this order: what is no array is refused with SIGN1_FORMAT (TOO_MANY_TAGS if it has more tags than QCBOR can hold, CBOR_NOT_WELL_FORMED if it is no CBOR); then comes the tag policy; then a first element that is no byte string without tags, or has no map in it, is refused with PARAMETER_CBOR (CBOR_NOT_WELL_FORMED if it is no CBOR); then the protected header, a second element that is no map (PARAMETER_CBOR), the unprotected header, a payload of the wrong kind (SIGN1_FORMAT, TOO_MANY_TAGS or, if detached, CBOR_FORMATTING), a fourth element that is no byte string without tags, and octets behind the array (CBOR_NOT_WELL_FORMED) are refused; only then the key id, critical parameters and the signature matter. Elements after the fourth never matter.", "quantifier": "all octet strings that QCBOR reads as an item, which are all CBOR items within its limits in all encodings and the few others it passes over, with all octets behind them, if the protected byte string is empty or starts with such an item; all tags and tag-content rules that look at content only; all contexts, options, configurations, payload modes; all adapters (with streaming hashes for the outcome itself)", "why_tests_cant": "The tests have a handful of malformed messages; items of other shapes, and the order in which several faults of one item are found, are unbounded.", "anchors": ["src/t_cose_sign1_verify.c:t_cose_sign1_verify_internal", "src/t_cose_sign1_verify.c:process_tags", "src/t_cose_sign1_verify.c:qcbor_decode_error_to_t_cose_error", "src/t_cose_parameters.c:parse_cose_header_parameters"]}
{"id": "C90", "title": "Exactly which octet strings are accepted", "statement": "An octet string is accepted by verification if and only if it is read as one item, to its last octet, that is an array under the allowed tags whose first element is a byte string that is empty or begins with a map, whose second is a map, whose third is the payload (or null if detached) and whose fourth is a byte string, both headers can be read, the key id is there if required, no critical parameter is unknown unless allowed, and the signature is right for the first element's octets, the external data and the payload. What the string is taken for is settled by its octets.", "quantifier": "all octet strings, without exception; all contexts, options, configurations, payload modes, external data; tag-content rules that look at content only; decode-only with any adapter, otherwise adapters with streaming hashes, and the test adapter", "why_tests_cant": "Both directions range over all octet strings: that nothing else is accepted, and that everything of this form is, in any encoding, nesting or order.", "anchors": ["src/t_cose_sign1_verify.c:t_cose_sign1_verify_internal", "src/t_cose_sign1_verify.c:process_tags", "src/t_cose_parameters.c:parse_cose_header_parameters", "src/t_cose_parameters.c:decode_critical_parameter", "src/t_cose_parameters.c:check_critical_labels"]}
{"id": "C91", "title": "Verification agrees with a short reference program", "statement": "There is a program of a few dozen lines that reads an octet string from the front, item by item, and decides verification. Whenever it has a result, t_cose_sign1_verify has the same result, down to the error code; whenever it has none (no readable item at the front, or none in the first element) verification is refused. A string in which it finds no message is refused before anything is hashed or verified, whatever the key, adapter and external data. What it finds in a message is unique.", "quantifier": "all octet strings, without exception; all contexts, options, configurations, payload modes, external data; tag-content rules that look at content only; adapters with streaming hashes, and the test adapter; for the refusal without hashing, all adapters", "why_tests_cant": "Two programs agree on all inputs only by proof; differential tests sample the inputs and compare few error codes.", "anchors": ["src/t_cose_sign1_verify.c:t_cose_sign1_verify_internal", "src/t_cose_sign1_verify.c:process_tags", "src/t_cose_parameters.c:parse_cose_header_parameters", "src/t_cose_parameters.c:decode_critical_parameter"]}
{"id": "C92", "title": "The signing context between the two steps", "statement": "What is done with the signing context between t_cose_sign1_encode_parameters and t_cose_sign1_encode_signature does not change the message that is being made, save that the key set last signs it: the headers are those set before the first step, and the signature is over them, the external data and the payload. (False of the code when another message is made or sized with the same context, or when it is initialised: the second step then succeeds with a signature over other octets.)", "quantifier": "all contexts, configurations, adapters, external data, payloads within QCBOR's limits, buffers; all sequences of settings between the steps; for the cases in which it is false, all sequences of calls before, and all other messages", "why_tests_cant": "Tests run the two steps one right after the other; interleavings with other uses of the context are unbounded in number, and the wrong signature shows only at a verifier.", "anchors": ["src/t_cose_sign1_sign.c:t_cose_sign1_encode_parameters_internal", "src/t_cose_sign1_sign.c:t_cose_sign1_encode_signature_aad_internal", "inc/t_cose/t_cose_sign1_sign.h:t_cose_sign1_set_signing_key", "inc/t_cose/t_cose_sign1_sign.h:t_cose_sign1_sign_init"]}
{"id": "C93", "title": "The work of decoding is linear in the length of the message", "statement": "In one verification the decoder reads initial bytes, looks for breaks and leaves nesting levels at most a fixed number of times for each octet of the message: 41 times the length and 38 more, whatever the octets are and whether or not the message is accepted. No octet string makes it take time that grows faster, such as with the square of the length or exponentially with the nesting.", "quantifier": "all octet strings of any length and nesting, all builds, options, contexts, ways to pass the payload, limits on tags and tag processing", "why_tests_cant": "The worst case over all inputs of every length; a slow input has to be known to be tested.", "anchors": ["src/t_cose_sign1_verify.c:t_cose_sign1_verify_internal", "src/t_cose_parameters.c:parse_cose_header_parameters", "src/t_cose_parameters.c:decode_critical_parameter"]}
{"id": "C94", "title": "The result of verification for every octet string, with its error code", "statement": "For every octet string the result of verification is what a reference program computes. The program says how far the octets can be read as tags, an array and its elements, and the protected header as a map and its entries, and why not further (no CBOR, or a limit of the decoder or missing items); then it looks in order for the first fault: the array, the tag policy, the protected header, the unprotected header, the payload, the signature, what is behind; of a header that is cut off the entries before the cut count. The error code is that of the first fault. If there is none, key, hash and signature decide.", "quantifier": "all octet strings of any length, whether CBOR or not and however cut off, all builds, options, key ids, external data, inline or detached payloads, all adapters, all contents of uninitialised memory; at most four tags kept and local tag processing", "why_tests_cant": "Relates two programs on all octet strings, most of which are broken in more than one place; tests cover a few broken messages and mostly look at refusal, not the code.", "anchors": ["src/t_cose_sign1_verify.c:t_cose_sign1_verify_internal", "src/t_cose_sign1_verify.c:qcbor_decode_error_to_t_cose_error", "src/t_cose_parameters.c:parse_cose_header_parameters"]}
{"id": "C95", "title": "Everything verification stores, for every octet string and history of calls", "statement": "For every octet string the result of a verification call and everything it stores is what a reference program computes: the tags and the auxiliary buffer size in the context, the returned parameters and the payload. A refused call stores no parameters and no payload. Nothing in the context changes when the octets are no array or the tags are refused; otherwise the tags of the message replace the old ones, also when it is refused later; the size changes only when an EdDSA signature is about to be checked and the structure fits into the buffer. Nothing undefined is done. Any sequence of calls on a context (initialisation, key, buffer, verification of anything) does in each step what the reference machine does.", "quantifier": "all octet strings of any length, all builds, options, contexts, external data, inline or detached payloads, adapters and contents of uninitialised memory; all finite sequences of calls; at most four tags kept and local tag processing", "why_tests_cant": "Relates two machines over all octet strings and all call sequences; tests look at what is stored for a few accepted messages and do not look at the context after a refusal.", "anchors": ["src/t_cose_sign1_verify.c:t_cose_sign1_verify_internal", "src/t_cose_sign1_verify.c:process_tags", "src/t_cose_sign1_verify.c:sign1_verify_eddsa", "inc/t_cose/t_cose_sign1_verify.h:t_cose_sign1_verify_init"]}
{"id": "C96", "title": "The signing context as a machine: what every call returns and leaves behind", "statement": "A call that signs (with or without external data, detached, with a buffer or to ask for the size) ends as a reference program says, error code included, and changes at most one thing in the context that matters later: the auxiliary buffer size, set exactly when the context has no fault, what precedes the signature fits into the output, the algorithm is EdDSA without short-circuit signing, and the structure to be signed fits into the auxiliary buffer; then it is the length of that structure, also when the call fails afterwards. Any sequence of calls on a context (initialisation, key, buffer, content types, signing) returns in each step what the reference machine returns and leaves the context the machine has; the stale pointer to the protected header in it influences nothing.", "quantifier": "all builds, contexts, payloads, external data, output buffers and sizes, adapters that keep to their contract; all finite sequences of calls of the one-step interface; payloads and headers within the QCBOR limit; size queries for EdDSA without auxiliary buffer", "why_tests_cant": "Relates two machines over all call sequences; tests use one context for one or two calls and do not look at it after a failure.", "anchors": ["src/t_cose_sign1_sign.c:t_cose_sign1_sign_aad_internal", "src/t_cose_sign1_sign.c:sign1_sign_eddsa", "src/t_cose_sign1_sign.c:t_cose_sign1_encode_signature_aad_internal", "inc/t_cose/t_cose_sign1_sign.h:t_cose_sign1_sign_init"]}
{"id": "C97", "title": "What each option of verification changes", "statement": "Adding one option to any others leaves the result of verification as it is, error code included, except in the one case the option is for. TAG_REQUIRED and TAG_PROHIBITED turn the result into INCORRECTLY_TAGGED exactly when an array could be entered and its innermost tag is not, or is, 18. REQUIRE_KID turns it into NO_KID exactly when the message could be read to its end and has no key id. UNKNOWN_CRIT_ALLOWED takes away UNKNOWN_CRITICAL_PARAMETER and nothing else. ALLOW_SHORT_CIRCUIT replaces SHORT_CIRCUIT_SIG by the comparison with the digest and nothing else. DECODE_ONLY makes a success of everything that is not refused before the signature, but for EdDSA messages whose structure does not fit into the auxiliary buffer. Bits that are no option change nothing.", "quantifier": "all octet strings of any length, all words of options, all builds, contexts, external data, inline or detached payloads and adapters; at most four tags kept and local tag processing", "why_tests_cant": "Compares pairs of calls over all octet strings and all 64 combinations of options; tests try single options on single messages.", "anchors": ["src/t_cose_sign1_verify.c:t_cose_sign1_verify_internal", "src/t_cose_sign1_verify.c:process_tags", "src/t_cose_sign1_verify.c:sign1_verify_short_circuit", "inc/t_cose/t_cose_sign1_verify.h:T_COSE_OPT_REQUIRE_KID"]}
{"id": "C98", "title": "What each build switch changes in verification", "statement": "A build without some algorithms gives for every octet string the result of the build with them, error code included, unless the message could be read and looked at and its algorithm is one of those that are missing: then it is UNSUPPORTED_SIGNING_ALG, or SHORT_CIRCUIT_SIG for a short-circuit signature that is not allowed, or success with DECODE_ONLY. A build without short-circuit signatures treats the messages with their key id like any others, and nothing else changes. A build without the content type gives the same result unless the other one refuses the message for its content type or for a parameter that is there twice; it accepts all that the other one accepts.", "quantifier": "all octet strings of any length, all builds, contexts, options, external data, inline or detached payloads; all adapters of the two builds that hash, and verify alike with the key what both builds have: PSA with any key, OpenSSL with keys of a size the smaller build was made for", "why_tests_cant": "The tests run in one build at a time; the claim compares the results of two builds on all octet strings.", "anchors": ["src/t_cose_sign1_verify.c:t_cose_sign1_verify_internal", "src/t_cose_util.c:hash_alg_id_from_sig_alg_id", "src/t_cose_parameters.c:parse_cose_header_parameters", "crypto_adapters/t_cose_openssl_crypto.c:ecdsa_signature_cose_to_der"]}
{"id": "C99", "title": "What options, a detached payload and build switches change in signing", "statement": "With OMIT_CBOR_TAG and a buffer shorter by one octet a signing call ends with the same error, or with the same message without its first octet. With a detached payload and a buffer shorter by what the payload takes, it ends with the same error, or with the message that has null for the payload and the same signature. Bits that are no option change nothing. A build without some algorithms refuses them with UNSUPPORTED_SIGNING_ALG, and one without short-circuit signatures refuses those with SHORT_CIRCUIT_SIG_DISABLED unless the algorithm is refused; all else is as in the other build. A build without the content type makes the message that the other one makes when no content type was set.", "quantifier": "all contexts, payloads, external data, buffers of any length, builds; all adapters that hash and never exceed the buffer for a signature; messages shorter than 2^32 - 9 octets; between builds adapters that sign alike, which PSA does, and OpenSSL if the library does with two sizes of a buffer", "why_tests_cant": "Compares pairs of calls, with the error code and every octet, over all sizes of buffers and in pairs of builds.", "anchors": ["src/t_cose_sign1_sign.c:t_cose_sign1_encode_parameters_internal", "src/t_cose_sign1_sign.c:t_cose_sign1_encode_signature_aad_internal", "inc/t_cose/t_cose_sign1_sign.h:T_COSE_OPT_OMIT_CBOR_TAG"]}
{"id": "C100", "title": "A tag in front of a message", "statement": "If the octets begin with an array, complete or not, that has fewer tags than a decoder takes, one more tag in front, in any encoding, does not change the result of verification, not even the error code; except that an option about the tag looks at it if there was none before: then 18 is what TAG_REQUIRED asks for and TAG_PROHIBITED refuses. If the array has all the tags already that a decoder takes, the result is TOO_MANY_TAGS. Octets that begin with no array are refused with the same error or with TOO_MANY_TAGS. So whatever is accepted without an option about tags is accepted with tags in front that nobody signed, as many as there is room for.", "quantifier": "all octet strings, not empty and with the tag within the length limit; all tag numbers and encodings of them; all options, contexts, keys, external data, payloads, adapters, builds, uninitialised memory; decoders that take up to four tags", "why_tests_cant": "Relates two verifications for every octet string, well-formed or not, with the error code.", "anchors": ["src/t_cose_sign1_verify.c:process_tags", "src/t_cose_sign1_verify.c:t_cose_sign1_verify_internal"]}
{"id": "C101", "title": "Octets behind a message", "statement": "Something is read as an item, and octets follow. The result of verification is that without them if the item was refused for its tags, its headers or the types of its elements; everything else, accepted or refused for key id, critical parameters, algorithm, key or signature, is refused with CBOR_NOT_WELL_FORMED. It does not matter which octets follow or how many, and nothing is stored but the tags in the context. Nothing with octets behind it is accepted.", "quantifier": "everything that the decoder reads as an item, and all octets behind it up to the length limit (C101_never without it); all options, contexts, keys, external data, payloads, adapters, builds, uninitialised memory", "why_tests_cant": "Relates two verifications for every item and every continuation, with the error code and all that is stored.", "anchors": ["src/t_cose_sign1_verify.c:t_cose_sign1_verify_internal"]}
{"id": "C102", "title": "The order of parameters in the unprotected header", "statement": "A header is a map, so the order of its entries means nothing. If the headers of a message can be read, the message with the entries of its unprotected header in another order, and in any encoding, has the same result of verification, with the error code, and the same is stored: parameters, payload, tags, size of the auxiliary buffer.", "quantifier": "all pairs of messages, with any tags and elements, that differ only in the order of the entries of the unprotected header and in their encoding; all options, contexts, keys, external data, payloads, adapters, builds, uninitialised memory", "why_tests_cant": "Relates two verifications for every message and every permutation of a header of any length.", "anchors": ["src/t_cose_parameters.c:add_label_to_list", "src/t_cose_parameters.c:header_parameter_callback", "src/t_cose_parameters.c:check_critical_labels"]}
{"id": "C103", "title": "One more parameter in the unprotected header", "statement": "If the headers of a message can be read, an unknown parameter more at the end of its unprotected header, with any value, changes neither the result of verification nor anything that is stored, except that the message is refused if the label is no 64-bit signed number (PARAMETER_CBOR), if there are ten unknown labels of its kind already (TOO_MANY_PARAMETERS), or if it is critical and unknown critical parameters are not allowed (UNKNOWN_CRITICAL_PARAMETER, unless a key id is required and missing). A parameter added to the unprotected header never makes anything acceptable that was not.", "quantifier": "all pairs of messages, with any tags and elements, that differ only in one more entry at the end of the unprotected header and in their encoding; all labels but 1 to 6, all values; all options, contexts, keys, external data, payloads, adapters, builds, uninitialised memory", "why_tests_cant": "Relates two verifications for every message and every parameter, with the error code and all that is stored.", "anchors": ["src/t_cose_parameters.c:add_label_to_list", "src/t_cose_parameters.c:header_parameter_callback", "src/t_cose_parameters.c:check_critical_labels"]}
{"id": "C104", "title": "Encodings of a message, and values nobody looks at", "statement": "Two octet strings that are read as the same item, in whatever encoding, have the same result of verification, with the error code, and leave the same behind. The same holds of two messages that differ in the values of unknown parameters of the unprotected header besides.", "quantifier": "all pairs of encodings, accepted by the decoder, of any item (C104_encoding), and all pairs of arrays with equal tags and elements but for the unprotected header, which has the same labels and the same values of the labels 1 to 6 (C104_alike); all options, contexts, keys, external data, payloads, adapters, builds, uninitialised memory", "why_tests_cant": "Relates two verifications for every item and every pair of encodings.", "anchors": ["src/t_cose_sign1_verify.c:t_cose_sign1_verify_internal", "src/t_cose_parameters.c:header_parameter_callback"]}
{"id": "C105", "title": "The payload inside or outside a message", "statement": "A message with a payload, given to verification, and the same message with null in the place of the payload, given to verification of detached content together with the payload, have the same result, with the error code, and leave the same behind, except that no payload is returned.", "quantifier": "all pairs of messages, with any tags, elements and encodings, that differ in the third element in this way, the null with or without tags; all options, contexts, keys, external data, adapters, builds, uninitialised memory", "why_tests_cant": "Relates two verifications by two functions for every message, with the error code and all that is stored.", "anchors": ["src/t_cose_sign1_verify.c:t_cose_sign1_verify_internal", "inc/t_cose/t_cose_sign1_verify.h:t_cose_sign1_verify_detached"]}
{"id": "C106", "title": "The key id in the unprotected header", "statement": "If an adapter does not look at the key id, and none of those of the repository does, another key id in the unprotected header changes neither the result of verification, nor its error code, nor what is stored, except for the key id returned. The key id of short-circuit signatures is the exception: with it in place of another, a message that was accepted is refused with SHORT_CIRCUIT_SIG, if signatures are checked and short-circuit signatures are not allowed.", "quantifier": "all pairs of messages, with any tags, elements and encodings, that differ in the value of the key id in the unprotected header, acceptable or not; all options, contexts, keys, external data, payloads, builds, adapters that do not look at the key id, uninitialised memory", "why_tests_cant": "Relates two verifications for every message and every pair of key ids, with the error code and all that is stored.", "anchors": ["src/t_cose_sign1_verify.c:t_cose_sign1_verify_internal", "src/t_cose_parameters.c:parse_cose_header_parameters"]}
{"id": "C107", "title": "What key id and content type change in signing", "statement": "Two signing contexts that differ only in key id and content type, neither with both kinds of content type, and buffers whose lengths differ as the two unprotected headers do: both calls end with the same error code, or both produce messages that carry one and the same signature and differ in the unprotected header only.", "quantifier": "all signing contexts, key ids, content types, payloads inside or detached, external data, buffers, builds, adapters that keep the contract on signature sizes", "why_tests_cant": "Relates two signings for every pair of contexts and every length of the buffers, including each length at which signing fails.", "anchors": ["src/t_cose_sign1_sign.c:t_cose_sign1_encode_parameters_internal", "src/t_cose_sign1_sign.c:t_cose_sign1_encode_signature_aad_internal", "src/t_cose_sign1_sign.c:add_unprotected_parameters"]}
{"id": "C108", "title": "IV, Partial IV and content type in the unprotected header", "statement": "Another IV, another Partial IV, another text as the content type or another number up to 65535 as the content type in the unprotected header changes neither the result of verification, nor its error code, nor what is stored, except that the other value is returned. A build without the content type returns the same.", "quantifier": "all pairs of messages, with any tags, elements and encodings, that differ in the value of one such parameter in the unprotected header, acceptable or not; all options, contexts, keys, external data, payloads, builds, adapters, uninitialised memory", "why_tests_cant": "Relates two verifications for every message and every pair of values, with the error code and all that is stored.", "anchors": ["src/t_cose_sign1_verify.c:t_cose_sign1_verify_internal", "src/t_cose_parameters.c:parse_cose_header_parameters"]}
{"id": "C109", "title": "The signature in a message", "statement": "For two messages that differ in the signature alone, verification does the same up to the judgement on the signature: there is one way to judge a signature, the same for both, and each call either does what it does for an accepted signature, or fails with the error of that judgement and leaves the same context. The way to judge is one of: not looking at it, the adapter's verification with the caller's key, or the comparison of a short-circuit signature with the hash, which needs the option that allows it. If only decoding is asked for, or both messages are accepted, both calls do the same in every respect.", "quantifier": "all pairs of messages, with any tags, elements and encodings, that differ in the signature, acceptable or not; all options, contexts, keys, external data, payloads, builds, adapters, uninitialised memory", "why_tests_cant": "Relates two verifications for every message and every pair of signatures, with the error code and all that is stored.", "anchors": ["src/t_cose_sign1_verify.c:t_cose_sign1_verify_internal", "src/t_cose_sign1_verify.c:sign1_verify_short_circuit"]}
{"id": "C110", "title": "The key of the verifier", "statement": "The key in the verification context is used for nothing but the call of the adapter that verifies the signature, and not at all if only decoding is asked for or the signature is a short-circuit one. With another key, verification does the same except for the adapter's answer: what is left in the context is the same but for the key, and if only decoding is asked for, or the message is accepted with both keys, everything stored is the same.", "quantifier": "all octets as the message, all pairs of keys, all options, contexts, external data, payloads, builds, adapters, uninitialised memory", "why_tests_cant": "Relates verifications with every two keys for every message, with the error code and all that is stored.", "anchors": ["src/t_cose_sign1_verify.c:t_cose_sign1_verify_internal", "src/t_cose_sign1_verify.c:sign1_verify_short_circuit"]}
{"id": "C111", "title": "The key of the signer", "statement": "The key in the signing context is used for nothing but the calls of the adapter for the size of the signature and for the signature, and not at all for a short-circuit signature. With another key for which the adapter gives the same answers, or with a short-circuit signature, signing in one step or in two has the same result, writes the same octets, and leaves the same context but for the key.", "quantifier": "all signing contexts, pairs of keys, payloads, external data, output buffers or size calculation, encoders and what they hold, builds, adapters", "why_tests_cant": "Relates two signings for every pair of keys, including error codes and all that is written.", "anchors": ["src/t_cose_sign1_sign.c:t_cose_sign1_sign_aad_internal", "src/t_cose_sign1_sign.c:t_cose_sign1_encode_signature_aad_internal"]}
{"id": "C112", "title": "What the caller asks to get back", "statement": "Whether the caller of verification asks for the parameters, or for the payload inside the message, changes neither the result, nor its error code, nor what is left in the context, nor anything else that is stored. What is asked for is stored exactly if the message is accepted, and what is not asked for never; a detached payload is never stored.", "quantifier": "all octets as the message, all options, contexts, keys, external data, payloads, builds, adapters, decoders, uninitialised memory", "why_tests_cant": "Relates verifications with and without a place for the results for every message, accepted or not.", "anchors": ["src/t_cose_sign1_verify.c:t_cose_sign1_verify_internal"]}
{"id": "C113", "title": "The auxiliary buffer of the verifier", "statement": "Another auxiliary buffer in the verification context changes neither the result of verification, nor its error code, nor what is stored, unless the build has EdDSA and one of the two calls fails with AUXILIARY_BUFFER_SIZE or NEED_AUXILIARY_BUFFER.", "quantifier": "all octets as the message, all pairs of auxiliary buffers, of any size and with any contents, or none; all options, contexts, keys, external data, payloads, builds, adapters, uninitialised memory", "why_tests_cant": "Relates verifications with every two buffers for every message, accepted or not, with all that is stored.", "anchors": ["src/t_cose_sign1_verify.c:t_cose_sign1_verify_internal", "src/t_cose_sign1_verify.c:sign1_verify_eddsa"]}
{"id": "C114", "title": "The auxiliary buffer of the signer", "statement": "Signing into a buffer with another auxiliary buffer in the context has the same result, with the same error code or the same octets, unless the algorithm is EdDSA, the signature is not a short-circuit one, and one of the two calls fails with AUXILIARY_BUFFER_SIZE or NEED_AUXILIARY_BUFFER.", "quantifier": "all signing contexts, pairs of auxiliary buffers of any size and with any contents, or none, payloads inside or detached, external data, output buffers, builds, adapters that keep the contract on signature sizes", "why_tests_cant": "Relates two signings for every pair of auxiliary buffers and every length of the output buffer.", "anchors": ["src/t_cose_sign1_sign.c:sign1_sign_eddsa", "src/t_cose_sign1_sign.c:t_cose_sign1_encode_signature_aad_internal"]}
{"id": "C115", "title": "What the test adapter accepts", "statement": "With the test adapter and more than decoding asked for, a message is accepted only if it has a short-circuit signature, the caller allows it and the build has it, and the signature begins with the SHA-256 hash of what is to be signed. Any other message in order is refused: with EdDSA and room in the auxiliary buffer with UNSUPPORTED_SIGNING_ALG, otherwise with the error of hashing or, if hashing succeeds, UNSUPPORTED_SIGNING_ALG. The key plays no part.", "quantifier": "all octet strings, options, keys, external data, payloads inside or detached, builds, settings of the hash test hooks", "why_tests_cant": "Says of every octet string and key that no signature but a short-circuit one is accepted; tests try a few messages.", "anchors": ["crypto_adapters/t_cose_test_crypto.c:t_cose_crypto_verify", "crypto_adapters/t_cose_test_crypto.c:t_cose_crypto_verify_eddsa", "src/t_cose_sign1_verify.c:t_cose_sign1_verify_internal"]}
