import Verif.TestCode.SignVerify
import Verif.TestCode.TestMain
import Verif.Adapters.Openssl
import Verif.Adapters.Psa

/-!
# The test program with a crypto library

The table of test/run_tests.c as Makefile.ossl and Makefile.psa build it (both leave
`TEST_CONFIG_OPTS` empty: the tests that sign and verify are in, the hash failure test is
not), the functions of test/t_cose_make_openssl_test_key.c and
test/t_cose_make_psa_test_key.c that make, free and count keys, and main.c.

Simplification: a library object is known by a number that is not used again after the
object was freed.
-/

namespace TCose.SignVerifyTest
open TCose TestMsg RunTests SuiteTest

/-- The private keys in the two files. The octets are not modelled. -/
inductive KeyData where
  | ec256 | ec384 | ec521 | rsa2048 | ed25519
  deriving Repr, DecidableEq

/-! ## OpenSSL -/

/-- `EVP_PKEY_EC`, `EVP_PKEY_RSA`, `EVP_PKEY_ED25519`. -/
inductive EvpType where
  | ec | rsa | ed25519
  deriving Repr, DecidableEq

/-- The switch of `make_key_pair` (test/t_cose_make_openssl_test_key.c:116-152). -/
def osslKeyArgs (alg : Int) : Option (EvpType × KeyData) :=
  if alg = algES256 then some (.ec, .ec256)
  else if alg = algES384 then some (.ec, .ec384)
  else if alg = algES512 then some (.ec, .ec521)
  else if alg = algPS256 ∨ alg = algPS384 ∨ alg = algPS512 then some (.rsa, .rsa2048)
  else if alg = algEDDSA then some (.ed25519, .ed25519)
  else none

/-- `make_key_pair` (test/t_cose_make_openssl_test_key.c:106-168); `d2i` is
`d2i_PrivateKey`, NULL is 0. -/
def osslMakeKey (d2i : EvpType → KeyData → Nat) (alg : Int) : Except Err Key :=
  match osslKeyArgs alg with
  | none => .error .unsupportedSigningAlg
  | some (ty, data) => if d2i ty data = 0 then .error .fail else .ok ⟨.openssl, d2i ty data⟩

/-- `check_for_key_pair_leaks` (test/t_cose_make_openssl_test_key.c:183-191). -/
def osslKeyLeaks (_ : List KeyEvent) : Nat := 0

/-! ## PSA -/

/-- `PSA_KEY_TYPE_ECC_KEY_PAIR(PSA_ECC_FAMILY_SECP_R1)`, `PSA_KEY_TYPE_RSA_KEY_PAIR`. -/
inductive PsaType where
  | secpR1 | rsa
  deriving Repr, DecidableEq

/-- The switch of `make_key_pair` (test/t_cose_make_psa_test_key.c:79-124). -/
def psaKeyArgs (alg : Int) : Option (PsaType × KeyData × Psa.SigAlg) :=
  if alg = algES256 then some (.secpR1, .ec256, .ecdsa .sha256)
  else if alg = algES384 then some (.secpR1, .ec384, .ecdsa .sha384)
  else if alg = algES512 then some (.secpR1, .ec521, .ecdsa .sha512)
  else if alg = algPS256 then some (.rsa, .rsa2048, .pss .sha256)
  else if alg = algPS384 then some (.rsa, .rsa2048, .pss .sha384)
  else if alg = algPS512 then some (.rsa, .rsa2048, .pss .sha512)
  else none

/-- `make_key_pair` (test/t_cose_make_psa_test_key.c:55-183); `init` is the status of
`psa_crypto_init`, `imp` is `psa_import_key` with its status and handle. The usage flags
are always the same (line 154). -/
def psaMakeKey (init : Int) (imp : PsaType → KeyData → Psa.SigAlg → Int × UInt32) (alg : Int) :
    Except Err Key :=
  match psaKeyArgs alg with
  | none => .error .unsupportedSigningAlg
  | some (ty, data, a) =>
    if init ≠ Psa.success then .error .fail
    else if (imp ty data a).1 ≠ Psa.success then .error .fail
    else .ok ⟨.psa, (imp ty data a).2.toNat⟩

/-- The keys in the slots of the library: `psa_import_key` adds one, `psa_destroy_key` in
`free_key_pair` (test/t_cose_make_psa_test_key.c:189-192) removes the one with that id. -/
def psaSlots : List Nat → List KeyEvent → List Nat
  | l, [] => l
  | l, .made k :: r => psaSlots (k.k :: l) r
  | l, .freed k :: r => psaSlots (l.erase (Psa.keyId k)) r

/-- `check_for_key_pair_leaks` (test/t_cose_make_psa_test_key.c:198-217): all slots in
use. Simplification: the slots are counted together, and the library has no keys when the
program starts. -/
def psaKeyLeaks (es : List KeyEvent) : Nat := (psaSlots [] es).length

/-! ## The program -/

section
variable (cfg : Config) (P : QParams) (C : Crypto) (junk : Junk) (sup : Int → Bool) (cap cap' : Nat)

/-- `s_tests` (test/run_tests.c:51-99) for a crypto library: the tests and what they do with
keys. `K t i` is the `i`-th call of `make_key_pair` in test `t`; `cap` is the size
`sign_verify_get_size_test` gives its NULL buffer (`INT32_MAX`,
test/t_cose_sign_verify_test.c:589), `cap'` the one of `get_size_test`. -/
def realTests (buf : Nat → Stack) (rows : Nat → Row → Bytes)
    (K : Nat → Nat → Int → Except Err Key) : List (Entry × List KeyEvent) :=
  let real (s : String) (r : Int × List KeyEvent) : Entry × List KeyEvent :=
    (⟨cname s, r.1, true⟩, r.2)
  let pure (s : String) (r : Int) : Entry × List KeyEvent := (⟨cname s, r, true⟩, [])
  pure "sign1_structure_decode_test" (structureTest cfg P C junk) ::
  [real "sign_verify_basic_test"
     (basicTest cfg P C junk sup (buf 20 300) (buf 20 100) (K 0)),
   real "sign_verify_make_cwt_test" (cwtTest cfg P C junk false (buf 21 300 0) (K 1 0)),
   real "sign_verify_sig_fail_test"
     (sigFailTest cfg P C junk sup false (buf 22 300) (buf 22 100) (K 2)),
   real "sign_verify_get_size_test"
     (sizeTest cfg C sup cap (buf 23 300) (fun i => buf 24 300 i) (buf 23 100) (K 3)),
   real "sign_verify_known_good_test" (knownGoodTest cfg P C junk sup (buf 25 100) (K 4)),
   real "sign_verify_unsupported_test" (unsupportedTest cfg P C junk sup (buf 26 100) (K 5)),
   real "sign_verify_bad_auxiliary_buffer"
     (badAuxTest cfg P C junk sup (buf 27 300 0) (buf 27 300 1) (buf 27 5 2) (K 6 0))] ++
  (if cfg.disableShortCircuit then [] else
    [pure "bad_parameters_test" (badParametersTest cfg P C junk payloadText (rows 0)),
     pure "crit_parameters_test" (critParametersTest cfg P C junk payloadText (rows 1))] ++
    (if cfg.disableContentType then [] else
      [pure "content_type_test"
        (contentTypeTest cfg P C junk (buf 2 200 0) (buf 2 200 1) (buf 2 200 2))]) ++
    [pure "all_header_parameters_test"
       (allHeaderParametersTest cfg P C junk content (buf 3 300 0)),
     pure "cose_example_test" (coseExampleTest cfg C (buf 4 200 0)),
     pure "short_circuit_signing_error_conditions_test"
       (signingErrorsTest cfg C (buf 5 300 0) (buf 5 300 1) (buf 5 300 2) (buf 5 15 3)),
     pure "short_circuit_self_test" (selfTest cfg P C junk (buf 6 200 0) (buf 6 200 1)),
     pure "short_circuit_self_detached_content_test" (detachedTest cfg P C junk (buf 7 200 0)),
     pure "short_circuit_decode_only_test"
       (decodeOnlyTest cfg P C junk (buf 8 200 0) (buf 8 10 1)),
     pure "short_circuit_make_cwt_test" (makeCwtTest cfg P C junk (buf 9 200 0)),
     pure "short_circuit_verify_fail_test"
       (verifyFailTest cfg P C junk (buf 10 200 0) (buf 10 200 1)),
     pure "tags_test" (tagsTest cfg P C junk (buf 11 200 0) (buf 11 200 1) (buf 11 200 2)),
     pure "get_size_test" (getSizeTest cfg C cap' (buf 12 300 0) (buf 12 300 1)),
     pure "indef_array_and_map_test"
       (indefTest cfg P C junk payloadText (buf 13 200 0) (buf 13 200 1) (buf 13 200 2))])
end

/-- What the tests that are run do with keys. -/
def keyEvents (tests : List (Entry × List KeyEvent)) (names : List Bytes) : List KeyEvent :=
  (tests.filter fun t => selected names t.1).flatMap (·.2)

/-- Exit status of the program (main.c:31-54): `check_for_key_pair_leaks` is called after the
tests. -/
def realStatus (leaks : List KeyEvent → Nat) (tests : List (Entry × List KeyEvent))
    (names : List Bytes) : Nat :=
  mainStatus (tests.map (·.1)) names (leaks (keyEvents tests names))

end TCose.SignVerifyTest
