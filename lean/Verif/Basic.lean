/-!
# Basic types shared by the whole model

Bytes, `q_useful_buf`-style buffers, the t_cose error enumeration, constants,
the build configuration and the crypto-adapter interface.
-/

namespace TCose

/-- A sequence of octets in memory. -/
abbrev Bytes := List UInt8

/-- `struct q_useful_buf_c` (UsefulBuf.h, used all over `inc/t_cose` and `src`):
a pointer and a length.  `null n` is a NULL pointer with length `n`
(`NULL_Q_USEFUL_BUF_C` is `null 0`; `null n` with `n > 0` occurs in
size-calculation mode).  `data b` is a non-NULL pointer to the bytes `b`.
Simplification: distinct buffers do not alias except where a model function
says so explicitly. -/
inductive UB where
  | null (len : Nat)
  | data (b : Bytes)
  deriving Repr, DecidableEq

namespace UB
/-- The `.len` field. -/
def len : UB → Nat
  | null n => n
  | data b => b.length
/-- `q_useful_buf_c_is_null` — tests the pointer only. -/
def isNull : UB → Bool
  | null _ => true
  | data _ => false
/-- `q_useful_buf_c_is_null_or_empty` — pointer NULL or length 0. -/
def isNullOrEmpty : UB → Bool
  | null _ => true
  | data b => b.isEmpty
/-- The bytes that are actually in memory behind the pointer. -/
def bytes : UB → Bytes
  | null _ => []
  | data b => b
/-- `NULL_Q_USEFUL_BUF_C`. -/
abbrev nil : UB := null 0
end UB

/-- `enum t_cose_err_t` without `T_COSE_SUCCESS`
(inc/t_cose/t_cose_common.h:250-414). Success is `Except.ok`.  The last
constructors are not t_cose codes: `modelHang` is the model's distinct outcome
for a call that never returns (a loop that makes no progress), `modelUB` for
undefined behaviour inside an adapter. -/
inductive Err where
  | unsupportedSigningAlg | makingProtected | unsupportedHash | hashGeneralFail
  | hashBufferSize | sigBufferSize | sign1Format | cborNotWellFormed
  | parameterCbor | noAlgId | noKid | sigVerify | badShortCircuitKid
  | invalidArgument | insufficientMemory | fail | tamperingDetected | unknownKey
  | wrongTypeOfKey | sigStruct | shortCircuitSig | sigFail | cborFormatting
  | tooSmall | tooManyParameters | unknownCriticalParameter
  | shortCircuitSigDisabled | incorrectKeyForLib | nonIntegerAlgId
  | badContentType | incorrectlyTagged | emptyKey | duplicateParameter
  | parameterNotProtected | critParameter | tooManyTags | needAuxiliaryBuffer
  | auxiliaryBufferSize
  | modelHang | modelUB
  deriving Repr, DecidableEq

/-! ## Algorithm identifiers -/

/-- inc/t_cose/t_cose_common.h:83-152, src/t_cose_standard_constants.h. -/
def algES256 : Int := -7
def algEDDSA : Int := -8
def algES384 : Int := -35
def algES512 : Int := -36
def algPS256 : Int := -37
def algPS384 : Int := -38
def algPS512 : Int := -39
/-- src/t_cose_standard_constants.h: hash algorithm ids. -/
def algSHA256 : Int := -16
def algSHA384 : Int := -43
def algSHA512 : Int := -44
/-- `COSE_ALGORITHM_RESERVED` = `T_COSE_UNSET_ALGORITHM_ID` =
`T_COSE_INVALID_ALGORITHM_ID` = 0
(src/t_cose_standard_constants.h, inc/t_cose/t_cose_sign1_verify.h:109,
src/t_cose_util.h:37). -/
def algNone : Int := 0

/-- `T_COSE_EMPTY_UINT_CONTENT_TYPE` = UINT16_MAX+1 (t_cose_common.h:441). -/
def emptyContentType : Nat := 65536

/-! ## Build configuration -/

/-- The preprocessor switches of the library (`T_COSE_DISABLE_*`,
t_cose_common.h:30-60 and the `#ifdef`s in `src`). -/
structure Config where
  disableES384 : Bool
  disableES512 : Bool
  disablePS256 : Bool
  disablePS384 : Bool
  disablePS512 : Bool
  disableEDDSA : Bool
  disableShortCircuit : Bool
  disableContentType : Bool
  deriving Repr, DecidableEq

/-- The default build: nothing disabled. -/
def Config.full : Config := ⟨false, false, false, false, false, false, false, false⟩

/-! ## Keys and the crypto adapter interface -/

/-- `enum t_cose_crypto_lib_t` (t_cose_common.h:162-176). -/
inductive CryptoLib where
  | unidentified | openssl | psa
  deriving Repr, DecidableEq

/-- `struct t_cose_key` (t_cose_common.h:186-212): the library tag and the
union of pointer / handle; `k = 0` is the NULL pointer. -/
structure Key where
  lib : CryptoLib
  k : Nat
  deriving Repr, DecidableEq

/-- `T_COSE_NULL_KEY` (t_cose_common.h:215-221). -/
def Key.null : Key := ⟨.unidentified, 0⟩

/-- The crypto adaptation layer `src/t_cose_crypto.h`, as a record of
functions.  Nothing at all is assumed about them here; theorems quantify over
every such record.  Simplifications: (1) output buffers are given by their
size and the output is returned as bytes; (2) signing is a function, i.e. one
record describes one run of a possibly randomised library; (3) the kid passed
to verify is `none` for a NULL pointer. -/
structure Crypto where
  /-- `struct t_cose_crypto_hash` (t_cose_crypto.h:431-468) -/
  HashCtx : Type
  /-- `t_cose_crypto_hash_start` (t_cose_crypto.h:537-540) -/
  hashStart : Int → Except Err HashCtx
  /-- `t_cose_crypto_hash_update` (t_cose_crypto.h:562-563) -/
  hashUpdate : HashCtx → UB → HashCtx
  /-- `t_cose_crypto_hash_finish` (t_cose_crypto.h:596-599); the `Nat` is the
  size of `buffer_to_hold_result` -/
  hashFinish : HashCtx → Nat → Except Err Bytes
  /-- `t_cose_crypto_sig_size` (t_cose_crypto.h:163-166) -/
  sigSize : Int → Key → Except Err Nat
  /-- `t_cose_crypto_sign` (t_cose_crypto.h:221-226); the `Nat` is the size of
  `signature_buffer` -/
  sign : Int → Key → Bytes → Nat → Except Err Bytes
  /-- `t_cose_crypto_verify` (t_cose_crypto.h:279-284): alg, key, kid, hash,
  signature -/
  verify : Int → Key → Option Bytes → Bytes → Bytes → Except Err Unit
  /-- `t_cose_crypto_sign_eddsa` (t_cose_crypto.h:335-339) -/
  signEddsa : Key → Bytes → Nat → Except Err Bytes
  /-- `t_cose_crypto_verify_eddsa` (t_cose_crypto.h:381-385): key, kid, tbs,
  signature -/
  verifyEddsa : Key → Option Bytes → Bytes → Bytes → Except Err Unit

/-- Test a bit mask, `flags & mask` as used on `option_flags`; every mask in
t_cose is a single bit, given here by its bit number. -/
def hasFlag (flags : Nat) (bit : Nat) : Bool := flags.testBit bit

/-- Results can be compared (used only by examples and witnesses). -/
instance {ε α : Type} [DecidableEq ε] [DecidableEq α] : DecidableEq (Except ε α)
  | .ok a, .ok b => if h : a = b then .isTrue (by rw [h]) else .isFalse (by simpa using h)
  | .error a, .error b => if h : a = b then .isTrue (by rw [h]) else .isFalse (by simpa using h)
  | .ok _, .error _ => .isFalse (by simp)
  | .error _, .ok _ => .isFalse (by simp)

end TCose
