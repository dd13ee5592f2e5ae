import Verif.TCose.Util

/-!
# Model of the PSA adapter, crypto_adapters/t_cose_psa_crypto.c

The PSA library is a parameter, the record `Lib`; nothing is assumed about it
here.
-/

namespace TCose.Psa
open TCose

/-- The status codes of psa/crypto_values.h the adapter knows. -/
def success : Int := 0
def errNotSupported : Int := -134
def errInvalidArgument : Int := -135
def errBufferTooSmall : Int := -138
def errInsufficientMemory : Int := -141
def errInvalidSignature : Int := -149
def errCorruptionDetected : Int := -151

/-- Hash algorithm ids of PSA; `bad` is `UINT16_MAX`. -/
inductive HashAlg where
  | sha256 | sha384 | sha512 | bad
  deriving Repr, DecidableEq

/-- Signature algorithm ids of PSA: `PSA_ALG_ECDSA(hash)`, `PSA_ALG_RSA_PSS(hash)`, and
the 0 the adapter uses for "none". Simplification: the macros of
psa/crypto_values.h that build and test the ids are taken to work. -/
inductive SigAlg where
  | ecdsa (h : HashAlg)
  | pss (h : HashAlg)
  | zero
  deriving Repr, DecidableEq

/-- The PSA library. `Int` results are of type `psa_status_t`. -/
structure Lib where
  /-- `psa_hash_operation_t` -/
  Op : Type
  /-- `psa_hash_setup` on a freshly initialised operation, `psa_hash_update`,
  `psa_hash_finish` (operation, buffer size) -/
  hashSetup : HashAlg → Int × Op
  hashUpdate : Op → Bytes → Int × Op
  hashFinish : Op → Nat → Int × Bytes
  /-- `psa_sign_hash`: key id, algorithm, hash, buffer size -/
  signHash : Nat → SigAlg → Bytes → Nat → Int × Bytes
  /-- `psa_verify_hash`: key id, algorithm, hash, signature -/
  verifyHash : Nat → SigAlg → Bytes → Bytes → Int
  /-- `psa_get_key_attributes`: status, key type, key bits -/
  keyAttributes : Nat → Int × Nat × Nat
  /-- `PSA_SIGN_OUTPUT_SIZE` (key type, key bits, algorithm) -/
  signOutputSize : Nat → Nat → SigAlg → Nat

/-- `t_cose_crypto_is_algorithm_supported` (t_cose_psa_crypto.c:51-80). -/
def supported (cfg : Config) (alg : Int) : Bool :=
  checkList alg
    ([algSHA256, algSHA384, algSHA512, algES256]
      ++ (if cfg.disableES384 then [] else [algES384])
      ++ (if cfg.disableES512 then [] else [algES512])
      ++ (if cfg.disablePS256 then [] else [algPS256])
      ++ (if cfg.disablePS384 then [] else [algPS384])
      ++ (if cfg.disablePS512 then [] else [algPS512]) ++ [0])

/-- `cose_alg_id_to_psa_alg_id` (t_cose_psa_crypto.c:90-113). -/
def sigAlg (cfg : Config) (alg : Int) : SigAlg :=
  if alg = algES256 then .ecdsa .sha256
  else if cfg.disableES384 = false ∧ alg = algES384 then .ecdsa .sha384
  else if cfg.disableES512 = false ∧ alg = algES512 then .ecdsa .sha512
  else if cfg.disablePS256 = false ∧ alg = algPS256 then .pss .sha256
  else if cfg.disablePS384 = false ∧ alg = algPS384 then .pss .sha384
  else if cfg.disablePS512 = false ∧ alg = algPS512 then .pss .sha512
  else .zero

/-- `!PSA_ALG_IS_ECDSA(x) && !PSA_ALG_IS_RSA_PSS(x)`. -/
def SigAlg.unsupported : SigAlg → Bool
  | .ecdsa _ => false
  | .pss _ => false
  | .zero => true

/-- `psa_status_to_t_cose_error_signing` (t_cose_psa_crypto.c:123-132); `none` is
`T_COSE_SUCCESS`. -/
def signingError (st : Int) : Option Err :=
  if st = success then none
  else if st = errInvalidSignature then some .sigVerify
  else if st = errNotSupported then some .unsupportedSigningAlg
  else if st = errInsufficientMemory then some .insufficientMemory
  else if st = errCorruptionDetected then some .tamperingDetected
  else some .sigFail

/-- The cast of the 64-bit `key_handle` to `mbedtls_svc_key_id_t`, a 32-bit number
(t_cose_psa_crypto.c:161, 199, 247). -/
def keyId (key : Key) : Nat := key.k % 4294967296

/-- `t_cose_crypto_verify` (t_cose_psa_crypto.c:138-174). -/
def verify (cfg : Config) (L : Lib) (alg : Int) (key : Key) (hash sig : Bytes) : Except Err Unit :=
  if (sigAlg cfg alg).unsupported then .error .unsupportedSigningAlg
  else
    match signingError (L.verifyHash (keyId key) (sigAlg cfg alg) hash sig) with
    | some x => .error x
    | none => .ok ()

/-- `t_cose_crypto_sign` (t_cose_psa_crypto.c:180-223). -/
def sign (cfg : Config) (L : Lib) (alg : Int) (key : Key) (hash : Bytes) (n : Nat) :
    Except Err Bytes :=
  if (sigAlg cfg alg).unsupported then .error .unsupportedSigningAlg
  else
    match signingError (L.signHash (keyId key) (sigAlg cfg alg) hash n).1 with
    | some x => .error x
    | none => .ok (L.signHash (keyId key) (sigAlg cfg alg) hash n).2

/-- `t_cose_crypto_sig_size` (t_cose_psa_crypto.c:229-263). -/
def sigSize (cfg : Config) (L : Lib) (alg : Int) (key : Key) : Except Err Nat :=
  if (sigAlg cfg alg).unsupported then .error .unsupportedSigningAlg
  else
    match signingError (L.keyAttributes (keyId key)).1 with
    | some x => .error x
    | none =>
      .ok (L.signOutputSize (L.keyAttributes (keyId key)).2.1 (L.keyAttributes (keyId key)).2.2
        (sigAlg cfg alg))

/-- `cose_hash_alg_id_to_psa` (t_cose_psa_crypto.c:276-287). -/
def hashAlg (cfg : Config) (alg : Int) : HashAlg :=
  if alg = algSHA256 then .sha256
  else if (cfg.disableES384 = false ∨ cfg.disablePS384 = false) ∧ alg = algSHA384 then .sha384
  else if (cfg.disableES512 = false ∨ cfg.disablePS512 = false) ∧ alg = algSHA512 then .sha512
  else .bad

/-- `psa_status_to_t_cose_error_hash` (t_cose_psa_crypto.c:297-308). -/
def hashError (st : Int) : Option Err :=
  if st = success then none
  else if st = errNotSupported then some .unsupportedHash
  else if st = errInvalidArgument then some .unsupportedHash
  else if st = errBufferTooSmall then some .hashBufferSize
  else some .hashGeneralFail

/-- Calls made on a hash operation, with their status. -/
inductive OpCall where
  | setup (st : Int)
  | update (st : Int)
  | finish (st : Int)
  | abort
  deriving Repr, DecidableEq

/-- `struct t_cose_crypto_hash` for PSA (src/t_cose_crypto.h:433-446). `calls` is a ghost:
the library calls made so far. -/
structure HashCtx (L : Lib) where
  op : L.Op
  status : Int
  calls : List OpCall

/-- `t_cose_crypto_hash_start` (t_cose_psa_crypto.c:314-330): what it leaves in the
context. -/
def hashStartCtx (cfg : Config) (L : Lib) (alg : Int) : HashCtx L :=
  let res := L.hashSetup (hashAlg cfg alg)
  ⟨res.2, res.1, [.setup res.1]⟩

/-- `t_cose_crypto_hash_start`: what it returns. -/
def hashStart (cfg : Config) (L : Lib) (alg : Int) : Except Err (HashCtx L) :=
  match hashError (hashStartCtx cfg L alg).status with
  | some x => .error x
  | none => .ok (hashStartCtx cfg L alg)

/-- `t_cose_crypto_hash_update` (t_cose_psa_crypto.c:336-356). -/
def hashUpdate (L : Lib) (h : HashCtx L) (u : UB) : HashCtx L :=
  if h.status ≠ success then h
  else
    match u with
    | .null _ => h
    | .data b =>
      ⟨(L.hashUpdate h.op b).2, (L.hashUpdate h.op b).1,
        h.calls ++ [.update (L.hashUpdate h.op b).1]⟩

/-- `t_cose_crypto_hash_finish` (t_cose_psa_crypto.c:362-382): result and calls made on
the operation in all. -/
def hashFinishLog (L : Lib) (h : HashCtx L) (n : Nat) : Except Err Bytes × List OpCall :=
  if h.status ≠ success then
    (match hashError h.status with
     | some x => .error x
     | none => .ok [] /- not reached -/, h.calls)
  else
    let res := L.hashFinish h.op n
    (match hashError res.1 with
     | some x => .error x
     | none => .ok res.2, h.calls ++ [.finish res.1])

def hashFinish (L : Lib) (h : HashCtx L) (n : Nat) : Except Err Bytes := (hashFinishLog L h n).1

/-- The adapter as t_cose sees it. EdDSA: t_cose_psa_crypto.c:389-421. -/
def crypto (cfg : Config) (L : Lib) : Crypto where
  HashCtx := HashCtx L
  hashStart := hashStart cfg L
  hashUpdate := hashUpdate L
  hashFinish := hashFinish L
  sigSize := sigSize cfg L
  sign := sign cfg L
  verify alg key _ hash sig := verify cfg L alg key hash sig
  signEddsa _ _ _ := .error .unsupportedSigningAlg
  verifyEddsa _ _ _ _ := .error .unsupportedSigningAlg

end TCose.Psa
