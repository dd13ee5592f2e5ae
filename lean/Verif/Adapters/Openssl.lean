import Verif.TCose.Util

/-!
# Model of the OpenSSL adapter, crypto_adapters/t_cose_openssl_crypto.c

OpenSSL itself is a parameter, the record `Ossl`: one value describes how the
library behaves during one call of an adapter function, including failures to
allocate.  Nothing is assumed about it here.

Every function returns its result and a log of what it did to library objects.
-/

namespace TCose.Ossl
open TCose

/-- Library objects the adapter holds. -/
inductive Obj where
  | rBn | sBn | ecdsaSig | der | pkeyCtx | mdCtx
  deriving Repr, DecidableEq

/-- Allocation and release of an object, and calls that are given the caller's key
(by its pointer value). Freeing NULL is no event. -/
inductive Ev where
  | alloc (o : Obj)
  | free (o : Obj)
  | key (k : Nat)
  deriving Repr, DecidableEq

abbrev Log := List Ev

/-- The settings made on an `EVP_PKEY_CTX` by `configure_pkey_context`: none, or PSS
padding with a digest, a digest for MGF1, and the salt length of the digest. -/
inductive PkeyCfg where
  | plain
  | pss (md mgf1 : Int) (saltIsDigestLen : Bool)
  deriving Repr, DecidableEq

/-- The OpenSSL library. `Int` results are the return codes. -/
structure Lib where
  /-- `EVP_PKEY_bits`, `EVP_PKEY_size` (not negative) -/
  bits : Nat → Nat
  size : Nat → Nat
  /-- `d2i_ECDSA_SIG`: r and s, or NULL -/
  d2i : Bytes → Option (Nat × Nat)
  /-- `i2d_ECDSA_SIG`: the octets, or a negative length -/
  i2d : Nat → Nat → Option Bytes
  /-- whether the two calls of `BN_bin2bn` and `ECDSA_SIG_new` get memory -/
  bnR : Bool
  bnS : Bool
  sigNew : Bool
  /-- `ECDSA_SIG_set0` -/
  set0 : Int
  /-- whether `EVP_PKEY_CTX_new` gets memory -/
  ctxNew : Bool
  /-- `EVP_PKEY_sign_init`, `EVP_PKEY_verify_init` -/
  signInit : Int
  verifyInit : Int
  /-- `EVP_PKEY_CTX_set_rsa_padding`, `…_set_signature_md`, `…_set_rsa_mgf1_md`,
  `…_set_rsa_pss_saltlen` -/
  setPadding : Int
  setMd : Int
  setMgf1 : Int
  setSalt : Int
  /-- `EVP_PKEY_sign`: key, settings, hash, size of the buffer; code and octets
  written -/
  pkeySign : Nat → PkeyCfg → Bytes → Nat → Int × Bytes
  /-- `EVP_PKEY_verify`: key, settings, signature, hash -/
  pkeyVerify : Nat → PkeyCfg → Bytes → Bytes → Int
  /-- whether `EVP_MD_CTX_new` gets memory -/
  mdCtxNew : Bool
  /-- the state of a digest context -/
  Md : Type
  /-- whether `EVP_get_digestbynid` finds the digest -/
  digestByNid : Int → Bool
  /-- `EVP_DigestInit_ex`, `EVP_DigestUpdate`, `EVP_DigestFinal_ex` -/
  digestInit : Int → Int × Md
  digestUpdate : Md → Bytes → Int × Md
  digestFinal : Md → Int × Bytes
  /-- `EVP_DigestSignInit`, `EVP_DigestSign` (key, message, size of the buffer) -/
  dsInit : Int
  digestSign : Nat → Bytes → Nat → Int × Bytes
  /-- `EVP_DigestVerifyInit`, `EVP_DigestVerify` (key, signature, message) -/
  dvInit : Int
  digestVerify : Nat → Bytes → Bytes → Int

/-- `BN_bn2bin`: the octets of a number, big endian, without leading zeros;
`BN_num_bytes` is their number. -/
def bn2bin (n : Nat) : Bytes :=
  if _h : n = 0 then [] else bn2bin (n / 256) ++ [UInt8.ofNat n]
termination_by n
decreasing_by omega

/-- `BN_bin2bn`. -/
def bin2bn (b : Bytes) : Nat := b.foldl (fun a x => a * 256 + x.toNat) 0

/-- `t_cose_crypto_is_algorithm_supported` (t_cose_openssl_crypto.c:69-98). -/
def supported (cfg : Config) (alg : Int) : Bool :=
  checkList alg
    ([algSHA256, algSHA384, algSHA512, algES256]
      ++ (if cfg.disableES384 then [] else [algES384])
      ++ (if cfg.disableES512 then [] else [algES512])
      ++ (if cfg.disablePS256 then [] else [algPS256])
      ++ (if cfg.disablePS384 then [] else [algPS384])
      ++ (if cfg.disablePS512 then [] else [algPS512])
      ++ (if cfg.disableEDDSA then [] else [algEDDSA]) ++ [0])

/-- `ecdsa_key_size` (t_cose_openssl_crypto.c:103-118). -/
def keySize (L : Lib) (k : Nat) : Nat :=
  if L.bits k % 8 ≠ 0 then L.bits k / 8 + 1 else L.bits k / 8

/-- A write of `w` at offset `off` of a buffer; `none` if it is not inside. -/
def writeAt (b : Bytes) (off : Int) (w : Bytes) : Option Bytes :=
  if 0 ≤ off ∧ off + w.length ≤ b.length then
    some (b.take off.toNat ++ w ++ b.drop (off.toNat + w.length))
  else none

/-- What `ecdsa_signature_der_to_cose` returned: NULL, octets, or undefined
behaviour (a write outside the buffer). -/
inductive CoseSig where
  | null
  | sig (b : Bytes)
  | ub
  deriving Repr, DecidableEq

/-- `ecdsa_signature_der_to_cose` (t_cose_openssl_crypto.c:136-200); `n` is the
length of `signature_buffer`. -/
def derToCose (L : Lib) (k : Nat) (der : Bytes) (n : Nat) : CoseSig × Log :=
  match L.d2i der with
  | none => (.null, [.key k])
  | some (r, s) =>
    let log : Log := [.key k, .alloc .ecdsaSig, .free .ecdsaSig]
    let buf := List.replicate n (0 : UInt8)
    let rLen := (bn2bin r).length
    let sLen := (bn2bin s).length
    if rLen + sLen > n then (.null, log)
    else
      match writeAt buf ((keySize L k : Int) - rLen) (bn2bin r) with
      | none => (.ub, log)
      | some buf =>
        match writeAt buf (2 * (keySize L k : Int) - sLen) (bn2bin s) with
        | none => (.ub, log)
        | some buf => (.sig (buf.take (2 * keySize L k)), log)

/-- `ecdsa_signature_cose_to_der` (t_cose_openssl_crypto.c:223-321); `n` is the
length of `buffer`. `ECDSA_SIG_free` also frees the r and s handed over by a
successful `ECDSA_SIG_set0`. -/
def coseToDer (L : Lib) (k : Nat) (sig : Bytes) (n : Nat) : Except Err Bytes × Log :=
  if sig.length ≠ keySize L k * 2 then (.error .sigVerify, [.key k])
  else if L.bnR = false then (.error .insufficientMemory, [.key k])
  else
    let r := bin2bn (sig.take (keySize L k))
    if L.bnS = false then (.error .insufficientMemory, [.key k, .alloc .rBn, .free .rBn])
    else
      let s := bin2bn ((sig.drop (keySize L k)).take (keySize L k))
      let log : Log := [.key k, .alloc .rBn, .alloc .sBn]
      if L.sigNew = false then (.error .insufficientMemory, log ++ [.free .rBn, .free .sBn])
      else
        let log := log ++ [.alloc .ecdsaSig]
        if L.set0 ≠ 1 then (.error .sigFail, log ++ [.free .rBn, .free .sBn])
        else
          let freed : Log := [.free .rBn, .free .sBn, .free .ecdsaSig]
          match L.i2d r s with
          | none => (.error .sigFail, log ++ freed)
          | some der =>
            let log := log ++ [.alloc .der] ++ freed
            if der.length > n ∨ der = [] then (.error .sigFail, log)
            else (.ok der, log ++ [.free .der])

/-- `key_convert` (t_cose_openssl_crypto.c:333-353). -/
def keyConvert (key : Key) : Except Err Nat :=
  if key.lib ≠ .openssl then .error .incorrectKeyForLib
  else if key.k = 0 then .error .emptyKey
  else .ok key.k

/-- `t_cose_crypto_sig_size` (t_cose_openssl_crypto.c:358-392). -/
def sigSize (cfg : Config) (L : Lib) (alg : Int) (key : Key) : Except Err Nat × Log :=
  match keyConvert key with
  | .error x => (.error x, [])
  | .ok k =>
    if algIsEcdsa cfg alg then (.ok (keySize L k * 2), [.key k])
    else if algIsPss cfg alg || alg == algEDDSA then (.ok (L.size k), [.key k])
    else (.error .unsupportedSigningAlg, [])

/-- `configure_pkey_context` (t_cose_openssl_crypto.c:403-484). -/
def configure (cfg : Config) (L : Lib) (alg : Int) : Except Err PkeyCfg :=
  if algIsEcdsa cfg alg then .ok .plain
  else if algIsPss cfg alg then
    let md : Option Int :=
      if alg = algPS256 then some algSHA256
      else if alg = algPS384 then some algSHA384
      else if alg = algPS512 then some algSHA512
      else none
    match md with
    | none => .error .unsupportedSigningAlg
    | some md =>
      if L.setPadding ≠ 1 then .error .sigFail
      else if L.setMd ≠ 1 then .error .sigFail
      else if L.setMgf1 ≠ 1 then .error .sigFail
      else if L.setSalt ≠ 1 then .error .sigFail
      else .ok (.pss md md true)
  else .error .unsupportedSigningAlg

/-- The size of the DER buffers on the stack (t_cose_openssl_crypto.c:503, 514,
637). -/
def derBufSize (cfg : Config) : Nat := maxEcdsaSigSize cfg + 16

/-- `t_cose_crypto_sign` (t_cose_openssl_crypto.c:489-614). Undefined behaviour is
the outcome `modelUB`. -/
def sign (cfg : Config) (L : Lib) (alg : Int) (key : Key) (hash : Bytes) (n : Nat) :
    Except Err Bytes × Log :=
  if !algIsEcdsa cfg alg && !algIsPss cfg alg then (.error .unsupportedSigningAlg, [])
  else
    match keyConvert key with
    | .error x => (.error x, [])
    | .ok k =>
      if L.ctxNew = false then (.error .insufficientMemory, [.key k])
      else
        let log : Log := [.key k, .alloc .pkeyCtx]
        let fin : Log := [.free .pkeyCtx]
        if L.signInit ≠ 1 then (.error .sigFail, log ++ fin)
        else
          match configure cfg L alg with
          | .error x => (.error x, log ++ fin)
          | .ok pc =>
            if algIsEcdsa cfg alg then
              let res := L.pkeySign k pc hash (derBufSize cfg)
              if res.1 ≠ 1 then (.error .sigFail, log ++ fin)
              else
                match derToCose L k res.2 n with
                | (.null, l) => (.error .sigFail, log ++ l ++ fin)
                | (.ub, l) => (.error .modelUB, log ++ l ++ fin)
                | (.sig s, l) => (.ok s, log ++ l ++ fin)
            else if algIsPss cfg alg then
              let res := L.pkeySign k pc hash n
              if res.1 ≠ 1 then (.error .sigFail, log ++ fin)
              else (.ok res.2, log ++ fin)
            else (.error .unsupportedSigningAlg, log ++ fin)

/-- The signature in the form OpenSSL wants
(t_cose_openssl_crypto.c:663-679). -/
def verifyConv (cfg : Config) (L : Lib) (alg : Int) (k : Nat) (sig : Bytes) :
    Except Err Bytes × Log :=
  if algIsEcdsa cfg alg then coseToDer L k sig (derBufSize cfg)
  else if algIsPss cfg alg then (.ok sig, [])
  else (.error .unsupportedSigningAlg, [])

/-- `t_cose_crypto_verify` (t_cose_openssl_crypto.c:621-730). -/
def verify (cfg : Config) (L : Lib) (alg : Int) (key : Key) (hash sig : Bytes) :
    Except Err Unit × Log :=
  if !algIsEcdsa cfg alg && !algIsPss cfg alg then (.error .unsupportedSigningAlg, [])
  else
    match keyConvert key with
    | .error x => (.error x, [])
    | .ok k =>
      match verifyConv cfg L alg k sig with
      | (.error x, log) => (.error x, log)
      | (.ok osig, log) =>
        if L.ctxNew = false then (.error .insufficientMemory, log ++ [.key k])
        else
          let log := log ++ [.key k, .alloc .pkeyCtx]
          let fin : Log := [.free .pkeyCtx]
          if L.verifyInit ≠ 1 then (.error .sigFail, log ++ fin)
          else
            match configure cfg L alg with
            | .error x => (.error x, log ++ fin)
            | .ok pc =>
              if L.pkeyVerify k pc osig hash = 0 then (.error .sigVerify, log ++ fin)
              else if L.pkeyVerify k pc osig hash ≠ 1 then (.error .sigFail, log ++ fin)
              else (.ok (), log ++ fin)

/-- `struct t_cose_crypto_hash` for OpenSSL (src/t_cose_crypto.h:448-452). -/
structure HashCtx (L : Lib) where
  md : L.Md
  updateError : Int
  alg : Int

/-- `t_cose_crypto_hash_start` (t_cose_openssl_crypto.c:738-788). -/
def hashStart (cfg : Config) (L : Lib) (alg : Int) : Except Err (HashCtx L) × Log :=
  if alg = algSHA256 ∨
      ((cfg.disableES384 = false ∨ cfg.disablePS384 = false) ∧ alg = algSHA384) ∨
      ((cfg.disableES512 = false ∨ cfg.disablePS512 = false) ∧ alg = algSHA512) then
    if L.digestByNid alg = false then (.error .unsupportedHash, [])
    else if L.mdCtxNew = false then (.error .insufficientMemory, [])
    else
      let res := L.digestInit alg
      if res.1 = 0 then (.error .hashGeneralFail, [.alloc .mdCtx, .free .mdCtx])
      else (.ok ⟨res.2, 1, alg⟩, [.alloc .mdCtx])
  else (.error .unsupportedHash, [])

/-- `t_cose_crypto_hash_update` (t_cose_openssl_crypto.c:794-805). -/
def hashUpdate (L : Lib) (h : HashCtx L) (u : UB) : HashCtx L :=
  if h.updateError = 0 then h
  else
    match u with
    | .null _ => h
    | .data b => { h with updateError := (L.digestUpdate h.md b).1, md := (L.digestUpdate h.md b).2 }

/-- `t_cose_crypto_hash_finish` (t_cose_openssl_crypto.c:811-835). The size `n` of the
buffer is only stored in a variable `EVP_DigestFinal_ex` overwrites; a digest
longer than the buffer is written outside it. -/
def hashFinish (L : Lib) (h : HashCtx L) (n : Nat) : Except Err Bytes × Log :=
  if h.updateError = 0 then (.error .hashGeneralFail, [.free .mdCtx])
  else
    let res := L.digestFinal h.md
    if n < res.2.length then (.error .modelUB, [.free .mdCtx])
    else if res.1 ≠ 0 then (.ok res.2, [.free .mdCtx])
    else (.error .hashGeneralFail, [.free .mdCtx])

/-- `t_cose_crypto_sign_eddsa` (t_cose_openssl_crypto.c:842-897). -/
def signEddsa (L : Lib) (key : Key) (tbs : Bytes) (n : Nat) : Except Err Bytes × Log :=
  match keyConvert key with
  | .error x => (.error x, [])
  | .ok k =>
    if L.mdCtxNew = false then (.error .insufficientMemory, [])
    else
      let log : Log := [.alloc .mdCtx, .key k, .free .mdCtx]
      if L.dsInit ≠ 1 then (.error .sigFail, log)
      else
        let res := L.digestSign k tbs n
        if res.1 ≠ 1 then (.error .sigFail, log)
        else (.ok res.2, log)

/-- `t_cose_crypto_verify_eddsa` (t_cose_openssl_crypto.c:902-964). -/
def verifyEddsa (L : Lib) (key : Key) (tbs sig : Bytes) : Except Err Unit × Log :=
  match keyConvert key with
  | .error x => (.error x, [])
  | .ok k =>
    if L.mdCtxNew = false then (.error .insufficientMemory, [])
    else
      let log : Log := [.alloc .mdCtx, .key k, .free .mdCtx]
      if L.dvInit ≠ 1 then (.error .sigFail, log)
      else if L.digestVerify k sig tbs = 0 then (.error .sigVerify, log)
      else if L.digestVerify k sig tbs ≠ 1 then (.error .sigFail, log)
      else (.ok (), log)

/-- The adapter as t_cose sees it. The kid is not used
(t_cose_openssl_crypto.c:645-647, 917). Without EdDSA the last two functions do
not exist and are not called. -/
def crypto (cfg : Config) (L : Lib) : Crypto where
  HashCtx := HashCtx L
  hashStart alg := (hashStart cfg L alg).1
  hashUpdate := hashUpdate L
  hashFinish h n := (hashFinish L h n).1
  sigSize alg key := (sigSize cfg L alg key).1
  sign alg key hash n := (sign cfg L alg key hash n).1
  verify alg key _ hash sig := (verify cfg L alg key hash sig).1
  signEddsa key tbs n := (signEddsa L key tbs n).1
  verifyEddsa key _ tbs sig := (verifyEddsa L key tbs sig).1

end TCose.Ossl
