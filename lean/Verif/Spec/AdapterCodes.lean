import Verif.Spec.Openssl
import Verif.Spec.Psa

/-!
# Specification: which result code the crypto adapters give

In the words of `enum t_cose_err_t` (inc/t_cose/t_cose_common.h:250-410), for what the
crypto library reported. The first thing that goes wrong decides.
-/

namespace TCose.Spec
open TCose

/-- Success with `r` unless a fault is there; the first one in the list gives the
code. -/
def settled {α : Type} (faults : List (Bool × Err)) (r : α) : Except Err α :=
  match faults.find? (·.1) with
  | some f => .error f.2
  | none => .ok r

/-- The strings among pointers: NULLs are left out. -/
def given (us : List UB) : List Bytes :=
  us.filterMap fun
    | .null _ => none
    | .data b => some b

namespace Psa

/-- Success if the status is 0, otherwise the code the table gives, or the one for all
other statuses. -/
def coded {α : Type} (table : List (Int × Err)) (other : Err) (st : Int) (r : α) : Except Err α :=
  if st = 0 then .ok r else .error ((table.lookup st).getD other)

/-- Statuses of signing and verification: PSA_ERROR_INVALID_SIGNATURE,
PSA_ERROR_NOT_SUPPORTED, PSA_ERROR_INSUFFICIENT_MEMORY,
PSA_ERROR_CORRUPTION_DETECTED. -/
def signTable : List (Int × Err) :=
  [(-149, .sigVerify), (-134, .unsupportedSigningAlg), (-141, .insufficientMemory),
   (-151, .tamperingDetected)]

/-- Statuses of hashing: PSA_ERROR_NOT_SUPPORTED, PSA_ERROR_INVALID_ARGUMENT,
PSA_ERROR_BUFFER_TOO_SMALL. -/
def hashTableCodes : List (Int × Err) :=
  [(-134, .unsupportedHash), (-135, .unsupportedHash), (-138, .hashBufferSize)]

/-- Feeding strings into an operation: the operation, or the status of the first call
that failed. -/
def fedAll (L : TCose.Psa.Lib) (op : L.Op) : List Bytes → Except Int L.Op
  | [] => .ok op
  | b :: bs =>
    if (L.hashUpdate op b).1 = 0 then fedAll L (L.hashUpdate op b).2 bs
    else .error (L.hashUpdate op b).1

/-- A whole hash computation: the status of the first call that failed, and the digest
if none did. -/
def hashRun (L : TCose.Psa.Lib) (a : TCose.Psa.HashAlg) (parts : List Bytes) (n : Nat) : Int × Bytes :=
  if (L.hashSetup a).1 ≠ 0 then ((L.hashSetup a).1, [])
  else
    match fedAll L (L.hashSetup a).2 parts with
    | .error st => (st, [])
    | .ok op => L.hashFinish op n

end Psa

namespace Ossl

/-- What can be wrong with a key. -/
def keyFaults (key : Key) : List (Bool × Err) :=
  [(key.lib ≠ .openssl, .incorrectKeyForLib), (key.k = 0, .emptyKey)]

/-- What can go wrong converting an ECDSA signature of the right length to the form the
library gives it. -/
def derFaults (cfg : Config) (L : TCose.Ossl.Lib) (der : Bytes) : List (Bool × Err) :=
  [(!L.bnR, .insufficientMemory), (!L.bnS, .insufficientMemory), (!L.sigNew, .insufficientMemory),
   (L.set0 ≠ 1, .sigFail), (der = [], .sigFail), (derRoom cfg < der.length, .sigFail)]

/-- What can go wrong choosing RSASSA-PSS. -/
def pssFaults (L : TCose.Ossl.Lib) : List (Bool × Err) :=
  [(L.setPadding ≠ 1, .sigFail), (L.setMd ≠ 1, .sigFail), (L.setMgf1 ≠ 1, .sigFail),
   (L.setSalt ≠ 1, .sigFail)]

/-- The verdict of the library: 1 is valid, 0 is not valid, everything else is a
failure to tell. -/
def verdictFaults (r : Int) : List (Bool × Err) := [(r = 0, .sigVerify), (r ≠ 1, .sigFail)]

/-- Feeding strings into a digest context; `none` if a call failed. -/
def fedAll (L : TCose.Ossl.Lib) (md : L.Md) : List Bytes → Option L.Md
  | [] => some md
  | b :: bs =>
    if (L.digestUpdate md b).1 = 0 then none else fedAll L (L.digestUpdate md b).2 bs

/-- A whole hash computation with a buffer the digest fits in. -/
def hashRun (L : TCose.Ossl.Lib) (alg : Int) (parts : List Bytes) : Except Err Bytes :=
  match fedAll L (L.digestInit alg).2 parts with
  | none =>
    settled [(!L.digestByNid alg, .unsupportedHash), (!L.mdCtxNew, .insufficientMemory),
      (true, .hashGeneralFail)] []
  | some md =>
    settled [(!L.digestByNid alg, .unsupportedHash), (!L.mdCtxNew, .insufficientMemory),
      ((L.digestInit alg).1 = 0, .hashGeneralFail), ((L.digestFinal md).1 = 0, .hashGeneralFail)]
      (L.digestFinal md).2

end Ossl

end TCose.Spec
