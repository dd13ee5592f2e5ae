import Verif.Adapters.Sha256
import Verif.TCose.Util

/-!
# Model of the test adapter, crypto_adapters/t_cose_test_crypto.c
-/

namespace TCose

/-- `t_cose_crypto_is_algorithm_supported` (t_cose_test_crypto.c:55-64). -/
def testSupported (alg : Int) : Bool := checkList alg [algSHA256, 0]

/-- `t_cose_crypto_hash_update` (t_cose_test_crypto.c:159-167). -/
def testUpdate (h : Option Bcon.Ctx) (u : UB) : Option Bcon.Ctx :=
  match u with
  | .null _ => h
  | .data b => h.bind (fun c => Bcon.update c b)

/-- `t_cose_crypto_hash_finish` (t_cose_test_crypto.c:172-187): the size of the
buffer is not looked at; 32 octets are written. -/
def testFinish (mode : Nat) (h : Option Bcon.Ctx) (n : Nat) : Except Err Bytes :=
  match h with
  | none => .error .modelHang
  | some c =>
    if mode = 2 then .error .hashGeneralFail
    else if n < 32 ∨ (Bcon.final c).1.ub = true then .error .modelUB
    else .ok (Bcon.final c).2

/-- The test adapter. `mode` is `hash_test_mode` (t_cose_test_crypto.c:42-47; 0 if
the test hooks are not compiled in). `junk` is what a fresh hash context holds
before it is initialised. A hash context is `none` after a call of
`sha256_update` that does not return. -/
def testCrypto (cfg : Config) (mode : Nat) (junk : Bytes) : Crypto where
  HashCtx := Option Bcon.Ctx
  /- `t_cose_crypto_hash_start` (t_cose_test_crypto.c:138-154) -/
  hashStart alg :=
    if mode = 1 then .error .hashGeneralFail
    else if alg ≠ algSHA256 then .error .unsupportedHash
    else .ok (some (Bcon.init junk))
  hashUpdate := testUpdate
  hashFinish := testFinish mode
  /- `t_cose_crypto_sig_size` (t_cose_test_crypto.c:70-80) -/
  sigSize _ _ := .ok (maxEcdsaSigSize cfg)
  /- `t_cose_crypto_sign` (t_cose_test_crypto.c:86-99) -/
  sign _ _ _ _ := .error .unsupportedSigningAlg
  /- `t_cose_crypto_verify` (t_cose_test_crypto.c:105-118) -/
  verify _ _ _ _ _ := .error .unsupportedSigningAlg
  /- `t_cose_crypto_sign_eddsa` (t_cose_test_crypto.c:195-206) -/
  signEddsa _ _ _ := .error .unsupportedSigningAlg
  /- `t_cose_crypto_verify_eddsa` (t_cose_test_crypto.c:212-223) -/
  verifyEddsa _ _ _ _ := .error .unsupportedSigningAlg

end TCose
