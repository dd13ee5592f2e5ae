import Verif.TestCode.RunTests

/-! # Printing of the sizes of structs -/

namespace TCose.RunTests

/-- `PrintSize` (test/run_tests.c:275-286); `size` is below 2^32 and cast to `int32_t`, which wraps. -/
def printSize (what : Bytes) (size : Nat) : List Line :=
  [(.str what, false), (.str [0x20], false), (numToString (castInt32 size) 20, false), (.str [], true)]

/-- `PrintSizesTCose` (test/run_tests.c:299-319). The sizes, which the compiler knows, are
parameters: of `t_cose_sign1_sign_ctx`, `t_cose_key`, `t_cose_crypto_hash`, `t_cose_parameters`
and `t_cose_sign1_verify_ctx`. -/
def printSizes (signCtx key hash parameters verifyCtx : Nat) : List Line :=
  printSize "sizeof(struct t_cose_sign1_ctx)".toUTF8.toList signCtx ++
  printSize "sizeof(struct t_cose_signing_key)".toUTF8.toList key ++
  printSize "sizeof(struct t_cose_crypto_hash)".toUTF8.toList hash ++
  printSize "sizeof(struct t_cose_parameters)".toUTF8.toList parameters ++
  printSize "sizeof(struct t_cose_sign1_verify_ctx)".toUTF8.toList verifyCtx ++
  [(.str [], true)]

/-- `fputs_wrapper` (main.c:22-28) for a sequence of calls; `none` if a string is the result of
undefined behaviour. -/
def fputsAll : List Line → Option Bytes
  | [] => some []
  | (.ub, _) :: _ => none
  | (.str s, nl) :: r => (fputsAll r).map (s ++ (if nl then [0x0a] else []) ++ ·)

end TCose.RunTests
