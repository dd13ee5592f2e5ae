import Verif.Basic

/-!
# CBOR head encoding as done by QCBOR

`QCBOREncode_EncodeHead` (QCBOR, external; called in src/t_cose_util.c:151 and
by every `QCBOREncode_AddXxx`).  Trusted base: QCBOR is not in /repo.
-/

namespace TCose

/-- The low `k` octets of `n`, most significant first (the byte-extraction
loop in `QCBOREncode_EncodeHead`). -/
def beBytes : Nat → Nat → Bytes
  | 0, _ => []
  | k + 1, n => UInt8.ofNat (n / 256 ^ k) :: beBytes k n

/-- Initial byte: major type in the top three bits. -/
def initialByte (major ai : Nat) : UInt8 := UInt8.ofNat (major * 32 + ai)

/-- `QCBOREncode_EncodeHead` with `uMinLen = 0` (shortest form). -/
def encodeHead (major n : Nat) : Bytes :=
  if n < 24 then [initialByte major n]
  else if n < 256 then initialByte major 24 :: beBytes 1 n
  else if n < 65536 then initialByte major 25 :: beBytes 2 n
  else if n < 4294967296 then initialByte major 26 :: beBytes 4 n
  else initialByte major 27 :: beBytes 8 n

end TCose
