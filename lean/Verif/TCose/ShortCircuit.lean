import Verif.TCose.Util

/-!
# src/t_cose_short_circuit.c
-/

namespace TCose

/-- `short_circuit_sig_size` (src/t_cose_short_circuit.c:32-41). The C code
compares the *pointer* `sig_size` with 0, so the error branch is never taken
for a real output variable. -/
def scSigSize (alg : Int) : Except Err Nat :=
  .ok (if alg = algES256 then 64
       else if alg = algES384 then 96
       else if alg = algES512 then 132
       else 0)

/-- The copy loop of `short_circuit_sign` (src/t_cose_short_circuit.c:73-82) on
the signature buffer, started at index `i`. With an empty hash the index does
not advance and the C loop never ends; `none` is "still running after `fuel`
rounds". -/
def scLoop (h : Bytes) (n : Nat) : Nat → Nat → Bytes → Option Bytes
  | fuel, i, buf =>
    if i < n then
      match fuel with
      | 0 => none
      | fuel + 1 =>
        let amount := if n - i > h.length then h.length else n - i
        scLoop h n fuel (i + h.length)
          (buf.take i ++ h.take amount ++ buf.drop (i + amount))
    else some buf

/-- `short_circuit_sign` (src/t_cose_short_circuit.c:47-89); `room` is the
length of `signature_buffer`. The buffer is modelled as starting zeroed; only
the first `sig_size` octets are returned. -/
def scSign (alg : Int) (hash : Bytes) (room : Nat) : Except Err Bytes :=
  match scSigSize alg with
  | .error x => .error x
  | .ok n =>
    if n > room then .error .sigBufferSize
    else
      match scLoop hash n n 0 (List.replicate n 0) with
      | some b => .ok (b.take n)
      | none => .error .modelHang

/-- `t_cose_crypto_short_circuit_verify` (src/t_cose_short_circuit.c:94-120):
`q_useful_buf_head` is NULL if the signature is shorter than the hash, then
compare. -/
def scVerify (hash sig : Bytes) : Except Err Unit :=
  if hash.length > sig.length then .error .sigVerify
  else if sig.take hash.length = hash then .ok ()
  else .error .sigVerify

end TCose
