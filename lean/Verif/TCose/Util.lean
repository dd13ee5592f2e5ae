import Verif.Qcbor.Encode

/-!
# src/t_cose_util.c and the constants of src/t_cose_crypto.h
-/

namespace TCose

/-- `signature_algorithm_id_is_supported` (src/t_cose_util.c:30-52). -/
def sigAlgSupported (cfg : Config) (alg : Int) : Bool :=
  alg == algES256
  || (!cfg.disableES384 && alg == algES384)
  || (!cfg.disableES512 && alg == algES512)
  || (!cfg.disablePS256 && alg == algPS256)
  || (!cfg.disablePS384 && alg == algPS384)
  || (!cfg.disablePS512 && alg == algPS512)
  || (!cfg.disableEDDSA && alg == algEDDSA)

/-- `hash_alg_id_from_sig_alg_id` (src/t_cose_util.c:68-95). -/
def hashAlgOfSigAlg (cfg : Config) (alg : Int) : Int :=
  if alg = algES256 then algSHA256
  else if cfg.disableES384 = false ∧ alg = algES384 then algSHA384
  else if cfg.disableES512 = false ∧ alg = algES512 then algSHA512
  else if cfg.disablePS256 = false ∧ alg = algPS256 then algSHA256
  else if cfg.disablePS384 = false ∧ alg = algPS384 then algSHA384
  else if cfg.disablePS512 = false ∧ alg = algPS512 then algSHA512
  else algNone

/-- `T_COSE_CRYPTO_MAX_HASH_SIZE` (src/t_cose_crypto.h:495-503). -/
def maxHashSize (cfg : Config) : Nat :=
  if !cfg.disableES512 || !cfg.disablePS512 then 64
  else if !cfg.disableES384 || !cfg.disablePS384 then 48
  else 32

/-- `T_COSE_MAX_ECDSA_SIG_SIZE` (src/t_cose_crypto.h:125-133). -/
def maxEcdsaSigSize (cfg : Config) : Nat :=
  if !cfg.disableES512 then 132
  else if !cfg.disableES384 then 96
  else 64

/-- `t_cose_check_list` (src/t_cose_crypto.h:656-667): scan up to the
terminating 0. -/
def checkList (alg : Int) : List Int → Bool
  | [] => false            -- not reached: every list ends in 0
  | x :: xs => if x = 0 then false else if x = alg then true else checkList alg xs

/-- `t_cose_algorithm_is_ecdsa` (src/t_cose_crypto.h:669-684). -/
def algIsEcdsa (cfg : Config) (alg : Int) : Bool :=
  checkList alg
    ([algES256] ++ (if cfg.disableES384 then [] else [algES384])
      ++ (if cfg.disableES512 then [] else [algES512]) ++ [0])

/-- `t_cose_algorithm_is_rsassa_pss` (src/t_cose_crypto.h:686-703). -/
def algIsPss (cfg : Config) (alg : Int) : Bool :=
  checkList alg
    ((if cfg.disablePS256 then [] else [algPS256])
      ++ (if cfg.disablePS384 then [] else [algPS384])
      ++ (if cfg.disablePS512 then [] else [algPS512]) ++ [0])

/-- `COSE_SIG_CONTEXT_STRING_SIGNATURE1` = "Signature1"
(src/t_cose_standard_constants.h), as octets. -/
def contextString : Bytes :=
  [0x53, 0x69, 0x67, 0x6e, 0x61, 0x74, 0x75, 0x72, 0x65, 0x31]

/-- The encoder run of `create_tbs` (src/t_cose_util.c:107-115) before
`QCBOREncode_Finish`. -/
def tbsEnc (prot aad payload : UB) (buf : Mem) : Enc :=
  ((((((Enc.init buf).openArray).addText contextString).addBytes prot).addBytes
    aad).addBytes payload).closeArray

/-- `create_tbs` (src/t_cose_util.c:100-125). The Boolean is the ghost
undefined-behaviour flag of the encoder. -/
def createTbs (prot aad payload : UB) (buf : Mem) : Except Err UB × Bool :=
  let e := tbsEnc prot aad payload buf
  match e.finish with
  | .ok tbs => (.ok tbs, e.ub)
  | .error .tooSmall => (.error .tooSmall, e.ub)
  | .error _ => (.error .cborFormatting, e.ub)

/-- `hash_bstr` (src/t_cose_util.c:136-159). -/
def hashBstr (C : Crypto) (h : C.HashCtx) (b : UB) : C.HashCtx :=
  C.hashUpdate (C.hashUpdate h (.data (encodeHead 2 b.len))) b

/-- `create_tbs_hash` (src/t_cose_util.c:182-259); `room` is the size of
`buffer_for_hash`. -/
def createTbsHash (cfg : Config) (C : Crypto) (alg : Int) (prot aad payload : UB)
    (room : Nat) : Except Err Bytes :=
  let hashAlg := hashAlgOfSigAlg cfg alg
  if hashAlg = algNone then .error .unsupportedSigningAlg
  else
    match C.hashStart hashAlg with
    | .error x => .error x
    | .ok h0 =>
      let h1 := C.hashUpdate h0 (.data (0x84 :: 0x6a :: contextString))
      let h2 := hashBstr C h1 prot
      let h3 := hashBstr C h2 aad
      let h4 := hashBstr C h3 payload
      C.hashFinish h4 room

/-- `defined_short_circuit_kid` (src/t_cose_util.c:269-273), returned by
`get_short_circuit_kid` (src/t_cose_util.c:280-286). -/
def shortCircuitKid : Bytes :=
  [0xef, 0x95, 0x4b, 0x4b, 0xd9, 0xbd, 0xf6, 0x70,
   0xd0, 0x33, 0x60, 0x82, 0xf5, 0xef, 0x15, 0x2a,
   0xf8, 0xf3, 0x5b, 0x6a, 0x6c, 0x00, 0xef, 0xa6,
   0xa9, 0xa7, 0x1f, 0x49, 0x51, 0x7e, 0x18, 0xc6]

end TCose
