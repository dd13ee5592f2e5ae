import Verif.TestCode.RealMain
import Verif.Spec.Decimal

/-!
# examples/t_cose_basic_example_ossl.c and examples/t_cose_basic_example_psa.c

The two example programs: what every function returns, what it prints, and what it does
with the objects it makes (keys, key generation contexts, buffers from `malloc`).

Parameters: the crypto library as far as it makes keys (`EvpGen`, or the status and handle
of the PSA functions), `malloc` (an address, 0 is NULL, and the octets that are found in
the memory), and the contents of the buffers on the stack.
-/

namespace TCose.ExampleCode
open SuiteTest SignVerifyTest

/-- The objects of one example. None is made twice in one run of it. -/
inductive Obj where
  | keyCtx | key | message | signAux | verifyAux
  deriving Repr, DecidableEq

/-- What an example does, in order. `says what code flag` is the `printf` of `what`, `code`
as a number, and `success` or `fail` as `flag` is zero or not. `undef` is the use of a
variable that was not set. -/
inductive Act where
  | got (o : Obj)
  | used (o : Obj)
  | freed (o : Obj)
  | undef
  | prints (what : String)
  | says (what : String) (code flag : Int)
  | size (what : String) (n : Nat)
  | dump (what : String) (b : Bytes)
  deriving Repr, DecidableEq

/-- The value returned, and what was done. -/
structure Run where
  code : Int
  acts : List Act
  deriving Repr, DecidableEq

/-! ## Keys -/

/-- The functions of OpenSSL that make a key: `EVP_PKEY_CTX_new_id`, `EVP_PKEY_keygen_init`,
`EVP_PKEY_CTX_set_ec_paramgen_curve_nid`, `EVP_PKEY_new`, and `EVP_PKEY_keygen`, which gets
the pointer to the key and returns the pointer it leaves behind. NULL is 0. -/
structure EvpGen where
  ctxNew : EvpType → Nat
  init : Nat → Int
  curve : Nat → KeyData → Int
  pkeyNew : Nat
  keygen : Nat → Nat → Int × Nat

/-- The switch of `make_ossl_key_pair` (examples/t_cose_basic_example_ossl.c:58-80). The curve
is named by the key of the test programs that is on it. -/
def genArgs (alg : Int) : Option (EvpType × KeyData) :=
  if alg = algES256 then some (.ec, .ec256)
  else if alg = algES384 then some (.ec, .ec384)
  else if alg = algES512 then some (.ec, .ec521)
  else if alg = algEDDSA then some (.ed25519, .ed25519)
  else none

/-- What `EVP_PKEY_keygen` did with the object: it makes one if it was given NULL and left
something else, and frees the one it was given if it left NULL. Simplification: a key it
was given is not exchanged for another. -/
def keygenActs (old new : Nat) : List Act :=
  (if old = 0 then [] else [.used .key]) ++
  (if old = 0 ∧ new ≠ 0 then [.got .key] else if old ≠ 0 ∧ new = 0 then [.freed .key] else [])

/-- `make_ossl_key_pair` (examples/t_cose_basic_example_ossl.c:48-116). -/
def makeOsslKey (L : EvpGen) (alg : Int) : Except Err Key × List Act :=
  match genArgs alg with
  | none => (.error .unsupportedSigningAlg, [])
  | some (ty, curve) =>
    if L.ctxNew ty = 0 then (.error .insufficientMemory, [])
    else
      let a1 : List Act := [.got .keyCtx, .used .keyCtx]
      if L.init (L.ctxNew ty) ≤ 0 then (.error .fail, a1)
      else
        let a2 := if ty = .ec then a1 ++ [.used .keyCtx] else a1
        if ty = .ec ∧ L.curve (L.ctxNew ty) curve ≠ 1 then (.error .fail, a2)
        else
          let a3 := a2 ++ (if L.pkeyNew = 0 then [] else [.got .key]) ++ [.used .keyCtx] ++
            keygenActs L.pkeyNew (L.keygen (L.ctxNew ty) L.pkeyNew).2
          if (L.keygen (L.ctxNew ty) L.pkeyNew).1 ≠ 1 then (.error .fail, a3)
          else (.ok ⟨.openssl, (L.keygen (L.ctxNew ty) L.pkeyNew).2⟩, a3)

/-- `make_psa_ecdsa_key_pair` (examples/t_cose_basic_example_psa.c:69-167); `init` is the
status of `psa_crypto_init`, `imp` is `psa_import_key`. -/
def makePsaKey (init : Int) (imp : PsaType → KeyData → Psa.SigAlg → Int × UInt32) (alg : Int) :
    Except Err Key × List Act :=
  if alg = algES256 ∨ alg = algES384 ∨ alg = algES512 then
    match psaMakeKey init imp alg with
    | .ok k => (.ok k, [.got .key])
    | .error x => (.error x, [])
  else (.error .unsupportedSigningAlg, [])

/-! ## One step and two steps -/

/-- ASCII. -/
def ascii (s : String) : Bytes := s.toList.map fun c => UInt8.ofNat c.toNat

/-- Labels and values in the payload of the first two examples (examples/t_cose_basic_example_ossl.c:196-204,
451-458). -/
def beingEntries : List Content :=
   [.text (ascii "BeingType"), .text (ascii "Humanoid"),
    .text (ascii "Greeting"), .text (ascii "We come in peace"),
    .text (ascii "ArmCount"), .int 2,
    .text (ascii "HeadCount"), .int 1,
    .text (ascii "BrainSize"), .text (ascii "medium"),
    .text (ascii "DrinksWater"), .bool true]

/-- The map of them. -/
def being : List Content := [.map beingEntries]

section
variable (cfg : Config) (P : QParams) (C : Crypto) (junk : Junk)

/-- A step that returns an error code: it is printed, and nothing else is done. -/
def stop (a : List Act) (what : String) (x : Err) : Run := ⟨x.no, a ++ [.says what x.no x.no]⟩

/-- The second half of the examples, from the printing of the message on
(examples/t_cose_basic_example_ossl.c:287-342, 491-545, examples/t_cose_basic_example_psa.c:337-392,
541-596). `objs` are the objects besides the key that hold what is used, `after` those that are
freed before it. -/
def verifyPart (a : List Act) (objs after : List Obj) (vm : VerifyCtx) (msg : Bytes) : Run :=
  let a := a ++ objs.map .used ++ [.used .key]
  let v := sign1Verify cfg P C junk vm msg true false
  match v.res with
  | .error x => stop a "Verification complete:" x
  | .ok () =>
    ⟨0, a ++ [.says "Verification complete:" 0 0] ++ objs.map .used ++
      (match v.payload with
      | some b => [.dump "Signed payload:" b.ub.bytes]
      | none => [.undef]) ++
      after.map .freed ++ [.prints "Freeing key pair\n\n", .freed .key]⟩

/-- What is done between signing and verifying. -/
def between (msg : Bytes) : List Act :=
  [.dump "Completed COSE_Sign1 message:" msg, .prints "",
   .prints "Initialized t_cose for verification and set verification key"]

/-- `one_step_sign_example` (examples/t_cose_basic_example_ossl.c:169-342,
examples/t_cose_basic_example_psa.c:219-392). `K` makes the key; `m1` and `m2` are the
buffers for the payload and the message, 300 octets in the code. An error of
`QCBOREncode_Finish` is not numbered here (1 stands for it); the length printed would not
have been set. -/
def oneStep (K : Int → Except Err Key × List Act) (m1 m2 : Bytes) : Run :=
  match (runAll being (Enc.init (.buf m1))).finish with
  | .error _ => ⟨1, [.undef, .says "Encoded payload:" 1 1]⟩
  | .ok w =>
    let a : List Act := [.size "Encoded payload size" w.len, .says "Encoded payload:" 0 0]
    match (K algES256).1 with
    | .error x => stop (a ++ (K algES256).2) "Made EC key with curve prime256v1:" x
    | .ok key =>
      let a := a ++ (K algES256).2 ++ [.says "Made EC key with curve prime256v1:" 0 0,
        .prints "Initialized t_cose and configured signing key", .used .key]
      match (sign1Sign cfg C ((SignCtx.init 0 algES256).setKey key .nil) w (.buf m2)).1 with
      | .error x => stop a "Finished signing:" x
      | .ok r =>
        verifyPart cfg P C junk (a ++ [.says "Finished signing:" 0 0] ++ between r.bytes) [] []
          ((VerifyCtx.init 0).setKey key) r.bytes

/-- `two_step_sign_example` (examples/t_cose_basic_example_ossl.c:354-545,
examples/t_cose_basic_example_psa.c:404-596). If `QCBOREncode_Finish` fails, the value returned is
still that of `t_cose_sign1_encode_signature`, and so is the word printed (lines 485-489 of the former). -/
def twoStep (K : Int → Except Err Key × List Act) (m : Bytes) : Run :=
  match (K algES256).1 with
  | .error x => stop (K algES256).2 "Made EC key with curve prime256v1:" x
  | .ok key =>
    let a := (K algES256).2 ++ [.says "Made EC key with curve prime256v1:" 0 0,
      .prints "Initialized QCBOR, t_cose and configured signing key"]
    match sign1EncodeParameters cfg ((SignCtx.init 0 algES256).setKey key .nil)
        (Enc.init (.buf m)) with
    | (.error x, _, _) => stop a "Encoded COSE headers:" x
    | (.ok (), me, e) =>
      let a := a ++ [.says "Encoded COSE headers:" 0 0, .prints "Payload added", .used .key]
      match sign1EncodeSignature cfg C me (runAll being e) with
      | (.error x, _, _) => stop a "Fnished signing:" x
      | (.ok (), _, e) =>
        let a := a ++ [.says "Fnished signing:" 0 0]
        match e.finish with
        | .error _ => ⟨0, a ++ [.says "Finished CBOR encoding:" 1 0]⟩
        | .ok r =>
          verifyPart cfg P C junk (a ++ [.says "Finished CBOR encoding:" 0 0] ++ between r.bytes) [] []
            ((VerifyCtx.init 0).setKey key) r.bytes

/-! ## Dynamic buffers -/

/-- `malloc`: the address, and the octets in the memory. -/
structure Heap where
  addr : Nat → Nat → Nat
  mem : Nat → Nat → Bytes

/-- The memory is as long as was asked for. -/
def Heap.Sized (H : Heap) : Prop := ∀ i n, (H.mem i n).length = n

/-- What the `i`-th call of `malloc` does to the objects. -/
def Heap.acts (H : Heap) (i n : Nat) (o : Obj) : List Act := if H.addr i n = 0 then [] else [.got o]

/-- `dynamic_buffer_example` from the second `t_cose_sign1_verify_init` on
(examples/t_cose_basic_example_ossl.c:693-722). -/
def dynVerify (a : List Act) (key : Key) (msg aux : Bytes) : Run :=
  verifyPart cfg P C junk
    (a ++ [.prints "Initialized t_cose for verification and set verification key"])
    [.message, .verifyAux] [.message, .verifyAux]
    (((VerifyCtx.init 0).setKey key).setAux cfg (.buf aux)) msg

/-- `dynamic_buffer_example` after the message was made
(examples/t_cose_basic_example_ossl.c:647-722). -/
def dynDecode (H : Heap) (a : List Act) (key : Key) (msg : Bytes) : Run :=
  let a := a ++ [.used .message, .dump "Completed COSE_Sign1 message:" msg, .prints "",
    .freed .signAux, .prints "Initialized t_cose for decoding", .used .message]
  let v := sign1Verify cfg P C junk (VerifyCtx.init (2 ^ optDecodeOnly)) msg false false
  match v.res with
  | .error x => stop a "Decode-only complete:" x
  | .ok () =>
    let n := v.ctx.auxiliaryBufferSize cfg
    let a := a ++ [.says "Decode-only complete:" 0 0, .size "Auxiliary buffer size" n]
    if H.addr 2 n = 0 then
      ⟨Err.no .insufficientMemory, a ++ [.prints "Auxiliary buffer allocation failed"]⟩
    else dynVerify cfg P C junk (a ++ H.acts 2 n .verifyAux) key msg (H.mem 2 n)

/-- `dynamic_buffer_example` (examples/t_cose_basic_example_ossl.c:568-723); `cap` is the size of
the NULL buffer (`SIZE_MAX` in the code). -/
def dynamic (H : Heap) (cap : Nat) (K : Int → Except Err Key × List Act) : Run :=
  let a : List Act := [.size "Encoded payload size" payloadText.length]
  match (K algEDDSA).1 with
  | .error x => stop (a ++ (K algEDDSA).2) "Made EC key with curve ed25519:" x
  | .ok key =>
    let a := a ++ (K algEDDSA).2 ++ [.says "Made EC key with curve ed25519:" 0 0, .used .key]
    let q := sign1Sign cfg C ((SignCtx.init 0 algEDDSA).setKey key .nil) (.data payloadText)
      (.null cap)
    match q.1 with
    | .error x => stop a "Computed signing size" x
    | .ok r =>
      let n := q.2.1.auxiliaryBufferSize cfg
      let a := a ++ [.says "Computed signing size" 0 0, .size "Output buffer size" r.len,
        .size "Auxiliary buffer size" n] ++ H.acts 0 r.len .message ++ H.acts 1 n .signAux
      if H.addr 0 r.len = 0 ∨ H.addr 1 n = 0 then
        ⟨Err.no .insufficientMemory, a ++ [.prints "Buffer allocation failed"]⟩
      else
        let a := a ++ [.used .message, .used .signAux, .used .key]
        match (sign1Sign cfg C (q.2.1.setAux cfg (.buf (H.mem 1 n))) (.data payloadText)
            (.buf (H.mem 0 r.len))).1 with
        | .error x => stop a "Finished signing:" x
        | .ok s => dynDecode cfg P C junk H (a ++ [.says "Finished signing:" 0 0]) key s.bytes

/-- `main` of the OpenSSL example (examples/t_cose_basic_example_ossl.c:725-733): three examples,
the values they return are dropped, and the exit status is 0. `L i` is the library as the
`i`-th of them finds it. -/
def osslMain (L : Nat → EvpGen) (H : Heap) (cap : Nat) (m : Nat → Bytes) : Nat × List Run :=
  (0, [oneStep cfg P C junk (makeOsslKey (L 0)) (m 0) (m 1),
    twoStep cfg P C junk (makeOsslKey (L 1)) (m 2),
    dynamic cfg P C junk H cap (makeOsslKey (L 2))])

/-- `main` of the PSA example (examples/t_cose_basic_example_psa.c:598-605). -/
def psaMain (init : Nat → Int) (imp : Nat → PsaType → KeyData → Psa.SigAlg → Int × UInt32)
    (m : Nat → Bytes) : Nat × List Run :=
  (0, [oneStep cfg P C junk (makePsaKey (init 0) (imp 0)) (m 0) (m 1),
    twoStep cfg P C junk (makePsaKey (init 1) (imp 1)) (m 2)])

end

/-! ## Printing -/

/-- `"%02x "`. -/
def hexText (z : UInt8) : Bytes :=
  let digit (d : Nat) : UInt8 := UInt8.ofNat (if d < 10 then 0x30 + d else 0x57 + d)
  [digit (z.toNat / 16), digit (z.toNat % 16), 0x20]

/-- The loop of `print_useful_buf` (examples/t_cose_basic_example_ossl.c:148-155,
examples/t_cose_basic_example_psa.c:199-206). -/
def dumpLoop : Nat → Bytes → Bytes
  | _, [] => []
  | i, z :: r => hexText z ++ (if i % 8 = 7 then [0x0a, 0x20, 0x20, 0x20, 0x20] else []) ++
      dumpLoop (i + 1) r

/-- `print_useful_buf` (examples/t_cose_basic_example_ossl.c:138-159,
examples/t_cose_basic_example_psa.c:189-210); `none` is a NULL label. The conversions are those of
`printf`; `%ld` prints the length as it is as long as it is below 2^63. -/
def printUsefulBuf (label : Option Bytes) (b : Bytes) : Bytes :=
  label.getD [] ++ ascii "    " ++ Spec.decimal b.length ++ ascii " bytes\n" ++ ascii "    " ++
    dumpLoop 0 b ++ ascii "\n"

end TCose.ExampleCode
