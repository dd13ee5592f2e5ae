import Verif.TestCode.KnownGood
import Verif.TestCode.SuiteMore

/-!
# test/t_cose_sign_verify_test.c

The tests that need a real crypto library, with the values they return and the keys they
make and free. Parameters: `sup` is `t_cose_is_algorithm_supported`
(src/t_cose_util.c:60-63, which asks the adapter), and the keys that `make_key_pair`
returns, one for each call. Every stack buffer that a call writes to is a parameter;
auxiliary buffers are only scratch space. Errors of QCBOR are not numbered (see
`TestCode.SuiteMore`).
-/

namespace TCose.SignVerifyTest
open SuiteTest

/-- What a test does with keys: `make_key_pair` with success, and `free_key_pair`. -/
inductive KeyEvent where
  | made (k : Key)
  | freed (k : Key)
  deriving Repr, DecidableEq

/-- The pattern of all tests: `make_key_pair`; if it fails, return `base` and the error;
otherwise the body of the test, every path of which ends at `Done` with
`free_key_pair`. -/
def withKey (r : Except Err Key) (base : Int) (body : Key → Int) : Int × List KeyEvent :=
  match r with
  | .error x => (base + x.no, [])
  | .ok k => (body k, [.made k, .freed k])

/-- The loop over the table of test cases (test/t_cose_sign_verify_test.c:297-308, 402-412,
702-719, 807-817, 878-892): rows that are selected are run until one does not return 0. -/
def caseLoop (sel : Int → Bool) (run : Nat → Int → Bytes → Int × List KeyEvent) :
    Nat → List (Int × Bytes) → Int × List KeyEvent
  | _, [] => (0, [])
  | i, c :: r =>
    if sel c.1 then
      let t := run i c.1 c.2
      if t.1 ≠ 0 then ((1 + i) * 10000 + t.1, t.2)
      else
        let q := caseLoop sel run (i + 1) r
        (q.1, t.2 ++ q.2)
    else caseLoop sel run (i + 1) r

/-- `"AsymmetricECDSA256"` (test/t_cose_sign_verify_test.c:451). -/
def cwtKid : Bytes :=
  [0x41, 0x73, 0x79, 0x6d, 0x6d, 0x65, 0x74, 0x72, 0x69, 0x63, 0x45, 0x43, 0x44, 0x53, 0x41,
   0x32, 0x35, 0x36]

/-- `"greasy kid stuff"` (test/t_cose_sign_verify_test.c:713). -/
def greasyKid : Bytes :=
  [0x67, 0x72, 0x65, 0x61, 0x73, 0x79, 0x20, 0x6b, 0x69, 0x64, 0x20, 0x73, 0x74, 0x75, 0x66, 0x66]

/-- `rfc8392_first_part_bytes` (test/t_cose_sign_verify_test.c:497-507). -/
def rfc8392First : Bytes :=
  [0xd2, 0x84, 0x43, 0xa1, 0x01, 0x26, 0xa1, 0x04, 0x52, 0x41, 0x73, 0x79,
   0x6d, 0x6d, 0x65, 0x74, 0x72, 0x69, 0x63, 0x45, 0x43, 0x44, 0x53, 0x41,
   0x32, 0x35, 0x36, 0x58, 0x50, 0xa7, 0x01, 0x75, 0x63, 0x6f, 0x61, 0x70,
   0x3a, 0x2f, 0x2f, 0x61, 0x73, 0x2e, 0x65, 0x78, 0x61, 0x6d, 0x70, 0x6c,
   0x65, 0x2e, 0x63, 0x6f, 0x6d, 0x02, 0x65, 0x65, 0x72, 0x69, 0x6b, 0x77,
   0x03, 0x78, 0x18, 0x63, 0x6f, 0x61, 0x70, 0x3a, 0x2f, 0x2f, 0x6c, 0x69,
   0x67, 0x68, 0x74, 0x2e, 0x65, 0x78, 0x61, 0x6d, 0x70, 0x6c, 0x65, 0x2e,
   0x63, 0x6f, 0x6d, 0x04, 0x1a, 0x56, 0x12, 0xae, 0xb0, 0x05, 0x1a, 0x56,
   0x10, 0xd9, 0xf0, 0x06, 0x1a, 0x56, 0x10, 0xd9, 0xf0, 0x07, 0x42, 0x0b,
   0x71]

section
variable (cfg : Config) (P : QParams) (C : Crypto) (junk : Junk) (sup : Int → Bool)

/-- A signing context with key, key id and auxiliary buffer. -/
def signWith (alg : Int) (key : Key) (kid : UB) (aux : Bytes) : SignCtx :=
  ((SignCtx.init 0 alg).setKey key kid).setAux cfg (.buf aux)

/-- A verification context with key and auxiliary buffer. -/
def verifyWith (key : Key) (aux : Bytes) : VerifyCtx :=
  ((VerifyCtx.init 0).setKey key).setAux cfg (.buf aux)

/-- `sign_verify_basic_test_alg` after the key was made
(test/t_cose_sign_verify_test.c:247-288). -/
def basicBody (alg : Int) (m aux : Bytes) (key : Key) : Int :=
  match (sign1Sign cfg C (signWith cfg alg key .nil aux) (.data payloadText) (.buf m)).1 with
  | .error x => 2000 + x.no
  | .ok r =>
    let v := sign1Verify cfg P C junk (verifyWith cfg key aux) r.bytes true false
    match v.res with
    | .error x => 5000 + x.no
    | .ok () => if v.payload.map (·.ub.bytes) ≠ some payloadText then 6000 else 0

/-- `sign_verify_basic_test` (test/t_cose_sign_verify_test.c:228-309). -/
def basicTest (m aux : Nat → Bytes) (K : Nat → Int → Except Err Key) : Int × List KeyEvent :=
  caseLoop sup (fun i alg _ => withKey (K i alg) 1000 (basicBody cfg P C junk alg (m i) (aux i)))
    0 testCases

/-- `sig_fail_test` after the key was made (test/t_cose_sign_verify_test.c:338-393). The
value for an unexpected result of the verification (lines 384-386) is overwritten by line
388: the code is `keep = false`. With `keep = true` it would be returned. -/
def sigFailBody (keep : Bool) (alg : Int) (m aux : Bytes) (key : Key) : Int :=
  match makeTwoStep cfg C (signWith cfg alg key .nil aux) [] [.text payloadText] m with
  | .error n => n + 1000
  | .ok r =>
    match findBytes r payloadText with
    | none => 99
    | some p =>
      let v := sign1Verify cfg P C junk (verifyWith cfg key aux) (r.set p 0x68) true false
      let rv : Int := if v.res ≠ .error .sigVerify then 5000 + resNo v.res else 0
      if keep then rv else 0

/-- `sign_verify_sig_fail_test` (test/t_cose_sign_verify_test.c:314-413). -/
def sigFailTest (keep : Bool) (m aux : Nat → Bytes) (K : Nat → Int → Except Err Key) :
    Int × List KeyEvent :=
  caseLoop sup (fun i alg _ =>
    withKey (K i alg) 1000 (sigFailBody cfg P C junk keep alg (m i) (aux i))) 0 testCases

/-- `sign_verify_make_cwt_test` after the key was made
(test/t_cose_sign_verify_test.c:449-554). The value for a payload that differs (lines
543-545) is overwritten by line 548: the code is `keep = false`. -/
def cwtBody (keep : Bool) (m : Bytes) (key : Key) : Int :=
  match makeTwoStep cfg C ((SignCtx.init 0 algES256).setKey key (.data cwtKid)) [] claims m with
  | .error n => n + 1000
  | .ok r =>
    if bufHead r rfc8392First.length ≠ rfc8392First then -1
    else
      let v := sign1Verify cfg P C junk ((VerifyCtx.init 0).setKey key) r true false
      match v.res with
      | .error x => 5000 + x.no
      | .ok () =>
        let rv : Int :=
          if v.payload.map (·.ub.bytes) ≠ some (bufTail rfc8392First (1 + 1 + 1 + 18 + 8)) then 6000
          else 0
        if keep then rv else 0

/-- `sign_verify_make_cwt_test` (test/t_cose_sign_verify_test.c:419-555). -/
def cwtTest (keep : Bool) (m : Bytes) (K : Int → Except Err Key) : Int × List KeyEvent :=
  withKey (K algES256) 1000 (cwtBody cfg P C junk keep m)

/-- `size_test` after the key was made (test/t_cose_sign_verify_test.c:580-693). The buffer for
size calculation is NULL with the size `cap` (`INT32_MAX` in the code). The result of
`QCBOREncode_Finish` at line 662 is not looked at; had it failed, the length would be
undefined (-9 here). -/
def sizeBody (cap : Nat) (alg : Int) (kid : UB) (m1 m2 aux : Bytes) (key : Key) : Int :=
  match C.sigSize alg key with
  | .error x => 2000 + x.no
  | .ok sigSize =>
    match sign1EncodeParameters cfg ((SignCtx.init 0 alg).setKey key kid) (Enc.init (.null cap)) with
    | (.error x, _, _) => 3000 + x.no
    | (.ok (), me, e) =>
      match sign1EncodeSignature cfg C me (e.addEncoded (.data payloadText)) with
      | (.error x, _, _) => 4000 + x.no
      | (.ok (), me, e) =>
        match e.finish with
        | .error _ => 5001
        | .ok size =>
          if size.len < sigSize + payloadText.length + kid.len ∨
              size.len > sigSize + payloadText.length + kid.len + 30 then -1
          else
            let auxSize := me.auxiliaryBufferSize cfg
            if alg = algEDDSA ∧ (auxSize < payloadText.length + kid.len ∨
                auxSize > payloadText.length + kid.len + 30) then -2
            else if alg ≠ algEDDSA ∧ auxSize ≠ 0 then -3
            else
              let me := (SignCtx.init 0 alg).setKey key kid
              let me := if auxSize > 0 then me.setAux cfg (.buf aux) else me
              match sign1EncodeParameters cfg me (Enc.init (.buf m1)) with
              | (.error x, _, _) => 6000 + x.no
              | (.ok (), me', e) =>
                match sign1EncodeSignature cfg C me' (e.addEncoded (.data payloadText)) with
                | (.error x, _, _) => 7000 + x.no
                | (.ok (), _, e) =>
                  match e.finish with
                  | .error _ => -9
                  | .ok r =>
                    if r.len ≠ size.len then -4
                    else
                      match (sign1Sign cfg C me (.data payloadText) (.buf m2)).1 with
                      | .error x => 8000 + x.no
                      | .ok r => if r.len ≠ size.len then -5 else 0

/-- `sign_verify_get_size_test` (test/t_cose_sign_verify_test.c:558-721): each algorithm without
and with a key id. -/
def sizeTest (cap : Nat) (m1 m2 aux : Nat → Bytes) (K : Nat → Int → Except Err Key) :
    Int × List KeyEvent :=
  caseLoop sup (fun i alg _ =>
    let t := withKey (K (2 * i) alg) 1000
      (sizeBody cfg C cap alg .nil (m1 (2 * i)) (m2 (2 * i)) (aux (2 * i)))
    if t.1 ≠ 0 then t
    else
      let q := withKey (K (2 * i + 1) alg) 1000
        (sizeBody cfg C cap alg (.data greasyKid) (m1 (2 * i + 1)) (m2 (2 * i + 1)) (aux (2 * i + 1)))
      (q.1, t.2 ++ q.2)) 0 testCases

/-- `known_good_test` (test/t_cose_sign_verify_test.c:724-803). -/
def knownGoodAlg (alg : Int) (msg aux : Bytes) (K : Except Err Key) : Int × List KeyEvent :=
  let d := sign1Verify cfg P C junk (VerifyCtx.init (2 ^ optDecodeOnly)) msg true true
  match d.res with
  | .error x => (1000 + x.no, [])
  | .ok () =>
    if d.params.map (·.alg) ≠ some alg then (2000, [])
    else
      withKey K 3000 fun key =>
        let auxSize := d.ctx.auxiliaryBufferSize cfg
        let len := (d.payload.map (·.ub.len)).getD 0
        if alg = algEDDSA ∧ (auxSize < len ∨ auxSize > len + 30) then -1
        else if alg ≠ algEDDSA ∧ auxSize ≠ 0 then -2
        else
          let v := sign1Verify cfg P C junk (((VerifyCtx.init 0).setAux cfg (.buf aux)).setKey key)
            msg true true
          match v.res with
          | .error x => 4000 + x.no
          | .ok () => if v.payload.map (·.ub.bytes) ≠ some payloadText then 5000 else 0

/-- `sign_verify_known_good_test` (test/t_cose_sign_verify_test.c:805-826). -/
def knownGoodTest (aux : Nat → Bytes) (K : Nat → Int → Except Err Key) : Int × List KeyEvent :=
  caseLoop sup (fun i alg msg => knownGoodAlg cfg P C junk alg msg (aux i) (K i alg)) 0 testCases

/-- `sign_verify_unsupported_test_alg` after the key was made
(test/t_cose_sign_verify_test.c:851-873). The result of signing is not looked at. -/
def unsupportedBody (msg aux : Bytes) (key : Key) : Int :=
  let v := sign1Verify cfg P C junk (verifyWith cfg key aux) msg false false
  if v.res ≠ .error .unsupportedSigningAlg then 2000 + resNo v.res else 0

/-- `sign_verify_unsupported_test` (test/t_cose_sign_verify_test.c:828-893): only algorithms
that are not supported, with a key for ES256. -/
def unsupportedTest (aux : Nat → Bytes) (K : Nat → Int → Except Err Key) : Int × List KeyEvent :=
  caseLoop (fun a => !sup a) (fun i _ msg =>
    withKey (K i algES256) 1000 (unsupportedBody cfg P C junk msg (aux i))) 0 testCases

/-- `sign_verify_bad_auxiliary_buffer` after the key was made
(test/t_cose_sign_verify_test.c:922-975); `small` are the 5 octets of the auxiliary buffer. -/
def badAuxBody (m1 m2 small : Bytes) (key : Key) : Int :=
  let v1 := sign1Verify cfg P C junk ((VerifyCtx.init 0).setKey key) knownEddsa false false
  if v1.res ≠ .error .needAuxiliaryBuffer then 2000 + resNo v1.res
  else
    let v2 := sign1Verify cfg P C junk (verifyWith cfg key small) knownEddsa false false
    if v2.res ≠ .error .auxiliaryBufferSize then 3000 + resNo v2.res
    else
      let s1 := (sign1Sign cfg C ((SignCtx.init 0 algEDDSA).setKey key .nil) (.data payloadText)
        (.buf m1)).1
      if s1 ≠ .error .needAuxiliaryBuffer then 4000 + resNo (s1.map fun _ => ())
      else
        let s2 := (sign1Sign cfg C (signWith cfg algEDDSA key .nil small) (.data payloadText)
          (.buf m2)).1
        if s2 ≠ .error .auxiliaryBufferSize then 5000 + resNo (s2.map fun _ => ()) else 0

/-- `sign_verify_bad_auxiliary_buffer` (test/t_cose_sign_verify_test.c:895-976). -/
def badAuxTest (m1 m2 small : Bytes) (K : Int → Except Err Key) : Int × List KeyEvent :=
  if ¬ sup algEDDSA then (0, [])
  else withKey (K algEDDSA) 1000 (badAuxBody cfg P C junk m1 m2 small)

end
end TCose.SignVerifyTest
