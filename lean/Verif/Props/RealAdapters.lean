import Verif.Props.Verdict
import Verif.Props.SignOutcome
import Verif.Props.Sha256

/-!
# C70: the outcome with the adapters of the repository

C65 says how verification of any message ends, and C67 how signing ends, given what
the adapter's hash functions compute.  Here that is filled in for the three
adapters: what the test adapter hashes to is SHA-256 of FIPS 180-4, what OpenSSL and
PSA hash to is what the library's calls report, failures included.
-/

namespace TCose.Props
open TCose Spec

variable (cfg : Config) (P : QParams) (junk : Junk) (me : VerifyCtx) (m : Message)
  (pb msg : Bytes) (aad : UB) (pay : VPayload) (want : Bool)

/-- The hash of `tbs` with the test adapter; `mode` is `hash_test_mode`, 1 to make the
start fail, 2 to make the end fail. Only SHA-256 is there. -/
def testDigest (mode : Nat) (tbs : Bytes) (alg : Int) : Except Err Bytes :=
  match hashFor cfg alg with
  | none => .error .unsupportedSigningAlg
  | some ha =>
    if mode = 1 then .error .hashGeneralFail
    else if ha ≠ -16 then .error .unsupportedHash
    else if mode = 2 then .error .hashGeneralFail
    else .ok (Sha256.sha256 tbs)

theorem test_tbs_hash_any (mode : Nat) (fresh : Bytes) (hf : fresh.length = 64) (alg : Int) (p a w : UB)
    (hN : PiecesUpTo 4294967295 p.bytes a.bytes w.bytes) :
    createTbsHash cfg (testCrypto cfg mode fresh) alg p a w (maxHashSize cfg) =
      testDigest cfg mode ((tbsChunks p a w).map UB.bytes).flatten alg := by
  unfold testDigest
  rw [createTbsHash_eq]
  cases hh : hashFor cfg alg with
  | none => rw [if_pos (hashFor_none.mp hh)]
  | some h =>
    obtain ⟨h1, h2⟩ := hashFor_some hh
    rw [if_neg h2, h1]
    simp only
    by_cases hm1 : mode = 1
    · rw [if_pos hm1]
      simp [testCrypto, hm1]
    rw [if_neg hm1]
    by_cases h16 : h = -16
    rotate_left
    · rw [if_pos h16]
      simp [testCrypto, hm1, algSHA256, h16]
    rw [if_neg (by simpa using h16)]
    subst h16
    have hs : (testCrypto cfg mode fresh).hashStart (-16) = .ok (some (Bcon.init fresh)) := by
      simp [testCrypto, hm1, algSHA256]
    rw [hs]
    simp only
    have hsm : ∀ u ∈ tbsChunks p a w, u.bytes.length < 4294967296 := fun u hu => by
      have := tbsChunks_le hN u hu
      omega
    obtain ⟨c, k1, k2⟩ := test_foldl _ hsm _ _ (Bcon.init_fed fresh hf)
    show testFinish mode (List.foldl testUpdate (some (Bcon.init fresh)) (tbsChunks p a w)) _ = _
    rw [k1]
    obtain ⟨h3, h4⟩ := Bcon.final_fed k2
    have hm : ¬ (maxHashSize cfg < 32 ∨ (Bcon.final c).1.ub = true) := by
      rw [h3]
      unfold maxHashSize
      split
      · simp
      · split <;> simp
    unfold testFinish
    simp only
    by_cases hm2 : mode = 2
    · rw [if_pos hm2, if_pos hm2]
    · rw [if_neg hm2, if_neg hm2, if_neg hm, h4, List.nil_append]

theorem test_tbs_hash (mode : Nat) (fresh : Bytes) (hf : fresh.length = 64) (alg : Int) {p a w : UB}
    (hp : p.wf) (ha : a.wf) (hw : w.wf) (hN : PiecesUpTo 4294967295 p.bytes a.bytes w.bytes) :
    createTbsHash cfg (testCrypto cfg mode fresh) alg p a w (maxHashSize cfg) =
      testDigest cfg mode (sigStructure p.bytes a.bytes w.bytes) alg := by
  rw [test_tbs_hash_any cfg mode fresh hf alg p a w hN, tbsChunks_bytes hp ha hw]

theorem shown_verify_test (mode : Nat) (fresh : Bytes) (hfr : fresh.length = 64)
    (hP : P.maxTags ≤ 4) (he : m.Encoded pb msg) (hf : m.Fits P msg)
    {m' : Message} (hs : ShownMsg P m m') (hargs : ArgsOk aad pay)
    (hN : PiecesUpTo (2 ^ 32 - 1) pb aad.bytes (payloadOf m pay)) :
    (verifyInternal cfg P (testCrypto cfg mode fresh) junk me msg aad pay want).res =
      verdict cfg (testCrypto cfg mode fresh) me m' pb aad pay (payloadOf m pay)
        (testDigest cfg mode (sigStructure pb aad.bytes (payloadOf m pay))) := by
  refine shown_hash cfg P _ junk me m pb msg aad pay want hP he hf hs hargs _ ?_
  intro k _
  rw [test_tbs_hash cfg mode fresh hfr k.alg (p := .data pb) rfl hargs.1 (payloadUb_wf hargs)
    (by rw [payloadUb_bytes]; exact hN), payloadUb_bytes]
  rfl

/-- **C70 (verify, test adapter).** With the test adapter, for every message and every
setting of the test hooks, nothing is left to assume of the adapter: the outcome is
`verdict` with SHA-256. -/
theorem C70_verify_test (mode : Nat) (fresh : Bytes) (hfr : fresh.length = 64)
    (hP : P.maxTags ≤ 4) (he : m.Encoded pb msg) (hf : m.Fits P msg)
    (hp : Header.Plain m.prot) (hu : Header.Plain m.unprot) (hargs : ArgsOk aad pay)
    (hN : PiecesUpTo (2 ^ 32 - 1) pb aad.bytes (payloadOf m pay)) :
    (verifyInternal cfg P (testCrypto cfg mode fresh) junk me msg aad pay want).res =
      verdict cfg (testCrypto cfg mode fresh) me m pb aad pay (payloadOf m pay)
        (testDigest cfg mode (sigStructure pb aad.bytes (payloadOf m pay))) :=
  shown_verify_test cfg P junk me m pb msg aad pay want mode fresh hfr hP he hf (plain_msg he hf hp hu) hargs hN

theorem shown_verify_openssl (L : Ossl.Lib)
    (hdg : ∀ md, (L.digestFinal md).2.length ≤ digestRoom cfg)
    (hP : P.maxTags ≤ 4) (he : m.Encoded pb msg) (hf : m.Fits P msg)
    {m' : Message} (hs : ShownMsg P m m') (hargs : ArgsOk aad pay) :
    ∃ parts, parts.flatten = sigStructure pb aad.bytes (payloadOf m pay) ∧
      (verifyInternal cfg P (Ossl.crypto cfg L) junk me msg aad pay want).res =
        verdict cfg (Ossl.crypto cfg L) me m' pb aad pay (payloadOf m pay) (fun alg =>
          match hashFor cfg alg with
          | none => .error .unsupportedSigningAlg
          | some h => Spec.Ossl.hashRun L h parts) := by
  obtain ⟨parts, h1, h2⟩ := C66_openssl_hash (.data pb) aad (payloadUb m pay) rfl hargs.1
    (payloadUb_wf hargs)
  refine ⟨parts, by rw [h1, payloadUb_bytes]; rfl, ?_⟩
  refine shown_hash cfg P _ junk me m pb msg aad pay want hP he hf hs hargs _ ?_
  intro k _
  rw [maxHashSize_eq, h2 cfg L k.alg (digestRoom cfg) hdg]
  cases hashFor cfg k.alg <;> rfl

/-- **C70 (verify, OpenSSL).** With the OpenSSL adapter, whatever the library's calls
report: the hash is that of `Spec.Ossl.hashRun` over parts that make up what was
signed, and the verification of it is the adapter's, whose result codes C66 says. -/
theorem C70_verify_openssl (L : Ossl.Lib)
    (hdg : ∀ md, (L.digestFinal md).2.length ≤ digestRoom cfg)
    (hP : P.maxTags ≤ 4) (he : m.Encoded pb msg) (hf : m.Fits P msg)
    (hp : Header.Plain m.prot) (hu : Header.Plain m.unprot) (hargs : ArgsOk aad pay) :
    ∃ parts, parts.flatten = sigStructure pb aad.bytes (payloadOf m pay) ∧
      (verifyInternal cfg P (Ossl.crypto cfg L) junk me msg aad pay want).res =
        verdict cfg (Ossl.crypto cfg L) me m pb aad pay (payloadOf m pay) (fun alg =>
          match hashFor cfg alg with
          | none => .error .unsupportedSigningAlg
          | some h => Spec.Ossl.hashRun L h parts) :=
  shown_verify_openssl cfg P junk me m pb msg aad pay want L hdg hP he hf (plain_msg he hf hp hu) hargs

theorem shown_verify_psa (L : Psa.Lib)
    (hP : P.maxTags ≤ 4) (he : m.Encoded pb msg) (hf : m.Fits P msg)
    {m' : Message} (hs : ShownMsg P m m') (hargs : ArgsOk aad pay) :
    ∃ parts, parts.flatten = sigStructure pb aad.bytes (payloadOf m pay) ∧
      (verifyInternal cfg P (Psa.crypto cfg L) junk me msg aad pay want).res =
        verdict cfg (Psa.crypto cfg L) me m' pb aad pay (payloadOf m pay) (fun alg =>
          match hashFor cfg alg with
          | none => .error .unsupportedSigningAlg
          | some h => Spec.Psa.coded Spec.Psa.hashTableCodes .hashGeneralFail
              (Spec.Psa.hashRun L (Spec.Psa.hashTable h) parts (digestRoom cfg)).1
              (Spec.Psa.hashRun L (Spec.Psa.hashTable h) parts (digestRoom cfg)).2) := by
  obtain ⟨parts, h1, h2⟩ := C66_psa_hash (.data pb) aad (payloadUb m pay) rfl hargs.1
    (payloadUb_wf hargs)
  refine ⟨parts, by rw [h1, payloadUb_bytes]; rfl, ?_⟩
  refine shown_hash cfg P _ junk me m pb msg aad pay want hP he hf hs hargs _ ?_
  intro k _
  rw [maxHashSize_eq, h2 cfg L k.alg]
  cases hashFor cfg k.alg <;> rfl

/-- **C70 (verify, PSA).** The same with the PSA adapter, for every library. -/
theorem C70_verify_psa (L : Psa.Lib)
    (hP : P.maxTags ≤ 4) (he : m.Encoded pb msg) (hf : m.Fits P msg)
    (hp : Header.Plain m.prot) (hu : Header.Plain m.unprot) (hargs : ArgsOk aad pay) :
    ∃ parts, parts.flatten = sigStructure pb aad.bytes (payloadOf m pay) ∧
      (verifyInternal cfg P (Psa.crypto cfg L) junk me msg aad pay want).res =
        verdict cfg (Psa.crypto cfg L) me m pb aad pay (payloadOf m pay) (fun alg =>
          match hashFor cfg alg with
          | none => .error .unsupportedSigningAlg
          | some h => Spec.Psa.coded Spec.Psa.hashTableCodes .hashGeneralFail
              (Spec.Psa.hashRun L (Spec.Psa.hashTable h) parts (digestRoom cfg)).1
              (Spec.Psa.hashRun L (Spec.Psa.hashTable h) parts (digestRoom cfg)).2) :=
  shown_verify_psa cfg P junk me m pb msg aad pay want L hP he hf (plain_msg he hf hp hu) hargs

/-- **C70 (sign, test adapter).** Signing with the test adapter ends as `outcome` says
with SHA-256, for every context, payload, external data, buffer and setting of the
test hooks. -/
theorem C70_sign_test (mode : Nat) (fresh : Bytes) (hfr : fresh.length = 64) (me : SignCtx)
    (det : Bool) (payload : UB) (b : Bytes) (hp : payload.wf) (ha : aad.wf)
    (hd : det = true → payload.isNull = false)
    (hN : PiecesUpTo (2 ^ 32 - 1) (protectedHeader me.alg) aad.bytes payload.bytes)
    (hlim : begun cfg me det payload.bytes < 2 ^ 32 - 9) :
    (signAadInternal cfg (testCrypto cfg mode fresh) me det payload aad (.buf b)).1 =
      (outcome cfg (testCrypto cfg mode fresh) me det payload.bytes aad.bytes
        (testDigest cfg mode (toBeSigned me payload.bytes aad.bytes) me.alg) b.length).map UB.data := by
  refine sign_outcome cfg _ me det payload aad (test_signFits cfg mode fresh) b hp ha hd ?_ ?_ hlim
  · rw [test_tbs_hash cfg mode fresh hfr me.alg (p := .data _) (w := .data _) rfl ha rfl
      (by rw [protectedHeader_eq] at hN; exact hN)]
    unfold toBeSigned
    rw [protectedHeader_eq]
    rfl
  · intro d h
    unfold testDigest at h
    repeat' split at h
    all_goals first
      | (cases h; done)
      | (cases h
         intro h0
         have := congrArg List.length h0
         simp [Sha256.sha256, Sha256.Vars.bytes, Sha256.beBytes] at this)

/-- **C70 (size, test adapter).** The size query with the test adapter, for every context,
payload, external data and setting of the test hooks. -/
theorem C70_size_test (mode : Nat) (fresh : Bytes) (hfr : fresh.length = 64) (me : SignCtx)
    (det : Bool) (payload : UB) (n : Nat) (hp : payload.wf) (ha : aad.wf)
    (hd : det = true → payload.isNull = false)
    (hN : PiecesUpTo (2 ^ 32 - 1) (protectedHeader me.alg) aad.bytes payload.bytes)
    (hx : Spec.Opt.shortCircuit me.flags = false → me.alg = -8 → me.aux.isNull = true)
    (hlim : begun cfg me det payload.bytes < 2 ^ 32 - 9) :
    (signAadInternal cfg (testCrypto cfg mode fresh) me det payload aad (.null n)).1 =
      (queryOutcome cfg (testCrypto cfg mode fresh) me det payload.bytes aad.bytes
        (testDigest cfg mode (toBeSigned me payload.bytes aad.bytes) me.alg) n).map UB.null := by
  refine size_outcome cfg _ me det payload aad n hp ha hd ?_ hx hlim
  rw [test_tbs_hash_any cfg mode fresh hfr me.alg (seen true (protMap me.alg)) aad
    (paySeen det true payload.bytes)
    ⟨hN.1, Nat.zero_le _, hN.2.2.1, by cases det <;> first | exact hN.2.2.2 | exact Nat.zero_le _⟩]
  unfold testDigest
  cases hashFor cfg me.alg with
  | none => rfl
  | some h =>
    simp only
    by_cases h1 : mode = 1
    · rw [if_pos h1]; simp only; rw [if_pos h1]
    rw [if_neg h1]
    by_cases h2 : h ≠ -16
    · rw [if_pos h2]; simp only; rw [if_neg h1, if_pos h2]
    rw [if_neg h2]
    by_cases h3 : mode = 2
    · rw [if_pos h3]; simp only; rw [if_neg h1, if_neg h2, if_pos h3]
    rw [if_neg h3]
    simp only
    exact ⟨_, by rw [if_neg h1, if_neg h2, if_neg h3]⟩

/-- Octets of the largest signature of the build. -/
def largestSignature : Nat :=
  if cfg.disableES512 = false then 132 else if cfg.disableES384 = false then 96 else 64

/-- **C70 (size and signature, test adapter).** For ES256 without short-circuit signatures and
without test hooks, the size query with the test adapter succeeds and answers with the
size of a message with the largest signature of the build, while no buffer is large
enough for signing to succeed. -/
theorem C70_test_size_only (fresh : Bytes) (hfr : fresh.length = 64) (me : SignCtx)
    (det : Bool) (payload : UB) (n : Nat) (b : Bytes) (hp : payload.wf) (ha : aad.wf)
    (hd : det = true → payload.isNull = false)
    (hN : PiecesUpTo (2 ^ 32 - 1) (protectedHeader me.alg) aad.bytes payload.bytes)
    (halg : me.alg = -7) (hsc : Spec.Opt.shortCircuit me.flags = false) (hcf : ctxFault cfg me = none)
    (hlim : begun cfg me det payload.bytes < 2 ^ 32 - 9)
    (hn : (finished cfg me det payload.bytes (List.replicate (largestSignature cfg) 0)).length ≤ n)
    (hb : begun cfg me det payload.bytes < b.length) :
    (signAadInternal cfg (testCrypto cfg 0 fresh) me det payload aad (.null n)).1 =
      .ok (.null (finished cfg me det payload.bytes (List.replicate (largestSignature cfg) 0)).length) ∧
    (signAadInternal cfg (testCrypto cfg 0 fresh) me det payload aad (.buf b)).1 =
      .error .unsupportedSigningAlg := by
  have hdg : testDigest cfg 0 (toBeSigned me payload.bytes aad.bytes) me.alg =
      .ok (Sha256.sha256 (toBeSigned me payload.bytes aad.bytes)) := by
    unfold testDigest
    rw [halg]
    rfl
  have h8 : me.alg ≠ -8 := by rw [halg]; decide
  have hk : (testCrypto cfg 0 fresh).sigSize me.alg me.key = .ok (largestSignature cfg) := by
    unfold largestSignature
    simp only [testCrypto, maxEcdsaSigSize]
    cases cfg.disableES512 <;> cases cfg.disableES384 <;> rfl
  have hbn : begun cfg me det payload.bytes ≤ n := by
    rw [begun_eq (ctxFault_none hcf).ct]
    rw [finished_eq (ctxFault_none hcf).ct] at hn
    exact Nat.le_of_lt (Nat.lt_of_lt_of_le (preSig_lt_msg ..) hn)
  constructor
  · rw [C70_size_test cfg aad 0 fresh hfr me det payload n hp ha hd hN (fun _ h => absurd h h8) hlim, hdg]
    unfold queryOutcome
    rw [hcf]
    simp only
    rw [if_neg (by omega)]
    unfold askSize
    rw [hsc, if_neg (by decide), if_neg h8]
    simp only
    rw [hk]
    simp only
    rw [if_neg (by omega)]
    rfl
  · rw [C70_sign_test cfg aad 0 fresh hfr me det payload b hp ha hd hN hlim, hdg]
    unfold outcome
    rw [hcf]
    simp only
    rw [if_neg (by omega), if_neg (by omega)]
    unfold makeSig
    rw [hsc, if_neg (by decide), if_neg h8]
    rfl

example :
    (signAadInternal Config.full (testCrypto Config.full 0 (List.replicate 64 7)) (SignCtx.init 0 (-7))
      false (.data [1, 2, 3]) .nil (.null 1000)).1 = .ok (.null 145) ∧
    (signAadInternal Config.full (testCrypto Config.full 0 (List.replicate 64 7)) (SignCtx.init 0 (-7))
      false (.data [1, 2, 3]) .nil (.buf (List.replicate 145 0))).1 = .error .unsupportedSigningAlg := by
  have := C70_test_size_only Config.full .nil (List.replicate 64 7) rfl (SignCtx.init 0 (-7)) false
    (.data [1, 2, 3]) 1000 (List.replicate 145 0) rfl rfl (by simp) (by unfold PiecesUpTo; decide +kernel) rfl
    rfl (by decide +kernel) (by decide +kernel) (by decide +kernel) (by decide +kernel)
  rwa [show (finished Config.full (SignCtx.init 0 (-7)) false (UB.data [1, 2, 3]).bytes
    (List.replicate (largestSignature Config.full) 0)).length = 145 by decide +kernel] at this

/- The hypotheses hold of a message with a critical parameter that is allowed; the
adapter cannot verify ES256, so that is the outcome, and with a hook set, the hash
failure; a short-circuit signature is made. -/
example : sampleMsg.Encoded samplePb sampleEnc ∧ sampleMsg.Fits QParams.std sampleEnc ∧
    PiecesUpTo (2 ^ 32 - 1) samplePb [] (payloadOf sampleMsg (.inline true)) ∧
    (sign1Verify Config.full QParams.std (testCrypto Config.full 0 (List.replicate 64 7)) noJunk
      (VerifyCtx.init 32) sampleEnc true false).res = .error .unsupportedSigningAlg ∧
    (sign1Verify Config.full QParams.std (testCrypto Config.full 2 (List.replicate 64 7)) noJunk
      (VerifyCtx.init 32) sampleEnc true false).res = .error .hashGeneralFail ∧
    (sign1Verify Config.full QParams.std (Ossl.crypto Config.full { Ossl.demoLib 256 with
      mdCtxNew := false }) noJunk (VerifyCtx.init 32) sampleEnc true false).res =
        .error .insufficientMemory ∧
    (sign1Verify Config.full QParams.std (Psa.crypto Config.full (Psa.demoPsa fun _ => true)) noJunk
      (VerifyCtx.init 32) sampleEnc true false).res = .error .hashGeneralFail :=
  ⟨sample_encoded, sample_fits, by unfold PiecesUpTo; decide +kernel, by decide +kernel,
    by decide +kernel, by decide +kernel, by decide +kernel⟩

example (b : Bytes) :
    (signAadInternal Config.full (testCrypto Config.full 0 (List.replicate 64 7)) (SignCtx.init 1 (-7))
      false (.data [1, 2, 3]) .nil (.buf b)).1 =
    (outcome Config.full (testCrypto Config.full 0 (List.replicate 64 7)) (SignCtx.init 1 (-7))
      false [1, 2, 3] [] (.ok (Sha256.sha256 (toBeSigned (SignCtx.init 1 (-7)) [1, 2, 3] [])))
      b.length).map UB.data :=
  C70_sign_test Config.full .nil 0 _ rfl (SignCtx.init 1 (-7)) false (.data [1, 2, 3]) b rfl rfl
    (by simp) (by unfold PiecesUpTo; decide +kernel) (by decide +kernel)

end TCose.Props
