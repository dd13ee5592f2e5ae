import Verif.Lemmas.AllCodes
import Verif.Props.AdapterCodes
import Verif.Props.Codes
import Verif.Props.Verdict

/-!
# C68: the codes a call can return
-/

namespace TCose.Props
open TCose Spec

/-! ## What the adapters add -/

/-- Codes that come from the OpenSSL adapter in verification. -/
def opensslVerifyCodes : List Err :=
  [.unsupportedSigningAlg, .sigVerify, .sigFail, .insufficientMemory, .incorrectKeyForLib, .emptyKey,
   .unsupportedHash, .hashGeneralFail]

/-- Codes that come from the PSA adapter in verification. -/
def psaVerifyCodes : List Err :=
  [.unsupportedSigningAlg, .sigVerify, .sigFail, .insufficientMemory, .tamperingDetected,
   .unsupportedHash, .hashGeneralFail, .hashBufferSize]

/-- Codes of t_cose's own in signing. -/
def ownSignCodes : List Err :=
  [.unsupportedSigningAlg, .shortCircuitSigDisabled, .duplicateParameter, .tooSmall, .cborFormatting,
   .cborNotWellFormed, .sigBufferSize, .needAuxiliaryBuffer, .auxiliaryBufferSize]

/-- Codes that come from the OpenSSL adapter in signing. -/
def opensslSignCodes : List Err :=
  [.sigFail, .insufficientMemory, .incorrectKeyForLib, .emptyKey, .unsupportedHash, .hashGeneralFail]

/-- Codes that come from the PSA adapter in signing: the same function translates the
statuses of signing and of verification. -/
def psaSignCodes : List Err := psaVerifyCodes

/-! ## Lemmas -/

theorem tbsHash_codes {cfg : Config} {C : Crypto} {alg : Int} {p a w : UB} {n : Nat} {y : Err}
    (h : createTbsHash cfg C alg p a w n = .error y) :
    y = .unsupportedSigningAlg ∨ (∃ ha, C.hashStart ha = .error y) ∨
      ∃ hh, C.hashFinish hh n = .error y := by
  unfold createTbsHash at h
  simp only at h
  split at h
  · cases h; exact .inl rfl
  · split at h
    · rename_i hs; cases h; exact .inr (.inl ⟨_, hs⟩)
    · exact .inr (.inr ⟨_, h⟩)

section Ossl
open TCose.Ossl

theorem keyConvert_codes {key : Key} {y : Err} (h : keyConvert key = .error y) :
    y = .incorrectKeyForLib ∨ y = .emptyKey := by
  unfold keyConvert at h
  repeat' split at h
  · cases h; exact .inl rfl
  · cases h; exact .inr rfl
  · cases h

theorem ossl_start_codes {cfg : Config} {L : Lib} {alg : Int} {y : Err}
    (h : (crypto cfg L).hashStart alg = .error y) :
    y ∈ [Err.unsupportedHash, .insufficientMemory, .hashGeneralFail] := by
  change (hashStart cfg L alg).1 = _ at h
  unfold hashStart at h
  simp only at h
  repeat' split at h
  all_goals first | (cases h; done) | (cases h; decide)

theorem ossl_finish_codes {cfg : Config} {L : Lib} {hh : HashCtx L} {n : Nat} {y : Err}
    (h : (crypto cfg L).hashFinish hh n = .error y) :
    y = .hashGeneralFail ∨ (y = .modelUB ∧ ∃ md, n < (L.digestFinal md).2.length) := by
  change (hashFinish L hh n).1 = _ at h
  unfold hashFinish at h
  simp only at h
  split at h
  · cases h; exact .inl rfl
  · split at h
    · rename_i h1; cases h; exact .inr ⟨rfl, _, h1⟩
    · split at h
      · cases h
      · cases h; exact .inl rfl

theorem configure_codes {cfg : Config} {L : Lib} {alg : Int} {y : Err}
    (h : configure cfg L alg = .error y) : y = .unsupportedSigningAlg ∨ y = .sigFail := by
  unfold configure at h
  simp only at h
  split at h
  · cases h
  · split at h
    · split at h
      · cases h; exact .inl rfl
      · repeat' split at h
        all_goals first | (cases h; done) | (cases h; exact .inr rfl)
    · cases h; exact .inl rfl

theorem coseToDer_codes {L : Lib} {k n : Nat} {sig : Bytes} {y : Err}
    (h : (coseToDer L k sig n).1 = .error y) :
    y ∈ [Err.sigVerify, .insufficientMemory, .sigFail] := by
  unfold coseToDer at h
  simp only at h
  repeat' split at h
  all_goals first | (cases h; done) | (cases h; decide)

theorem ossl_verify_codes {cfg : Config} {L : Lib} {alg : Int} {key : Key} {kid : Option Bytes}
    {hash sig : Bytes} {y : Err} (h : (crypto cfg L).verify alg key kid hash sig = .error y) :
    y ∈ opensslVerifyCodes := by
  change (verify cfg L alg key hash sig).1 = _ at h
  unfold verify at h
  split at h
  · cases h; decide
  cases hk : keyConvert key with
  | error x =>
    rw [hk] at h
    cases h
    rcases keyConvert_codes hk with rfl | rfl <;> decide
  | ok k =>
    rw [hk] at h
    simp only at h
    cases hc : verifyConv cfg L alg k sig with
    | mk r log =>
      rw [hc] at h
      cases r with
      | error x =>
        cases h
        have hc : (verifyConv cfg L alg k sig).1 = .error y := by rw [hc]
        unfold verifyConv at hc
        split at hc
        · have := coseToDer_codes hc
          revert this; cases y <;> decide
        · split at hc
          · cases hc
          · cases hc; decide
      | ok o =>
        simp only at h
        split at h
        · cases h; decide
        · split at h
          · cases h; decide
          · cases hf : configure cfg L alg with
            | error x =>
              rw [hf] at h
              cases h
              rcases configure_codes hf with rfl | rfl <;> decide
            | ok pc =>
              rw [hf] at h
              simp only at h
              repeat' split at h
              all_goals first | (cases h; done) | (cases h; decide)

theorem ossl_verifyEddsa_codes {cfg : Config} {L : Lib} {key : Key} {kid : Option Bytes}
    {tbs sig : Bytes} {y : Err} (h : (crypto cfg L).verifyEddsa key kid tbs sig = .error y) :
    y ∈ opensslVerifyCodes := by
  change (Ossl.verifyEddsa L key tbs sig).1 = _ at h
  unfold Ossl.verifyEddsa at h
  cases hk : keyConvert key with
  | error x =>
    rw [hk] at h
    cases h
    rcases keyConvert_codes hk with rfl | rfl <;> decide
  | ok k =>
    rw [hk] at h
    simp only at h
    repeat' split at h
    all_goals first | (cases h; done) | (cases h; decide)

theorem ossl_sign_codes {cfg : Config} {L : Lib} {alg : Int} {key : Key} {hash : Bytes} {n : Nat}
    {y : Err} (h : (crypto cfg L).sign alg key hash n = .error y) :
    y ∈ Err.unsupportedSigningAlg :: opensslSignCodes ∨ y = .modelUB := by
  change (sign cfg L alg key hash n).1 = _ at h
  unfold sign at h
  split at h
  · cases h; decide
  cases hk : keyConvert key with
  | error x =>
    rw [hk] at h
    cases h
    rcases keyConvert_codes hk with rfl | rfl <;> decide
  | ok k =>
    rw [hk] at h
    simp only at h
    split at h
    · cases h; decide
    · split at h
      · cases h; decide
      · cases hf : configure cfg L alg with
        | error x =>
          rw [hf] at h
          cases h
          rcases configure_codes hf with rfl | rfl <;> decide
        | ok pc =>
          rw [hf] at h
          simp only at h
          repeat' split at h
          all_goals first | (cases h; done) | (cases h; decide)

theorem ossl_signEddsa_codes {cfg : Config} {L : Lib} {key : Key} {tbs : Bytes} {n : Nat}
    {y : Err} (h : (crypto cfg L).signEddsa key tbs n = .error y) : y ∈ opensslSignCodes := by
  change (Ossl.signEddsa L key tbs n).1 = _ at h
  unfold Ossl.signEddsa at h
  cases hk : keyConvert key with
  | error x =>
    rw [hk] at h
    cases h
    rcases keyConvert_codes hk with rfl | rfl <;> decide
  | ok k =>
    rw [hk] at h
    simp only at h
    repeat' split at h
    all_goals first | (cases h; done) | (cases h; decide)

theorem ossl_size_codes {cfg : Config} {L : Lib} {alg : Int} {key : Key} {y : Err}
    (h : (crypto cfg L).sigSize alg key = .error y) :
    y ∈ Err.unsupportedSigningAlg :: opensslSignCodes := by
  change (sigSize cfg L alg key).1 = _ at h
  unfold sigSize at h
  cases hk : keyConvert key with
  | error x =>
    rw [hk] at h
    cases h
    rcases keyConvert_codes hk with rfl | rfl <;> decide
  | ok k =>
    rw [hk] at h
    simp only at h
    repeat' split at h
    all_goals first | (cases h; done) | (cases h; decide)

end Ossl

section Psa
open TCose.Psa

theorem signingError_codes {st : Int} {y : Err} (h : signingError st = some y) :
    y ∈ psaVerifyCodes := by
  unfold signingError at h
  repeat' split at h
  all_goals first | (cases h; done) | (cases h; decide)

theorem hashError_codes {st : Int} {y : Err} (h : hashError st = some y) :
    y ∈ psaVerifyCodes := by
  unfold hashError at h
  repeat' split at h
  all_goals first | (cases h; done) | (cases h; decide)

theorem psa_start_codes {cfg : Config} {L : Lib} {alg : Int} {y : Err}
    (h : (crypto cfg L).hashStart alg = .error y) : y ∈ psaVerifyCodes := by
  change hashStart cfg L alg = _ at h
  unfold hashStart at h
  split at h
  · rename_i x hx; cases h; exact hashError_codes hx
  · cases h

theorem psa_finish_codes {cfg : Config} {L : Lib} {hh : HashCtx L} {n : Nat} {y : Err}
    (h : (crypto cfg L).hashFinish hh n = .error y) : y ∈ psaVerifyCodes := by
  change (hashFinishLog L hh n).1 = _ at h
  unfold hashFinishLog at h
  split at h
  · simp only at h
    split at h
    · rename_i x hx; cases h; exact hashError_codes hx
    · cases h
  · simp only at h
    split at h
    · rename_i x hx; cases h; exact hashError_codes hx
    · cases h

theorem psa_verify_codes {cfg : Config} {L : Lib} {alg : Int} {key : Key} {kid : Option Bytes}
    {hash sig : Bytes} {y : Err} (h : (crypto cfg L).verify alg key kid hash sig = .error y) :
    y ∈ psaVerifyCodes := by
  change verify cfg L alg key hash sig = _ at h
  unfold verify at h
  split at h
  · cases h; decide
  · split at h
    · rename_i x hx; cases h; exact signingError_codes hx
    · cases h

theorem psa_sign_codes {cfg : Config} {L : Lib} {alg : Int} {key : Key} {hash : Bytes} {n : Nat}
    {y : Err} (h : (crypto cfg L).sign alg key hash n = .error y) : y ∈ psaVerifyCodes := by
  change sign cfg L alg key hash n = _ at h
  unfold sign at h
  split at h
  · cases h; decide
  · split at h
    · rename_i x hx; cases h; exact signingError_codes hx
    · cases h

theorem psa_size_codes {cfg : Config} {L : Lib} {alg : Int} {key : Key} {y : Err}
    (h : (crypto cfg L).sigSize alg key = .error y) : y ∈ psaVerifyCodes := by
  change sigSize cfg L alg key = _ at h
  unfold sigSize at h
  split at h
  · cases h; decide
  · split at h
    · rename_i x hx; cases h; exact signingError_codes hx
    · cases h

end Psa

/-! ## Verification -/

variable {cfg : Config} {P : QParams} {C : Crypto} {junk : Junk} {me : VerifyCtx}
  {msg : Bytes} {aad : UB} {pay : VPayload} {want : Bool} {y : Err}

/-- **C68 (decode only).** Without signature verification only codes about the message
are returned, whatever the adapter. -/
theorem C68_decode_only (hP : P.maxTags ≤ 4) (ha : aad.wf) (hp : ∀ p, pay = .detached p → p.wf)
    (hd : Spec.Opt.decodeOnly me.flags = true)
    (h : (verifyInternal cfg P C junk me msg aad pay want).res = .error y) : y ∈ messageCodes := by
  rcases verify_code hP ha hp h with h | ⟨h1, -⟩
  · exact h
  · rw [← opt_decodeOnly, hd] at h1; cases h1

/-- **C68 (verification, OpenSSL).** Every error of verification is one of 17 codes about
the message or one of 8 from the crypto, whatever the library does, if no digest is
longer than the room for it. -/
theorem C68_verify_openssl (L : Ossl.Lib) (hP : P.maxTags ≤ 4) (ha : aad.wf)
    (hp : ∀ p, pay = .detached p → p.wf)
    (hdg : ∀ md, (L.digestFinal md).2.length ≤ digestRoom cfg)
    (h : (verifyInternal cfg P (Ossl.crypto cfg L) junk me msg aad pay want).res = .error y) :
    y ∈ messageCodes ++ opensslVerifyCodes := by
  rw [List.mem_append]
  rcases verify_code hP ha hp h with h | ⟨-, v, x, -, -, h⟩
  · exact .inl h
  · right
    rcases h with ⟨alg, p, a, w, h⟩ | ⟨rfl, -, -⟩ | ⟨alg, kid, hh, s, h⟩ | ⟨kid, t, s, h⟩
    · rcases tbsHash_codes h with rfl | ⟨ha, h⟩ | ⟨hh, h⟩
      · decide
      · have := ossl_start_codes h
        revert this; cases y <;> decide
      · rcases ossl_finish_codes h with rfl | ⟨-, md, h⟩
        · decide
        · rw [maxHashSize_eq] at h
          exact absurd (hdg md) (by omega)
    · decide
    · exact ossl_verify_codes h
    · exact ossl_verifyEddsa_codes h

/-- **C68 (verification, PSA).** -/
theorem C68_verify_psa (L : Psa.Lib) (hP : P.maxTags ≤ 4) (ha : aad.wf)
    (hp : ∀ p, pay = .detached p → p.wf)
    (h : (verifyInternal cfg P (Psa.crypto cfg L) junk me msg aad pay want).res = .error y) :
    y ∈ messageCodes ++ psaVerifyCodes := by
  rw [List.mem_append]
  rcases verify_code hP ha hp h with h | ⟨-, v, x, -, -, h⟩
  · exact .inl h
  · right
    rcases h with ⟨alg, p, a, w, h⟩ | ⟨rfl, -, -⟩ | ⟨alg, kid, hh, s, h⟩ | ⟨kid, t, s, h⟩
    · rcases tbsHash_codes h with rfl | ⟨ha, h⟩ | ⟨hh, h⟩
      · decide
      · exact psa_start_codes h
      · exact psa_finish_codes h
    · decide
    · exact psa_verify_codes h
    · cases h; decide

/-! ## Every one of the codes is returned -/

/-- A message with a signature of the right length nobody made. -/
def badSigMsg (prot unprot : List (Item × Item)) : Bytes :=
  (Item.tag 18 (.arr [.bstr (Item.map prot).enc, .map unprot, .bstr [1],
    .bstr (List.replicate 64 7)])).enc

/-- **C68 (message codes).** Each code about messages is returned for some message, whatever
the adapter. -/
theorem C68_message_codes_occur (C : Crypto) : ∀ y ∈ messageCodes, ∃ me msg pay,
    (∀ p, pay = .detached p → p.wf) ∧
    (verifyInternal Config.full QParams.std C noJunk me msg .nil pay true).res = .error y := by
  have h : ∀ y ∈ messageCodes, y = .sign1Format ∨ y = .cborNotWellFormed ∨ y = .parameterCbor ∨
      y = .noKid ∨ y = .shortCircuitSig ∨ y = .cborFormatting ∨ y = .tooManyParameters ∨
      y = .unknownCriticalParameter ∨ y = .nonIntegerAlgId ∨ y = .badContentType ∨
      y = .incorrectlyTagged ∨ y = .duplicateParameter ∨ y = .parameterNotProtected ∨
      y = .critParameter ∨ y = .tooManyTags ∨ y = .needAuxiliaryBuffer ∨
      y = .auxiliaryBufferSize := by
    intro y hy; revert hy; cases y <;> decide
  intro y hy
  rcases h y hy with rfl | rfl | rfl | rfl | rfl | rfl | rfl | rfl | rfl | rfl | rfl | rfl | rfl | rfl |
    rfl | rfl | rfl
  · exact ⟨VerifyCtx.init 0, [], .inline true, fun _ h => (by cases h), rfl⟩
  · exact ⟨VerifyCtx.init 0, [0xff], .inline true, fun _ h => (by cases h), rfl⟩
  · exact ⟨VerifyCtx.init 0, [0x84], .inline true, fun _ h => (by cases h), rfl⟩
  · exact ⟨VerifyCtx.init 2, badSigMsg es256Hdr [], .inline true, fun _ h => (by cases h), rfl⟩
  · exact ⟨VerifyCtx.init 0, badSigMsg es256Hdr [(.uint 4, .bstr scKid)], .inline true, fun _ h => (by cases h), rfl⟩
  · exact ⟨VerifyCtx.init 0, badSigMsg es256Hdr [], .detached (.data [1]), fun _ h => (by cases h; rfl), rfl⟩
  · exact ⟨VerifyCtx.init 0, badSigMsg es256Hdr ((List.range 11).map fun i => (.uint (100 + i), .uint 0)),
      .inline true, fun _ h => (by cases h), rfl⟩
  · exact ⟨VerifyCtx.init 0,
      badSigMsg (es256Hdr ++ [(.uint 2, .arr [.uint 100]), (.uint 100, .uint 0)]) [], .inline true, fun _ h => (by cases h), rfl⟩
  · exact ⟨VerifyCtx.init 0, badSigMsg [(.uint 1, .uint 2147483648)] [], .inline true, fun _ h => (by cases h), rfl⟩
  · exact ⟨VerifyCtx.init 0, badSigMsg es256Hdr [(.uint 3, .uint 65536)], .inline true, fun _ h => (by cases h), rfl⟩
  · exact ⟨VerifyCtx.init 16, badSigMsg es256Hdr [], .inline true, fun _ h => (by cases h), rfl⟩
  · exact ⟨VerifyCtx.init 0, badSigMsg (es256Hdr ++ [(.uint 4, .bstr [1])]) [(.uint 4, .bstr [1])],
      .inline true, fun _ h => (by cases h), rfl⟩
  · exact ⟨VerifyCtx.init 0, badSigMsg [] es256Hdr, .inline true, fun _ h => (by cases h), rfl⟩
  · exact ⟨VerifyCtx.init 0, badSigMsg (es256Hdr ++ [(.uint 2, .uint 1)]) [], .inline true, fun _ h => (by cases h), rfl⟩
  · exact ⟨VerifyCtx.init 0, [0xd8, 50, 0xd8, 51, 0xd8, 52, 0xd8, 53, 0xd8, 54, 0x80], .inline true, fun _ h => (by cases h), rfl⟩
  · exact ⟨VerifyCtx.init 0, badSigMsg [(.uint 1, .nint 7)] [], .inline true, fun _ h => (by cases h), rfl⟩
  · exact ⟨{ VerifyCtx.init 0 with aux := .buf [0] }, badSigMsg [(.uint 1, .nint 7)] [], .inline true, fun _ h => (by cases h), rfl⟩

/-- Verification of a message with the OpenSSL adapter. -/
abbrev osslVerify (L : Ossl.Lib) (key : Key) (msg : Bytes) : Except Err Unit :=
  (verifyInternal Config.full QParams.std (Ossl.crypto Config.full L) noJunk
    { VerifyCtx.init 0 with key := key } msg .nil (.inline true) true).res

abbrev psaVerify (L : Psa.Lib) (msg : Bytes) : Except Err Unit :=
  (verifyInternal Config.full QParams.std (Psa.crypto Config.full L) noJunk
    { VerifyCtx.init 0 with key := ⟨.psa, 5⟩ } msg .nil (.inline true) true).res

theorem demo_digest_fits (md : Int × Bytes) : ((Ossl.demoLib 256).digestFinal md).2.length ≤ 64 := by
  show (List.replicate _ _).length ≤ 64
  rw [List.length_replicate]
  unfold Ossl.digestLen
  repeat' split
  all_goals decide

/-- Some verification in the full build with an OpenSSL library whose digests fit their
buffer returns the code. -/
def OpensslReturns (y : Err) : Prop :=
  ∃ (L : Ossl.Lib) (junk : Junk) (me : VerifyCtx) (msg : Bytes) (aad : UB) (pay : VPayload)
    (want : Bool), (∀ md, (L.digestFinal md).2.length ≤ 64) ∧ aad.wf ∧
    (∀ p, pay = .detached p → p.wf) ∧
    (verifyInternal Config.full QParams.std (Ossl.crypto Config.full L) junk me msg aad pay want).res =
      .error y

/-- Some verification in the full build with a PSA library returns the code. -/
def PsaReturns (y : Err) : Prop :=
  ∃ (L : Psa.Lib) (junk : Junk) (me : VerifyCtx) (msg : Bytes) (aad : UB) (pay : VPayload)
    (want : Bool), aad.wf ∧ (∀ p, pay = .detached p → p.wf) ∧
    (verifyInternal Config.full QParams.std (Psa.crypto Config.full L) junk me msg aad pay want).res =
      .error y

/-- **C68 (verification with OpenSSL, exactly).** The codes verification with the OpenSSL
adapter returns in the full build are these 25, no more and no fewer. -/
theorem C68_verify_openssl_exact (y : Err) :
    OpensslReturns y ↔ y ∈ messageCodes ++ opensslVerifyCodes := by
  constructor
  · rintro ⟨L, junk, me, msg, aad, pay, want, h1, h2, h3, h4⟩
    exact C68_verify_openssl (cfg := Config.full) L (by decide) h2 h3 h1 h4
  · rw [List.mem_append]
    rintro (hy | hy)
    · obtain ⟨me, msg, pay, hw, h⟩ := C68_message_codes_occur (Ossl.crypto Config.full (Ossl.demoLib 256)) y hy
      exact ⟨_, _, me, msg, .nil, pay, true, demo_digest_fits, rfl, hw, h⟩
    · have key : ∀ (L : Ossl.Lib) (k : Key) (msg : Bytes), (∀ md, (L.digestFinal md).2.length ≤ 64) →
          osslVerify L k msg = .error y → OpensslReturns y := fun L k msg hl h =>
        ⟨L, noJunk, { VerifyCtx.init 0 with key := k }, msg, .nil, .inline true, true, hl, rfl,
          fun p hp => (by cases hp), h⟩
      have h : y = .unsupportedSigningAlg ∨ y = .sigVerify ∨ y = .sigFail ∨ y = .insufficientMemory ∨
          y = .incorrectKeyForLib ∨ y = .emptyKey ∨ y = .unsupportedHash ∨ y = .hashGeneralFail := by
        revert hy; cases y <;> decide
      rcases h with rfl | rfl | rfl | rfl | rfl | rfl | rfl | rfl
      · exact key (Ossl.demoLib 256) ⟨.openssl, 1⟩ (badSigMsg [(.uint 1, .nint 99)] []) demo_digest_fits
          (by decide +kernel)
      · exact key (Ossl.demoLib 256) ⟨.openssl, 1⟩ (badSigMsg es256Hdr []) demo_digest_fits
          (by decide +kernel)
      · exact key { Ossl.demoLib 256 with verifyInit := 0 } ⟨.openssl, 1⟩ (badSigMsg es256Hdr [])
          demo_digest_fits (by decide +kernel)
      · exact key { Ossl.demoLib 256 with ctxNew := false } ⟨.openssl, 1⟩ (badSigMsg es256Hdr [])
          demo_digest_fits (by decide +kernel)
      · exact key (Ossl.demoLib 256) ⟨.psa, 1⟩ (badSigMsg es256Hdr []) demo_digest_fits (by decide +kernel)
      · exact key (Ossl.demoLib 256) ⟨.openssl, 0⟩ (badSigMsg es256Hdr []) demo_digest_fits
          (by decide +kernel)
      · exact key { Ossl.demoLib 256 with digestByNid := fun _ => false } ⟨.openssl, 1⟩
          (badSigMsg es256Hdr []) demo_digest_fits (by decide +kernel)
      · exact key { Ossl.demoLib 256 with digestUpdate := fun md _ => (0, md) } ⟨.openssl, 1⟩
          (badSigMsg es256Hdr []) demo_digest_fits (by decide +kernel)

/-- **C68 (verification with PSA, exactly).** -/
theorem C68_verify_psa_exact (y : Err) :
    PsaReturns y ↔ y ∈ messageCodes ++ psaVerifyCodes := by
  constructor
  · rintro ⟨L, junk, me, msg, aad, pay, want, h2, h3, h4⟩
    exact C68_verify_psa L (by decide) h2 h3 h4
  · rw [List.mem_append]
    rintro (hy | hy)
    · obtain ⟨me, msg, pay, hw, h⟩ := C68_message_codes_occur
        (Psa.crypto Config.full (Psa.demoPsa fun _ => false)) y hy
      exact ⟨_, _, me, msg, .nil, pay, true, rfl, hw, h⟩
    · have key : ∀ (L : Psa.Lib) (msg : Bytes), psaVerify L msg = .error y → PsaReturns y := fun L msg h =>
        ⟨L, noJunk, { VerifyCtx.init 0 with key := ⟨.psa, 5⟩ }, msg, .nil, .inline true, true, rfl,
          fun p hp => (by cases hp), h⟩
      have h : y = .unsupportedSigningAlg ∨ y = .sigVerify ∨ y = .sigFail ∨ y = .insufficientMemory ∨
          y = .tamperingDetected ∨ y = .unsupportedHash ∨ y = .hashGeneralFail ∨ y = .hashBufferSize := by
        revert hy; cases y <;> decide
      rcases h with rfl | rfl | rfl | rfl | rfl | rfl | rfl | rfl
      · exact key (Psa.demoPsa fun _ => false) (badSigMsg [(.uint 1, .nint 99)] []) (by decide +kernel)
      · exact key (Psa.demoPsa fun _ => false) (badSigMsg es256Hdr []) (by decide +kernel)
      · exact key { Psa.demoPsa (fun _ => false) with verifyHash := fun _ _ _ _ => -132 }
          (badSigMsg es256Hdr []) (by decide +kernel)
      · exact key { Psa.demoPsa (fun _ => false) with verifyHash := fun _ _ _ _ => -141 }
          (badSigMsg es256Hdr []) (by decide +kernel)
      · exact key { Psa.demoPsa (fun _ => false) with verifyHash := fun _ _ _ _ => -151 }
          (badSigMsg es256Hdr []) (by decide +kernel)
      · exact key { Psa.demoPsa (fun _ => false) with hashSetup := fun a => (-134, (a, [])) }
          (badSigMsg es256Hdr []) (by decide +kernel)
      · exact key (Psa.demoPsa fun _ => true) (badSigMsg es256Hdr []) (by decide +kernel)
      · exact key { Psa.demoPsa (fun _ => false) with hashFinish := fun _ _ => (-138, []) }
          (badSigMsg es256Hdr []) (by decide +kernel)

/-! ## Signing -/

/- A library of each kind that meets the hypotheses. -/
example : (∀ md, ((Ossl.demoLib 256).digestFinal md).2.length ≤ digestRoom Config.full) ∧
    (∀ md, ((Ossl.demoLib 256).digestFinal md).2.length ≤ 64) ∧
    Spec.Psa.Fits (Psa.demoPsa fun _ => true) :=
  ⟨demo_digest_fits, demo_digest_fits, Psa.demoPsa_fits _⟩

theorem ossl_finish_ne {L : Ossl.Lib} (hnz : ∀ md, (L.digestFinal md).1 ≠ 0 → (L.digestFinal md).2 ≠ []) :
    ∀ hh n d, (Ossl.crypto cfg L).hashFinish hh n = .ok d → d ≠ [] := by
  intro hh n d h
  change (Ossl.hashFinish L hh n).1 = _ at h
  unfold Ossl.hashFinish at h
  simp only at h
  repeat' split at h
  all_goals first | (cases h; done) | skip
  rename_i h1
  cases h
  exact hnz _ h1

theorem psa_finish_ne {L : Psa.Lib} (hL : Spec.Psa.Fits L) :
    ∀ hh n d, (Psa.crypto cfg L).hashFinish hh n = .ok d → d ≠ [] := by
  intro hh n d h
  change (Psa.hashFinishLog L hh n).1 = _ at h
  unfold Psa.hashFinishLog at h
  split at h
  · rename_i h1
    simp only at h
    split at h
    · cases h
    · rename_i hx
      have := hashError_none.mp hx
      exact absurd this h1
  · simp only at h
    split at h
    · cases h
    · rename_i hx
      cases h
      exact (hL.hash _ _ (hashError_none.mp hx)).1

/-- **C68 (signing, OpenSSL).** The errors of signing with the OpenSSL adapter are codes of
signing, none about messages received; or undefined behaviour (`modelUB`: a digest
longer than its buffer, or a signature conversion outside of its buffer: findings on
C37 and C38). -/
theorem C68_sign_openssl (L : Ossl.Lib) (me : SignCtx) (det : Bool) (payload aad : UB) (out : Mem)
    (hnz : ∀ md, (L.digestFinal md).1 ≠ 0 → (L.digestFinal md).2 ≠ [])
    (h : (signAadInternal cfg (Ossl.crypto cfg L) me det payload aad out).1 = .error y) :
    y ∈ ownSignCodes ++ opensslSignCodes ∨ y = .modelUB := by
  rw [List.mem_append]
  rcases signAad_code (ossl_finish_ne hnz) h with h | h | h | h | h
  · exact .inl (.inl h)
  · obtain ⟨p, a, w, h⟩ := h
    rcases tbsHash_codes h with rfl | ⟨ha, h⟩ | ⟨hh, h⟩
    · decide
    · have := ossl_start_codes h
      revert this; cases y <;> decide
    · rcases ossl_finish_codes h with rfl | ⟨rfl, -⟩
      · decide
      · exact .inr rfl
  · have := ossl_size_codes h
    revert this; cases y <;> decide
  · obtain ⟨hh, n, h⟩ := h
    have := ossl_sign_codes h
    revert this; cases y <;> decide
  · obtain ⟨t, n, h⟩ := h
    exact .inl (.inr (ossl_signEddsa_codes h))

/-- **C68 (signing, PSA).** -/
theorem C68_sign_psa (L : Psa.Lib) (me : SignCtx) (det : Bool) (payload aad : UB) (out : Mem)
    (hL : Spec.Psa.Fits L)
    (h : (signAadInternal cfg (Psa.crypto cfg L) me det payload aad out).1 = .error y) :
    y ∈ ownSignCodes ++ psaSignCodes := by
  rw [List.mem_append]
  rcases signAad_code (psa_finish_ne hL) h with h | h | h | h | h
  · exact .inl h
  · obtain ⟨p, a, w, h⟩ := h
    rcases tbsHash_codes h with rfl | ⟨ha, h⟩ | ⟨hh, h⟩
    · decide
    · exact .inr (psa_start_codes h)
    · exact .inr (psa_finish_codes h)
  · exact .inr (psa_size_codes h)
  · obtain ⟨hh, n, h⟩ := h
    exact .inr (psa_sign_codes h)
  · obtain ⟨t, n, h⟩ := h
    cases h; decide

/-! ## Codes about messages come from t_cose alone -/

theorem openssl_quiet (cfg : Config) (L : Ossl.Lib) : Quiet (Ossl.crypto cfg L) where
  start := fun a y hy h => by have := ossl_start_codes h; revert hy this; cases y <;> decide
  finish := fun hh n y hy h => by
    rcases ossl_finish_codes h with rfl | ⟨rfl, -⟩ <;> exact absurd hy (by decide)
  verify := fun a k kid d s y hy h => by
    have := ossl_verify_codes h; revert hy this; cases y <;> decide
  verifyEddsa := fun k kid t s y hy h => by
    have := ossl_verifyEddsa_codes h; revert hy this; cases y <;> decide

theorem psa_quiet (cfg : Config) (L : Psa.Lib) : Quiet (Psa.crypto cfg L) where
  start := fun a y hy h => by have := psa_start_codes h; revert hy this; cases y <;> decide
  finish := fun hh n y hy h => by have := psa_finish_codes h; revert hy this; cases y <;> decide
  verify := fun a k kid d s y hy h => by
    have := psa_verify_codes h; revert hy this; cases y <;> decide
  verifyEddsa := fun k kid t s y hy h => by cases h; exact absurd hy (by decide)

/-! ## Documented codes that are never returned -/

/-- The documentation of `enum t_cose_err_t` (inc/t_cose/t_cose_common.h:250-410) has codes
for a missing algorithm, for short-circuit signatures that do not verify, for
protected parameters that cannot be made, for wrong arguments, keys that are not
found or of another type, and for a failed Sig_structure. -/
def unusedCodes : List Err :=
  [.noAlgId, .badShortCircuitKid, .makingProtected, .invalidArgument, .fail, .unknownKey,
   .wrongTypeOfKey, .sigStruct]

/-- **C68, the documentation is wrong**: none of these codes is ever returned, by
verification or signing, with either adapter. -/
theorem C68_never (hy : y ∈ unusedCodes) (hP : P.maxTags ≤ 4) (ha : aad.wf)
    (hp : ∀ p, pay = .detached p → p.wf) :
    (∀ L : Ossl.Lib, (∀ md, (L.digestFinal md).2.length ≤ digestRoom cfg) →
      (verifyInternal cfg P (Ossl.crypto cfg L) junk me msg aad pay want).res ≠ .error y) ∧
    (∀ L : Psa.Lib, (verifyInternal cfg P (Psa.crypto cfg L) junk me msg aad pay want).res ≠ .error y) ∧
    (∀ (L : Ossl.Lib) (sc : SignCtx) (det : Bool) (payload a : UB) (out : Mem),
      (∀ md, (L.digestFinal md).1 ≠ 0 → (L.digestFinal md).2 ≠ []) →
      (signAadInternal cfg (Ossl.crypto cfg L) sc det payload a out).1 ≠ .error y) ∧
    ∀ (L : Psa.Lib) (sc : SignCtx) (det : Bool) (payload a : UB) (out : Mem), Spec.Psa.Fits L →
      (signAadInternal cfg (Psa.crypto cfg L) sc det payload a out).1 ≠ .error y := by
  refine ⟨fun L hd h => ?_, fun L h => ?_, fun L sc det payload a out hz h => ?_,
    fun L sc det payload a out hf h => ?_⟩
  · have := C68_verify_openssl L hP ha hp hd h
    revert hy this; cases y <;> decide
  · have := C68_verify_psa L hP ha hp h
    revert hy this; cases y <;> decide
  · have := C68_sign_openssl L sc det payload a out hz h
    revert hy this; cases y <;> decide
  · have := C68_sign_psa L sc det payload a out hf h
    revert hy this; cases y <;> decide

theorem read_noAlg {noCt : Bool} {m : Message} {k : Known} (ha : Header.get m.prot 1 = none)
    (h : m.read noCt = .ok k) : k.alg = 0 := by
  have key : ∀ (prot : Bool) (hd : Header) (o n : Known), (prot = true → Header.get hd 1 = none) →
      readHeader noCt prot hd o = .ok n → n.alg = o.alg := by
    intro prot hd o n hp h
    unfold readHeader at h
    split at h
    · cases h
    split at h
    · cases h
    rename_i alg halg
    have e : alg = o.alg := by
      unfold readAlg at halg
      split at halg
      · cases halg; rfl
      · rename_i x hx
        cases prot with
        | true => rw [hp rfl] at hx; cases hx
        | false => rw [if_pos rfl] at halg; cases halg
    subst e
    repeat' split at h
    all_goals first | (cases h; done) | (cases h; rfl)
  unfold Message.read at h
  split at h
  · cases h
  · rename_i k1 h1
    rw [key _ _ _ _ (by simp) h, key _ _ _ _ (fun _ => ha) h1]
    rfl

variable {m : Message} {pb : Bytes} {k : Known}

theorem shown_no_alg (hP : P.maxTags ≤ 4) (he : m.Encoded pb msg) (hf : m.Fits P msg)
    {m' : Message} (hs : ShownMsg P m m') (hargs : ArgsOk aad pay)
    (htag : TagPolicy me.flags m.tags.reverse) (hr : m'.read cfg.disableContentType = .ok k)
    (hpf : m'.payloadFault pay.isDetached = none)
    (hkid : Spec.Opt.requireKid me.flags = true → k.kid ≠ none)
    (hcrit : Spec.Opt.unknownCritAllowed me.flags = true ∨ ¬ k.blocked)
    (hsc : Spec.Opt.allowShortCircuit me.flags = true ∨ k.kid ≠ some scKid)
    (hd : Spec.Opt.decodeOnly me.flags = false) (ha : Header.get m'.prot 1 = none) :
    (verifyInternal cfg P C junk me msg aad pay want).res = .error .unsupportedSigningAlg := by
  have hk := read_noAlg ha hr
  have hh : hashFor cfg 0 = none := by
    unfold hashFor
    split
    · rfl
    · rfl
  rw [shown_hash cfg P C junk me m pb msg aad pay want hP he hf hs hargs
    (fun _ => .error .unsupportedSigningAlg) (by
    intro k' h1
    rw [hr] at h1
    cases h1
    rw [createTbsHash_eq, if_pos (hashFor_none.mp (by rw [hk]; exact hh))])]
  have htags : m'.tags = m.tags := by rw [hs.same]
  unfold verdict
  rw [if_neg (by rw [htags]; simpa using htag), hr]
  simp only
  rw [hpf]
  simp only
  unfold settle
  rw [if_neg (fun h => hkid h.1 h.2), if_neg (fun h => by
    rcases hcrit with h' | h'
    · rw [h.1] at h'; cases h'
    · exact h' h.2), hk]
  simp only [hd, Bool.false_eq_true, if_false]
  split
  · rename_i h1
    rcases hsc with h' | h'
    · rw [h']; rfl
    · exact absurd h1.2 h'
  · rw [if_neg (by intro h; exact absurd h.2 (by decide))]

/-- **C68 (no algorithm).** A message without an algorithm that has no other fault is
refused with UNSUPPORTED_SIGNING_ALG, whatever the adapter. -/
theorem C68_no_alg (hP : P.maxTags ≤ 4) (he : m.Encoded pb msg) (hf : m.Fits P msg)
    (hp : Header.Plain m.prot) (hu : Header.Plain m.unprot) (hargs : ArgsOk aad pay)
    (htag : TagPolicy me.flags m.tags.reverse) (hr : m.read cfg.disableContentType = .ok k)
    (hpf : m.payloadFault pay.isDetached = none)
    (hkid : Spec.Opt.requireKid me.flags = true → k.kid ≠ none)
    (hcrit : Spec.Opt.unknownCritAllowed me.flags = true ∨ ¬ k.blocked)
    (hsc : Spec.Opt.allowShortCircuit me.flags = true ∨ k.kid ≠ some scKid)
    (hd : Spec.Opt.decodeOnly me.flags = false) (ha : Header.get m.prot 1 = none) :
    (verifyInternal cfg P C junk me msg aad pay want).res = .error .unsupportedSigningAlg :=
  shown_no_alg hP he hf (plain_msg he hf hp hu) hargs htag hr hpf hkid hcrit hsc hd ha

/- The message [h'', {}, h'01', h''], and what OpenSSL and PSA make of it. -/
example : (⟨[], [], [], some [1], []⟩ : Message).Encoded [] [0x84, 0x40, 0xa0, 0x41, 1, 0x40] ∧
    (⟨[], [], [], some [1], []⟩ : Message).Fits QParams.std [0x84, 0x40, 0xa0, 0x41, 1, 0x40] ∧
    Message.read false ⟨[], [], [], some [1], []⟩ = .ok Known.nothing ∧ ¬ Known.nothing.blocked ∧
    osslVerify (Ossl.demoLib 256) ⟨.openssl, 1⟩ [0x84, 0x40, 0xa0, 0x41, 1, 0x40] =
      .error .unsupportedSigningAlg ∧
    psaVerify (Psa.demoPsa fun _ => false) [0x84, 0x40, 0xa0, 0x41, 1, 0x40] =
      .error .unsupportedSigningAlg := by
  refine ⟨⟨.inl ⟨rfl, rfl⟩, ?_⟩, ⟨by decide, by decide, by decide, by decide⟩, by decide +kernel,
    by decide +kernel, by decide +kernel, by decide +kernel⟩
  exact .arr (h := [0x84]) (bss := [[0x40], [0xa0], [0x41, 1], [0x40]]) (.direct (by decide))
    (.cons (.bstr (h := [0x40]) (.direct (by decide)))
      (.cons (.map (h := [0xa0]) (bss := []) (.direct (by decide)) .nil)
        (.cons (.bstr (h := [0x41]) (.direct (by decide)))
          (.cons (.bstr (h := [0x40]) (.direct (by decide))) .nil))))

/- A short-circuit signature that does not match gives SIG_VERIFY. -/
example : (verifyInternal Config.full QParams.std toyCrypto noJunk (VerifyCtx.init 1)
    (badSigMsg es256Hdr [(.uint 4, .bstr scKid)]) .nil (.inline true) true).res = .error .sigVerify := by
  decide +kernel

end TCose.Props
