import Verif.Props.WholeEffect
import Verif.Props.ReferenceAdapters

/-!
# C95 with OpenSSL and PSA

Everything verification does with any octets, with the two adapters for real libraries, whatever the libraries report.
-/

namespace TCose.Props
open TCose Spec

variable (cfg : Config) (P : QParams) (C : Crypto) (junk : Junk)
  (me : VerifyCtx) (msg : Bytes) (aad : UB) (pay : VPayload) (want : Bool)

variable {cfg P C me msg aad pay want} in
/-- The reference program asks for no hash but of payloads that are the detached one, or found in the message. -/
theorem effectAll_digest {g g' : Found4 → Int → Except Err Bytes}
    (hg : ∀ f : Found4, (pay.buffer f.payload).bytes = f.payload → g f f.known.alg = g' f f.known.alg) :
    effectAll cfg P C me msg aad pay want g = effectAll cfg P C me msg aad pay want g' := by
  unfold effectAll
  split
  · rfl
  cases hm : messageAt P msg with
  | error e => rfl
  | ok q =>
    obtain ⟨ts, xs, last, fin⟩ := q
    simp only
    split
    · rfl
    cases hra : readAll P cfg.disableContentType pay.octets xs last fin with
    | error y => rfl
    | ok f =>
      simp only
      rw [settle_digest cfg C me (hg f (payloadAt_buffer (readAll_found hm hra).2.2.1))]

/-- **C95 (OpenSSL).** With the OpenSSL adapter, whatever the library's calls report: the result for any octets and
everything stored is what the reference program computes with `Spec.Ossl.hashRun` for the hash, over parts that make
up what was signed. -/
theorem C95_openssl (L : Ossl.Lib) (hdg : ∀ md, (L.digestFinal md).2.length ≤ digestRoom cfg)
    (hP : P.maxTags ≤ 4) (hl : P.Local) (hargs : ArgsOk aad pay) :
    ∃ parts : Found4 → List Bytes,
      (∀ f, (parts f).flatten = sigStructure f.prot aad.bytes f.payload) ∧
      effectOf (verifyInternal cfg P (Ossl.crypto cfg L) junk me msg aad pay want) =
        effectAll cfg P (Ossl.crypto cfg L) me msg aad pay want (fun f alg =>
          match hashFor cfg alg with
          | none => .error .unsupportedSigningAlg
          | some h => Spec.Ossl.hashRun L h (parts f)) := by
  have hpw : ∀ f : Found4, (pay.buffer f.payload).wf := by
    intro f
    cases pay with
    | inline w => rfl
    | detached p => exact hargs.2 p rfl
  have key := fun f : Found4 =>
    C66_openssl_hash (.data f.prot) aad (pay.buffer f.payload) rfl hargs.1 (hpw f)
  refine ⟨fun f => if (pay.buffer f.payload).bytes = f.payload then (key f).choose
    else [sigStructure f.prot aad.bytes f.payload], ?_, ?_⟩
  · intro f
    by_cases hb : (pay.buffer f.payload).bytes = f.payload
    · simp only [if_pos hb]
      rw [(key f).choose_spec.1, hb]
      rfl
    · simp only [if_neg hb]
      simp
  · rw [(C95_everything cfg P _ junk me msg aad pay want hP hl hargs).1]
    refine effectAll_digest ?_
    intro f hb
    simp only [if_pos hb]
    rw [maxHashSize_eq, (key f).choose_spec.2 cfg L f.known.alg (digestRoom cfg) hdg]
    cases hashFor cfg f.known.alg <;> rfl

/-- **C95 (PSA).** The same with the PSA adapter, for every library. -/
theorem C95_psa (L : Psa.Lib) (hP : P.maxTags ≤ 4) (hl : P.Local) (hargs : ArgsOk aad pay) :
    ∃ parts : Found4 → List Bytes,
      (∀ f, (parts f).flatten = sigStructure f.prot aad.bytes f.payload) ∧
      effectOf (verifyInternal cfg P (Psa.crypto cfg L) junk me msg aad pay want) =
        effectAll cfg P (Psa.crypto cfg L) me msg aad pay want (fun f alg =>
          match hashFor cfg alg with
          | none => .error .unsupportedSigningAlg
          | some h => Spec.Psa.coded Spec.Psa.hashTableCodes .hashGeneralFail
              (Spec.Psa.hashRun L (Spec.Psa.hashTable h) (parts f) (digestRoom cfg)).1
              (Spec.Psa.hashRun L (Spec.Psa.hashTable h) (parts f) (digestRoom cfg)).2) := by
  have hpw : ∀ f : Found4, (pay.buffer f.payload).wf := by
    intro f
    cases pay with
    | inline w => rfl
    | detached p => exact hargs.2 p rfl
  have key := fun f : Found4 =>
    C66_psa_hash (.data f.prot) aad (pay.buffer f.payload) rfl hargs.1 (hpw f)
  refine ⟨fun f => if (pay.buffer f.payload).bytes = f.payload then (key f).choose
    else [sigStructure f.prot aad.bytes f.payload], ?_, ?_⟩
  · intro f
    by_cases hb : (pay.buffer f.payload).bytes = f.payload
    · simp only [if_pos hb]
      rw [(key f).choose_spec.1, hb]
      rfl
    · simp only [if_neg hb]
      simp
  · rw [(C95_everything cfg P _ junk me msg aad pay want hP hl hargs).1]
    refine effectAll_digest ?_
    intro f hb
    simp only [if_pos hb]
    rw [maxHashSize_eq, (key f).choose_spec.2 cfg L f.known.alg]
    cases hashFor cfg f.known.alg <;> rfl

/-- What is stored when the library has no memory, and when a PSA hash call fails: no parameters, no payload; the tags
in the context are those of the message. -/
example : (∀ md, ((Ossl.demoLib 256).digestFinal md).2.length ≤ digestRoom Config.full) ∧
    QParams.std.maxTags ≤ 4 ∧ QParams.std.Local ∧ ArgsOk .nil (.inline true) ∧
    effectOf (sign1Verify Config.full QParams.std (Ossl.crypto Config.full { Ossl.demoLib 256 with
      mdCtxNew := false }) noJunk { VerifyCtx.init 32 with auTags := [1, 2, 3, 4] } sampleEnc true true) =
        .refused .insufficientMemory { VerifyCtx.init 32 with auTags := [noTag, noTag, noTag, noTag] } ∧
    effectOf (sign1Verify Config.full QParams.std (Psa.crypto Config.full (Psa.demoPsa fun _ => true)) noJunk
      { VerifyCtx.init 32 with auTags := [1, 2, 3, 4] } sampleEnc true true) =
        .refused .hashGeneralFail { VerifyCtx.init 32 with auTags := [noTag, noTag, noTag, noTag] } := by
  refine ⟨demo_digest_fits, by decide, fun _ _ _ => rfl, ⟨rfl, nofun⟩, by decide +kernel, by decide +kernel⟩

end TCose.Props
