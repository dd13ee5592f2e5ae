import Verif.Props.Reference
import Verif.Props.AnyAdapters
import Verif.Props.AllCodes

/-!
# C91 with OpenSSL and PSA

What the verification comes to for any octets with the two adapters for real libraries, whatever
the libraries report.
-/

namespace TCose.Props
open TCose Spec

variable (cfg : Config) (P : QParams) (C : Crypto) (junk : Junk)
  (me : VerifyCtx) (msg : Bytes) (aad : UB) (pay : VPayload) (want : Bool)

variable {cfg C aad pay} in
/-- The reference program asks for no hash but of payloads that are the detached one, or found in the
message. -/
theorem verifyAt_digest {g : Found4 → Int → Except Err Bytes}
    (hg : ∀ f : Found4, (pay.buffer f.payload).bytes = f.payload →
      createTbsHash cfg C f.known.alg (.data f.prot) aad (pay.buffer f.payload) (maxHashSize cfg) =
        g f f.known.alg) :
    verifyAt cfg P C me msg aad pay g = verifyAt cfg P C me msg aad pay (fun f alg =>
      createTbsHash cfg C alg (.data f.prot) aad (pay.buffer f.payload) (maxHashSize cfg)) := by
  unfold verifyAt
  split
  · rfl
  cases e : readItem P.maxTags 15 msg with
  | none => rfl
  | some p =>
    obtain ⟨x, r⟩ := p
    simp only
    cases headerAt P x with
    | none => rfl
    | some hp =>
      simp only
      congr 1
      unfold itemOutcome
      cases hx : arrayOf P x with
      | error e => rfl
      | ok xs =>
        simp only
        split
        · rfl
        cases hra : readArray P cfg.disableContentType pay.octets xs hp (!r.isEmpty) with
        | error y => rfl
        | ok f =>
          simp only
          obtain ⟨h0, h2, -⟩ := (readArray_ok P).mp hra
          exact (settle_digest cfg C me (hg f (payloadAt_buffer h2)) _ _).symm

/-- **C91 (OpenSSL).** With the OpenSSL adapter, whatever the library's calls report: the reference
program with `Spec.Ossl.hashRun` for the hash, over parts that make up what was signed. -/
theorem C91_openssl (L : Ossl.Lib) (hdg : ∀ md, (L.digestFinal md).2.length ≤ digestRoom cfg)
    (hP : P.maxTags ≤ 4) (hl : P.Local) (hargs : ArgsOk aad pay) :
    ∃ parts : Found4 → List Bytes,
      (∀ f, (pay.buffer f.payload).bytes = f.payload →
        (parts f).flatten = sigStructure f.prot aad.bytes f.payload) ∧
      match verifyAt cfg P (Ossl.crypto cfg L) me msg aad pay (fun f alg =>
          match hashFor cfg alg with
          | none => .error .unsupportedSigningAlg
          | some h => Spec.Ossl.hashRun L h (parts f)) with
      | some res => (verifyInternal cfg P (Ossl.crypto cfg L) junk me msg aad pay want).res = res
      | none => ∃ e, (verifyInternal cfg P (Ossl.crypto cfg L) junk me msg aad pay want).res = .error e := by
  have hpw : ∀ f : Found4, (pay.buffer f.payload).wf := by
    intro f
    cases pay with
    | inline w => rfl
    | detached p => exact hargs.2 p rfl
  have key := fun f : Found4 =>
    C66_openssl_hash (.data f.prot) aad (pay.buffer f.payload) rfl hargs.1 (hpw f)
  refine ⟨fun f => (key f).choose, ?_, ?_⟩
  · intro f hb
    rw [(key f).choose_spec.1, hb]
    rfl
  · rw [verifyAt_digest]
    · exact C91_reference cfg P _ junk me msg aad pay want hP hl hargs
    · intro f _
      rw [maxHashSize_eq, (key f).choose_spec.2 cfg L f.known.alg (digestRoom cfg) hdg]
      cases hashFor cfg f.known.alg <;> rfl

/-- **C91 (PSA).** The same with the PSA adapter, for every library. -/
theorem C91_psa (L : Psa.Lib) (hP : P.maxTags ≤ 4) (hl : P.Local) (hargs : ArgsOk aad pay) :
    ∃ parts : Found4 → List Bytes,
      (∀ f, (pay.buffer f.payload).bytes = f.payload →
        (parts f).flatten = sigStructure f.prot aad.bytes f.payload) ∧
      match verifyAt cfg P (Psa.crypto cfg L) me msg aad pay (fun f alg =>
          match hashFor cfg alg with
          | none => .error .unsupportedSigningAlg
          | some h => Spec.Psa.coded Spec.Psa.hashTableCodes .hashGeneralFail
              (Spec.Psa.hashRun L (Spec.Psa.hashTable h) (parts f) (digestRoom cfg)).1
              (Spec.Psa.hashRun L (Spec.Psa.hashTable h) (parts f) (digestRoom cfg)).2) with
      | some res => (verifyInternal cfg P (Psa.crypto cfg L) junk me msg aad pay want).res = res
      | none => ∃ e, (verifyInternal cfg P (Psa.crypto cfg L) junk me msg aad pay want).res = .error e := by
  have hpw : ∀ f : Found4, (pay.buffer f.payload).wf := by
    intro f
    cases pay with
    | inline w => rfl
    | detached p => exact hargs.2 p rfl
  have key := fun f : Found4 =>
    C66_psa_hash (.data f.prot) aad (pay.buffer f.payload) rfl hargs.1 (hpw f)
  refine ⟨fun f => (key f).choose, ?_, ?_⟩
  · intro f hb
    rw [(key f).choose_spec.1, hb]
    rfl
  · rw [verifyAt_digest]
    · exact C91_reference cfg P _ junk me msg aad pay want hP hl hargs
    · intro f _
      rw [maxHashSize_eq, (key f).choose_spec.2 cfg L f.known.alg]
      cases hashFor cfg f.known.alg <;> rfl

/-- The hypotheses hold of a library whose digests fit; a message for which it has no memory, and one
that is cut off. -/
example : (∀ md, ((Ossl.demoLib 256).digestFinal md).2.length ≤ digestRoom Config.full) ∧
    QParams.std.maxTags ≤ 4 ∧ QParams.std.Local ∧ ArgsOk .nil (.inline true) ∧
    (sign1Verify Config.full QParams.std (Ossl.crypto Config.full { Ossl.demoLib 256 with
      mdCtxNew := false }) noJunk (VerifyCtx.init 32) sampleEnc true false).res =
        .error .insufficientMemory ∧
    (sign1Verify Config.full QParams.std (Psa.crypto Config.full (Psa.demoPsa fun _ => true)) noJunk
      (VerifyCtx.init 32) sampleEnc true false).res = .error .hashGeneralFail ∧
    (readItem 4 15 (sampleEnc.take 20)).isNone = true := by
  refine ⟨demo_digest_fits, by decide, fun _ _ _ => rfl, ⟨rfl, nofun⟩, by decide +kernel,
    by decide +kernel, by decide +kernel⟩

end TCose.Props
