import Verif.Props.AnyItem
import Verif.Props.RealAdapters

/-!
# C89 with each adapter of the repository

`C89_outcome` supposes an adapter that hashes.  Here is what each adapter makes of anything
read as an item, with nothing to suppose of the test adapter and for whatever OpenSSL and PSA report.
-/

namespace TCose.Props
open TCose Spec

variable (cfg : Config) (P : QParams) (C : Crypto) (junk : Junk)
  (me : VerifyCtx) (x : Item) (b r : Bytes) (aad : UB) (pay : VPayload) (hp : Except Err Header)
  (want : Bool)

theorem item_hash (hP : P.maxTags ≤ 4) (hl : P.Local) (he : Reads P.maxTags 15 x b)
    (hlen : (b ++ r).length ≤ maxMessage) (hh : HeaderIn P x hp) (hargs : ArgsOk aad pay)
    (digest : Found4 → Int → Except Err Bytes)
    (hd : ∀ xs f more, arrayOf P x = .ok xs →
      readArray P cfg.disableContentType pay.octets xs hp more = .ok f →
      (pay.buffer f.payload).bytes = f.payload → (pay.buffer f.payload).wf →
      createTbsHash cfg C f.known.alg (.data f.prot) aad (pay.buffer f.payload) (maxHashSize cfg) =
        digest f f.known.alg) :
    (verifyInternal cfg P C junk me (b ++ r) aad pay want).res =
      itemOutcome cfg P C me x aad pay hp (!r.isEmpty) digest := by
  rw [item_run cfg P C junk me x b r aad pay hp want hP hl he hlen hh hargs]
  unfold itemOutcome
  cases hx : arrayOf P x with
  | error e => rfl
  | ok xs =>
    simp only
    split
    · rfl
    cases hra : readArray P cfg.disableContentType pay.octets xs hp (!r.isEmpty) with
    | error y => rfl
    | ok f =>
      simp only
      refine settle_digest cfg C me ?_ _ _
      refine hd xs f _ hx hra (payloadAt_buffer ((readArray_ok P).mp hra).2.1) ?_
      cases pay with
      | inline w => rfl
      | detached p => exact hargs.2 p rfl

/-- **C89 (test adapter).** With the test adapter nothing is left to suppose: the hash is SHA-256, for
every setting of the test hooks. -/
theorem C89_test (mode : Nat) (fresh : Bytes) (hfr : fresh.length = 64) (hP : P.maxTags ≤ 4)
    (hl : P.Local) (he : Reads P.maxTags 15 x b) (hlen : (b ++ r).length ≤ maxMessage)
    (hh : HeaderIn P x hp) (hargs : ArgsOk aad pay)
    (hN : ∀ xs f more, arrayOf P x = .ok xs →
      readArray P cfg.disableContentType pay.octets xs hp more = .ok f →
      PiecesUpTo (2 ^ 32 - 1) f.prot aad.bytes f.payload) :
    (verifyInternal cfg P (testCrypto cfg mode fresh) junk me (b ++ r) aad pay want).res =
      itemOutcome cfg P (testCrypto cfg mode fresh) me x aad pay hp (!r.isEmpty) fun f =>
        testDigest cfg mode (sigStructure f.prot aad.bytes f.payload) := by
  refine item_hash cfg P _ junk me x b r aad pay hp want hP hl he hlen hh hargs _ ?_
  intro xs f more hx hra hpb hpw
  rw [test_tbs_hash cfg mode fresh hfr f.known.alg (p := .data f.prot) rfl hargs.1 hpw
    (by rw [hpb]; exact hN xs f more hx hra), hpb]
  rfl

/-- **C89 (OpenSSL).** With the OpenSSL adapter, whatever the library's calls report: the hash is that
of `Spec.Ossl.hashRun` over parts that make up what was signed. -/
theorem C89_openssl (L : Ossl.Lib) (hdg : ∀ md, (L.digestFinal md).2.length ≤ digestRoom cfg)
    (hP : P.maxTags ≤ 4) (hl : P.Local) (he : Reads P.maxTags 15 x b)
    (hlen : (b ++ r).length ≤ maxMessage) (hh : HeaderIn P x hp) (hargs : ArgsOk aad pay) :
    ∃ parts : Found4 → List Bytes,
      (∀ xs f more, arrayOf P x = .ok xs →
        readArray P cfg.disableContentType pay.octets xs hp more = .ok f →
        (parts f).flatten = sigStructure f.prot aad.bytes f.payload) ∧
      (verifyInternal cfg P (Ossl.crypto cfg L) junk me (b ++ r) aad pay want).res =
        itemOutcome cfg P (Ossl.crypto cfg L) me x aad pay hp (!r.isEmpty) fun f alg =>
          match hashFor cfg alg with
          | none => .error .unsupportedSigningAlg
          | some h => Spec.Ossl.hashRun L h (parts f) := by
  have hpw : ∀ f : Found4, (pay.buffer f.payload).wf := by
    intro f
    cases pay with
    | inline w => rfl
    | detached p => exact hargs.2 p rfl
  have key := fun f : Found4 =>
    C66_openssl_hash (.data f.prot) aad (pay.buffer f.payload) rfl hargs.1 (hpw f)
  refine ⟨fun f => (key f).choose, ?_, ?_⟩
  · intro xs f more hx hra
    rw [(key f).choose_spec.1, payloadAt_buffer ((readArray_ok P).mp hra).2.1]
    rfl
  · refine item_hash cfg P _ junk me x b r aad pay hp want hP hl he hlen hh hargs _ ?_
    intro xs f more hx hra hpb _
    rw [maxHashSize_eq, (key f).choose_spec.2 cfg L f.known.alg (digestRoom cfg) hdg]
    cases hashFor cfg f.known.alg <;> rfl

/-- **C89 (PSA).** The same with the PSA adapter, for every library. -/
theorem C89_psa (L : Psa.Lib) (hP : P.maxTags ≤ 4) (hl : P.Local) (he : Reads P.maxTags 15 x b) (hlen : (b ++ r).length ≤ maxMessage) (hh : HeaderIn P x hp)
    (hargs : ArgsOk aad pay) :
    ∃ parts : Found4 → List Bytes,
      (∀ xs f more, arrayOf P x = .ok xs →
        readArray P cfg.disableContentType pay.octets xs hp more = .ok f →
        (parts f).flatten = sigStructure f.prot aad.bytes f.payload) ∧
      (verifyInternal cfg P (Psa.crypto cfg L) junk me (b ++ r) aad pay want).res =
        itemOutcome cfg P (Psa.crypto cfg L) me x aad pay hp (!r.isEmpty) fun f alg =>
          match hashFor cfg alg with
          | none => .error .unsupportedSigningAlg
          | some h => Spec.Psa.coded Spec.Psa.hashTableCodes .hashGeneralFail
              (Spec.Psa.hashRun L (Spec.Psa.hashTable h) (parts f) (digestRoom cfg)).1
              (Spec.Psa.hashRun L (Spec.Psa.hashTable h) (parts f) (digestRoom cfg)).2 := by
  have hpw : ∀ f : Found4, (pay.buffer f.payload).wf := by
    intro f
    cases pay with
    | inline w => rfl
    | detached p => exact hargs.2 p rfl
  have key := fun f : Found4 =>
    C66_psa_hash (.data f.prot) aad (pay.buffer f.payload) rfl hargs.1 (hpw f)
  refine ⟨fun f => (key f).choose, ?_, ?_⟩
  · intro xs f more hx hra
    rw [(key f).choose_spec.1, payloadAt_buffer ((readArray_ok P).mp hra).2.1]
    rfl
  · refine item_hash cfg P _ junk me x b r aad pay hp want hP hl he hlen hh hargs _ ?_
    intro xs f more hx hra hpb _
    rw [maxHashSize_eq, (key f).choose_spec.2 cfg L f.known.alg]
    cases hashFor cfg f.known.alg <;> rfl

/-- An item with tags and five elements and without an algorithm, as any adapter has to refuse it. -/
example : Reads 4 15 oddItem oddEnc ∧ QParams.std.maxTags ≤ 4 ∧ QParams.std.Local ∧
    PiecesUpTo (2 ^ 32 - 1) [] [] [1] ∧
    (sign1Verify Config.full QParams.std (testCrypto Config.full 0 (List.replicate 64 7)) noJunk
      (VerifyCtx.init 0) oddEnc true false).res = .error .unsupportedSigningAlg := by
  refine ⟨odd_encodes.reads (by decide), by decide, fun _ _ _ => rfl, ⟨by decide, by decide, by decide, by decide⟩,
    by decide +kernel⟩

end TCose.Props
