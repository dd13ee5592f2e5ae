import Verif.Lemmas.ContentLimits
import Verif.Props.OpensslApi

/-!
# C06, C46: what a fresh context and content beyond QCBOR's limits give
-/

namespace TCose.Props
open TCose Spec

/-- **C06, the limits.** If the two-step API produces a message (or a size), then
the caller's content was within QCBOR's limits: at most 13 levels inside the payload
and at most 65534 items in each.  Anything beyond is reported as an error, for every
adapter, context, AAD and output buffer; no message with a wrong count or a level
left out is produced. -/
theorem C06_limits (cfg : Config) (C : Crypto) (me : SignCtx) (aad : UB) (cs : List Content)
    (out : Mem) (r : UB) (h : twoStepSign cfg C me aad cs out = .ok r) :
    fitsAll cs 13 = true ∧ cs.length ≤ 65534 := by
  unfold twoStepSign at h
  cases hp : sign1EncodeParameters cfg me (Enc.init out) with
  | mk r1 y =>
    obtain ⟨me1, e1⟩ := y
    rw [hp] at h
    cases r1 with
    | error x => cases h
    | ok u =>
      simp only at h
      cases hsg : sign1EncodeSignatureAad cfg C me1 aad (runAll cs e1) with
      | mk r2 y =>
        obtain ⟨me2, e2⟩ := y
        rw [hsg] at h
        cases r2 with
        | error x => cases h
        | ok u =>
          simp only at h
          have hse : e2.small = false ∧ e2.err = none := by
            unfold callerFinish at h
            cases hes : e2.errState with
            | tooSmall => rw [hes] at h; cases h
            | other x => rw [hes] at h; cases h
            | ok =>
              unfold Enc.errState at hes
              split at hes
              · cases hes
              · rename_i hsm
                refine ⟨by simpa using hsm, ?_⟩
                cases he : e2.err with
                | none => rfl
                | some x => rw [he] at hes; cases hes
          have hr := (encodeSignature_delta hsg hse.1 hse.2).1
          have h1 := runAll_err_back cs hr
          have hl := (encodeParameters_delta hp h1).2
          simp only [Enc.init, List.length_nil, Bool.false_eq_true, if_false] at hl
          cases hn : e1.nest with
          | nil => rw [hn] at hl; simp at hl
          | cons n ns =>
            rw [hn] at hl
            simp only [List.length_cons] at hl
            obtain ⟨-, b, -, d⟩ := runAll_err_none cs hn hr
            have : ns.length = 1 := by omega
            rw [this] at b
            exact ⟨b, by omega⟩

/-- `n` arrays, one inside the other. -/
def nestedArr : Nat → Content
  | 0 => .null
  | n + 1 => .arr [nestedArr n]

/-- Thirteen levels are signed, fourteen are refused. -/
example : (twoStepSign Config.full toyCrypto (SignCtx.init 0 algES256) .nil [nestedArr 13]
      (.buf (List.replicate 200 0))).toBool = true ∧
    twoStepSign Config.full toyCrypto (SignCtx.init 0 algES256) .nil [nestedArr 14]
      (.buf (List.replicate 200 0)) = .error .cborFormatting := by
  decide +kernel

/-- **C46, no key set.** A context straight after `t_cose_sign1_sign_init` has no key,
and signing with the OpenSSL adapter never succeeds (unless short-circuit signing
was asked for); a context straight after `t_cose_sign1_verify_init` accepts nothing
(unless decode-only, or by the short-circuit rule). -/
theorem C46_no_key (cfg : Config) (L : Ossl.Lib) (flags : Nat) (alg : Int) :
    (flags.testBit 0 = false → ∀ (det : Bool) (payload aad : UB), payload.wf → ∀ (out : Mem) (r : UB),
      (signAadInternal cfg (Ossl.crypto cfg L) (SignCtx.init flags alg) det payload aad out).1
        ≠ .ok r) ∧
    (flags.testBit 3 = false → ∀ (P : QParams) (junk : Junk) (msg : Bytes) (aad : UB) (pay : VPayload)
      (want : Bool) (D : Int → Bytes → Bytes) (A : L.Md → Int → Bytes → Prop),
      Ossl.Digests L D A → P.maxTags ≤ 4 → ArgsOk aad pay →
      (verifyInternal cfg P (Ossl.crypto cfg L) junk (VerifyCtx.init flags) msg aad pay want).res
        = .ok () →
      cfg.disableShortCircuit = false ∧
        ∃ v, IsView P msg v ∧ v.kid.map (·.bytes) = some scKid) := by
  have hk : ∀ k : Key, k = Key.null → BadKey k .incorrectKeyForLib := by
    intro k hk
    refine .inl ⟨?_, rfl⟩
    rw [hk]; decide
  constructor
  · intro hf det payload aad hp out r
    exact C46_api_sign cfg L (SignCtx.init flags alg) det payload aad hp out _ (hk _ rfl) hf r
  · intro hf P junk msg aad pay want D A hL hP ha h
    exact C46_api_verify cfg P L junk (VerifyCtx.init flags) msg aad pay want D A hL hP ha hf _ (hk _ rfl) h

end TCose.Props
