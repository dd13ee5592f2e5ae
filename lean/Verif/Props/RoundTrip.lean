import Verif.Props.Complete
import Verif.Props.Sign

/-!
# C03, C04: what is signed verifies

The hypotheses about the verifier (`Agrees`) say only that its options do not
forbid the message: tag policy, REQUIRE_KID, and for EdDSA an auxiliary buffer.
Three combinations on the signer's side have to be left out (`KidConsistent`),
because the code refuses its own messages there; each is shown to be necessary
below.
-/

namespace TCose.Props
open TCose Spec

/-- The signer gives the message the kid that stands for short-circuit
signatures exactly when it makes one. -/
structure KidConsistent (cfg : Config) (me : SignCtx) : Prop where
  short : Spec.Opt.shortCircuit me.flags = true → specKid me = some scKid ∧
    (me.alg = algES256 ∨ me.alg = algES384 ∨ me.alg = algES512)
  plain : Spec.Opt.shortCircuit me.flags = false →
    cfg.disableShortCircuit = true ∨ specKid me ≠ some scKid

/-- The options of the verifier do not forbid the message. `n` is the length of
the Sig_structure. -/
structure Agrees (me : SignCtx) (vm : VerifyCtx) (n : Nat) : Prop where
  tag : TagPolicy vm.flags (if Spec.Opt.omitTag me.flags then [] else [18])
  kid : Spec.Opt.requireKid vm.flags = true → specKid me ≠ none
  short : Spec.Opt.shortCircuit me.flags = true →
    Spec.Opt.allowShortCircuit vm.flags = true ∨ Spec.Opt.decodeOnly vm.flags = true
  aux : Spec.Opt.shortCircuit me.flags = false → me.alg = algEDDSA →
    vm.aux.isNull = false ∧ n ≤ vm.aux.cap

theorem alg_range {cfg : Config} {alg : Int} (h : sigAlgSupported cfg alg = true) :
    alg ≠ 0 ∧ -2147483648 ≤ alg ∧ alg ≤ 2147483647 := by
  have : alg = algES256 ∨ alg = algES384 ∨ alg = algES512 ∨ alg = algPS256 ∨ alg = algPS384 ∨
      alg = algPS512 ∨ alg = algEDDSA := by
    simp only [sigAlgSupported, Bool.or_eq_true, Bool.and_eq_true, beq_iff_eq] at h
    grind
  simp only [algES256, algES384, algES512, algPS256, algPS384, algPS512, algEDDSA] at this
  omega

theorem maxHash_le (cfg : Config) : maxHashSize cfg ≤ 64 := by
  unfold maxHashSize
  split
  · omega
  · split <;> omega

/-- Signing, then verifying with the same external data and payload. -/
theorem round_trip {cfg : Config} {P : QParams} {C : Crypto} {junk : Junk} {me me' : SignCtx}
    {vm : VerifyCtx} {det : Bool} {payload aad : UB} {m : Bytes} {msg : UB} {e' : Enc}
    (hfit : SignFits C) (hhash : HashFits C) (hSV : SignVerify C me.key vm.key)
    (hP1 : 1 ≤ P.maxTags) (hP4 : P.maxTags ≤ 4) (hpw : payload.wf) (haw : aad.wf)
    (hct : me.contentTypeUint ≤ 65536)
    (hkc : KidConsistent cfg me)
    (hag : Agrees me vm (sigStructure (protectedHeader me.alg) aad.bytes payload.bytes).length)
    (h : signAadInternal cfg C me det payload aad (.buf m) = (.ok msg, me', e'))
    (hlen : msg.len ≤ 4294967293) (want : Bool) {pay : VPayload}
    (hpay : if det then pay = .detached payload else ∃ w, pay = .inline w) :
    let r := verifyInternal cfg P C junk vm msg.bytes aad pay want
    r.res = .ok () ∧ r.ub = false ∧
    (pay = .inline true → ∃ b, r.payload = some b ∧ b.ub.bytes = payload.bytes) ∧
    (want = true → ∃ p, r.params = some p ∧ p.alg = me.alg ∧
      p.kid.map (·.bytes) = specKid me ∧ p.iv = none ∧ p.partialIv = none ∧
      match specCt cfg me with
      | .none => p.ctTstr = none ∧ p.ctUint = 65536
      | .num n => p.ctTstr = none ∧ p.ctUint = n
      | .text t => p.ctTstr.map (·.bytes) = some t ∧ p.ctUint = 65536) := by
  obtain ⟨hpre, sig, rfl, -, -, -, hrun⟩ := sign_buf_run hfit hpw haw h
  obtain ⟨a0, a1, a2⟩ := alg_range hpre.alg
  have ha64 : InInt64 me.alg := by unfold InInt64; omega
  have hctn : ∀ n, specCt cfg me = .num n → n ≤ 65535 := by
    intro n hn
    unfold specCt at hn
    split at hn
    · cases hn
    · split at hn
      · cases hn
      · split at hn
        · cases hn
        · rename_i hne
          injection hn with hn
          unfold noContentType at hne
          omega
  simp only [UB.len] at hlen
  have henc := signed_encoded (tag := !hasFlag me.flags optOmitTag) (kid := specKid me)
    (ct := specCt cfg me) (payload := if det then none else some payload.bytes) (sig := sig) ha64
    (by omega) hctn
  have hfits := signed_fits (P := P) (tag := !hasFlag me.flags optOmitTag) (kid := specKid me)
    (ct := specCt cfg me) (payload := if det then none else some payload.bytes) (sig := sig) ha64
    (msg := (coseSign1 (!hasFlag me.flags optOmitTag) me.alg (specKid me) (specCt cfg me)
      (if det then none else some payload.bytes) sig).enc) (by unfold maxDecodeInput; omega) hP1
  have hval := signed_valid (tag := !hasFlag me.flags optOmitTag) (kid := specKid me)
    (ct := specCt cfg me) (payload := if det then none else some payload.bytes) (sig := sig) a0 a1 a2
    hctn
  obtain ⟨s1, s2, s3, s4, s5⟩ := signed_params (tag := !hasFlag me.flags optOmitTag) (alg := me.alg)
    (kid := specKid me) (ct := specCt cfg me)
    (payload := if det then none else some payload.bytes) (sig := sig)
  have hnc := signed_noCrit (tag := !hasFlag me.flags optOmitTag) (alg := me.alg)
    (kid := specKid me) (ct := specCt cfg me)
    (payload := if det then none else some payload.bytes) (sig := sig)
  generalize hmm : signedMessage (!hasFlag me.flags optOmitTag) me.alg (specKid me) (specCt cfg me)
    (if det then none else some payload.bytes) sig = sm at *
  have hpm : PayMatches sm pay := by
    subst hmm
    cases det with
    | true =>
      simp only [if_true] at hpay
      subst hpay
      exact ⟨rfl, hpw⟩
    | false =>
      simp only [Bool.false_eq_true, if_false] at hpay
      obtain ⟨w, rfl⟩ := hpay
      simp [PayMatches, signedMessage]
  have hpo : payloadOf sm pay = payload.bytes := by
    subst hmm
    cases det with
    | true =>
      simp only [if_true] at hpay
      subst hpay
      rfl
    | false =>
      simp only [Bool.false_eq_true, if_false] at hpay
      obtain ⟨w, rfl⟩ := hpay
      rfl
  -- a detached payload is never NULL
  have hnn : det = true → payload = .data payload.bytes := by
    intro hd
    subst hd
    cases payload with
    | data b => rfl
    | null n =>
      obtain ⟨x, hx⟩ := sign_detached_null (C := C) (n := n) (aad := aad) (out := .buf m) hpre
      rw [h] at hx; cases hx
  obtain ⟨v, x, hview, htags, hdec, hpar, hcr, hxp, hxs, hxw, hxb, hxi, hxd⟩ :=
    message_run cfg henc hfits hval hpm
  have hxpay : x.payload.ub = .data payload.bytes := by
    cases det with
    | true =>
      simp only [if_true] at hpay
      rw [hxd _ hpay]
      exact hnn rfl
    | false =>
      simp only [Bool.false_eq_true, if_false] at hpay
      obtain ⟨w, hw⟩ := hpay
      rw [hxi w hw, hpo]
  have htg : sm.tags.reverse = if hasFlag me.flags optOmitTag then [] else [18] := by
    subst hmm
    unfold signedMessage
    cases hasFlag me.flags optOmitTag <;> rfl
  have hpol : TagPolicy vm.flags v.tags := by
    rw [htags, htg]; exact hag.tag
  have hsig : sm.sig = sig := by subst hmm; rfl
  rw [hsig] at hxs
  have halg : x.params.alg = me.alg := by rw [hpar.alg, s1]; rfl
  have hkid : x.params.kid.map (·.bytes) = specKid me := by rw [hpar.kid, s2]
  have hfl : (vm.withTags v).flags = vm.flags := rfl
  have hpreck : PreChecks (vm.withTags v) x := by
    constructor
    · intro h1 h2
      rw [h2] at hkid
      exact hag.kid h1 hkid.symm
    · right
      rw [hcr]
      exact hnc
  have hw : x.Wf aad := ⟨by rw [hxp]; rfl, haw, hxw⟩
  have htbs : x.tbs aad = sigStructure (protectedHeader me.alg) aad.bytes payload.bytes := by
    unfold Decoded.tbs
    rw [hxp, hxpay]; rfl
  obtain ⟨r1, r2, r3⟩ := checkDecoded_run (cfg := cfg) (C := C) (aad := aad) hpreck hdec.crOk
    hdec.unkOk
  have hsc : isShortCircuit cfg x ↔ cfg.disableShortCircuit = false ∧
      specKid me = some scKid := by
    rw [← hkid]
    unfold isShortCircuit
    cases x.params.kid with
    | none =>
      simp only [Option.map_none, reduceCtorEq, and_false, iff_false, not_and]
      intro _ h
      exact absurd h (by decide)
    | some s => simp [Str.ub, UB.bytes, shortCircuitKid, scKid]
  -- the signature is accepted
  have hck : ∃ me2, checkDecoded cfg C (vm.withTags v) aad x = (.ok (), me2, false) := by
    cases hf : hasFlag me.flags optShortCircuit with
    | true =>
      obtain ⟨hk, hecd⟩ := hkc.short hf
      have hen : cfg.disableShortCircuit = false := by
        cases hd : cfg.disableShortCircuit with
        | false => rfl
        | true => exact absurd ⟨hf, hd⟩ hpre.sc
      rw [r1 (hsc.mpr ⟨hen, hk⟩)]
      unfold SigRun at hrun
      rw [opt_shortCircuit] at hrun
      rw [if_pos hf] at hrun
      obtain ⟨hash, n, hh, hs⟩ := hrun
      unfold verifyShortCircuit
      rw [hfl]
      by_cases hdo : hasFlag vm.flags optDecodeOnly = true
      · rw [if_pos hdo]; exact ⟨_, rfl⟩
      · rw [if_neg hdo]
        have hal : hasFlag vm.flags optAllowShortCircuit = true := by
          rcases hag.short hf with h1 | h1
          · exact h1
          · exact absurd h1 hdo
        rw [hal, halg, hxp, hxpay, hh, hxs]
        simp only [Bool.not_true, Bool.false_eq_true, if_false]
        have hhf : hash ≠ [] ∧ hash.length ≤ 64 := by
          rw [createTbsHash_eq] at hh
          split at hh
          · cases hh
          · split at hh
            · cases hh
            · obtain ⟨q1, q2⟩ := hhash _ _ _ hh
              exact ⟨q1, Nat.le_trans q2 (maxHash_le cfg)⟩
        have : ∃ k, ecdsaSize me.alg = some k ∧ 64 ≤ k := by
          rcases hecd with h | h | h
          · rw [h]; exact ⟨64, rfl, by omega⟩
          · rw [h]; exact ⟨96, rfl, by omega⟩
          · rw [h]; exact ⟨132, rfl, by omega⟩
        obtain ⟨k, hk1, hk2⟩ := this
        rw [show UB.bytes (.data sig) = sig from rfl,
          C12_sign_verify me.alg k hk1 hash sig hhf.1 (by omega) n hs]
        exact ⟨_, rfl⟩
    | false =>
      have hns : ¬ isShortCircuit cfg x := by
        rw [hsc]
        rintro ⟨h1, h2⟩
        rcases hkc.plain hf with h3 | h3
        · rw [h1] at h3; cases h3
        · exact h3 h2
      unfold SigRun at hrun
      rw [opt_shortCircuit] at hrun
      rw [if_neg (by simp [hf])] at hrun
      by_cases he : me.alg = algEDDSA
      · rw [if_pos he] at hrun
        obtain ⟨n, hs⟩ := hrun
        have hen : cfg.disableEDDSA = false := by
          have ha := hpre.alg
          simp only [sigAlgSupported, he] at ha
          simpa [algEDDSA, algES256, algES384, algES512, algPS256, algPS384, algPS512] using ha
        rw [r2 hns ⟨hen, by rw [halg]; exact he⟩, verifyEddsa_eq hw, htbs]
        obtain ⟨x1, x2⟩ := hag.aux hf he
        rw [if_neg (by rw [show (vm.withTags v).aux = vm.aux from rfl]; omega)]
        rw [show (vm.withTags v).aux = vm.aux from rfl, x1, hxs]
        refine ⟨_, Prod.ext ?_ rfl⟩
        simp only [Bool.false_eq_true, if_false]
        split
        · rfl
        · exact hSV.eddsa _ _ _ _ hs
      · rw [if_neg he] at hrun
        obtain ⟨hash, n, hh, hs⟩ := hrun
        have hne : ¬ isEddsa cfg x := by
          rintro ⟨-, h2⟩
          rw [halg] at h2
          exact he h2
        rw [r3 hns hne]
        unfold verifyDefault
        rw [hfl]
        by_cases hdo : hasFlag vm.flags optDecodeOnly = true
        · rw [if_pos hdo]; exact ⟨_, rfl⟩
        · rw [if_neg hdo, halg, hxp, hxpay, hh, hxs]
          simp only
          rw [show UB.bytes (.data sig) = sig from rfl]
          rw [show (vm.withTags v).key = vm.key from rfl, hSV.sign _ _ _ _ _ hs]
          exact ⟨_, rfl⟩
  obtain ⟨me2, hck⟩ := hck
  intro r
  have hr : r = _ := rfl
  rw [show r = verifyInternal cfg P C junk vm (UB.bytes (.data _)) aad pay want from rfl]
  rw [show UB.bytes (.data (coseSign1 (!hasFlag me.flags optOmitTag) me.alg (specKid me)
      (specCt cfg me) (if det then none else some payload.bytes) sig).enc) =
      (coseSign1 (!hasFlag me.flags optOmitTag) me.alg (specKid me)
      (specCt cfg me) (if det then none else some payload.bytes) sig).enc from rfl]
  rw [verify_run hP4 hview hpol hdec, hck]
  refine ⟨rfl, rfl, ?_, ?_⟩
  · intro hw
    exact ⟨x.payload, by simp [hw], by rw [hxb, hpo]⟩
  · intro hw
    refine ⟨x.params, by simp [hw], halg, hkid, ?_, ?_, ?_⟩
    · have := hpar.iv
      rw [s3] at this
      cases hq : x.params.iv with
      | none => rfl
      | some s => rw [hq] at this; cases this
    · have := hpar.partialIv
      rw [s4] at this
      cases hq : x.params.partialIv with
      | none => rfl
      | some s => rw [hq] at this; cases this
    · have := hpar.ct
      rw [s5] at this
      have heq : (if cfg.disableContentType = true then ContentType.none else specCt cfg me) =
          specCt cfg me := by
        split
        · rename_i hd
          unfold specCt
          rw [if_pos hd]
        · rfl
      rw [heq] at this
      exact this

/-- What the verifier hands back about the headers. -/
structure ReturnsHeader (cfg : Config) (me : SignCtx) (p : Params) : Prop where
  alg : p.alg = me.alg
  kid : p.kid.map (·.bytes) = specKid me
  iv : p.iv = none
  partialIv : p.partialIv = none
  ct : match specCt cfg me with
    | .none => p.ctTstr = none ∧ p.ctUint = 65536
    | .num n => p.ctTstr = none ∧ p.ctUint = n
    | .text t => p.ctTstr.map (·.bytes) = some t ∧ p.ctUint = 65536

/-- The full claim of C03: no condition on the signer's own kid. -/
def C03_claim : Prop :=
  ∀ (cfg : Config) (P : QParams) (C : Crypto) (junk : Junk) (me me' : SignCtx) (vm : VerifyCtx)
    (payload : Bytes) (m : Bytes) (msg : UB) (e' : Enc),
    SignFits C → HashFits C → SignVerify C me.key vm.key → 1 ≤ P.maxTags → P.maxTags ≤ 4 →
    me.contentTypeUint ≤ 65536 →
    Agrees me vm (sigStructure (protectedHeader me.alg) [] payload).length →
    sign1Sign cfg C me (.data payload) (.buf m) = (.ok msg, me', e') → msg.len ≤ 4294967293 →
    (sign1Verify cfg P C junk vm msg.bytes true true).res = .ok ()

/-- **C03_partial.** A message made by `t_cose_sign1_sign` is accepted by
`t_cose_sign1_verify` under the matching key and any options that do not forbid
it (`Agrees`), and the verifier returns the payload, algorithm, key id and
content type that were signed, and no IVs.

Missing: signers for which `KidConsistent` fails, see `C03_claim_false`. -/
theorem C03_round_trip_partial (cfg : Config) (P : QParams) (C : Crypto) (junk : Junk)
    (me me' : SignCtx) (vm : VerifyCtx) (payload : Bytes) (m : Bytes) (msg : UB) (e' : Enc)
    (hfit : SignFits C) (hhash : HashFits C) (hSV : SignVerify C me.key vm.key)
    (hP1 : 1 ≤ P.maxTags) (hP4 : P.maxTags ≤ 4) (hct : me.contentTypeUint ≤ 65536)
    (hkc : KidConsistent cfg me)
    (hag : Agrees me vm (sigStructure (protectedHeader me.alg) [] payload).length)
    (h : sign1Sign cfg C me (.data payload) (.buf m) = (.ok msg, me', e'))
    (hlen : msg.len ≤ 4294967293) :
    let r := sign1Verify cfg P C junk vm msg.bytes true true
    r.res = .ok () ∧ r.ub = false ∧ (∃ b, r.payload = some b ∧ b.ub.bytes = payload) ∧
    ∃ p, r.params = some p ∧ ReturnsHeader cfg me p := by
  obtain ⟨h1, h2, h3, h4⟩ := round_trip (junk := junk) hfit hhash hSV hP1 hP4 (UB.wf_data payload)
    (aad := .nil) rfl hct hkc hag h hlen true (pay := .inline true) ⟨true, rfl⟩
  refine ⟨h1, h2, h3 rfl, ?_⟩
  obtain ⟨p, hp, a, b, c, d, e⟩ := h4 rfl
  exact ⟨p, hp, a, b, c, d, e⟩

/-- **C04_partial.** The same for detached payloads and external data: the same
payload and external data verify. (That the payload slot holds null is in
C07.) -/
theorem C04_round_trip_partial (cfg : Config) (P : QParams) (C : Crypto) (junk : Junk)
    (me me' : SignCtx) (vm : VerifyCtx) (aad payload : UB) (haw : aad.wf) (hpw : payload.wf)
    (m : Bytes) (msg : UB) (e' : Enc)
    (hfit : SignFits C) (hhash : HashFits C) (hSV : SignVerify C me.key vm.key)
    (hP1 : 1 ≤ P.maxTags) (hP4 : P.maxTags ≤ 4) (hct : me.contentTypeUint ≤ 65536)
    (hkc : KidConsistent cfg me)
    (hag : Agrees me vm (sigStructure (protectedHeader me.alg) aad.bytes payload.bytes).length)
    (h : sign1SignDetached cfg C me aad payload (.buf m) = (.ok msg, me', e'))
    (hlen : msg.len ≤ 4294967293) :
    let r := sign1VerifyDetached cfg P C junk vm msg.bytes aad payload true
    r.res = .ok () ∧ r.ub = false ∧ ∃ p, r.params = some p ∧ ReturnsHeader cfg me p := by
  obtain ⟨h1, h2, -, h4⟩ := round_trip (junk := junk) hfit hhash hSV hP1 hP4 hpw
    (aad := aad) haw hct hkc hag h hlen true (pay := .detached payload) rfl
  refine ⟨h1, h2, ?_⟩
  obtain ⟨p, hp, a, b, c, d, e⟩ := h4 rfl
  exact ⟨p, hp, a, b, c, d, e⟩

/-- What `t_cose_sign1_sign_aad(aad, payload)` makes verifies with the *payload*
as external data, and the *aad* comes back as payload. -/
theorem C05_round_trip_swapped (cfg : Config) (P : QParams) (C : Crypto) (junk : Junk)
    (me me' : SignCtx) (vm : VerifyCtx) (aad payload : UB) (haw : aad.wf) (hpw : payload.wf)
    (m : Bytes) (msg : UB) (e' : Enc)
    (hfit : SignFits C) (hhash : HashFits C) (hSV : SignVerify C me.key vm.key)
    (hP1 : 1 ≤ P.maxTags) (hP4 : P.maxTags ≤ 4) (hct : me.contentTypeUint ≤ 65536)
    (hkc : KidConsistent cfg me)
    (hag : Agrees me vm (sigStructure (protectedHeader me.alg) payload.bytes aad.bytes).length)
    (h : sign1SignAad cfg C me aad payload (.buf m) = (.ok msg, me', e'))
    (hlen : msg.len ≤ 4294967293) :
    let r := sign1VerifyAad cfg P C junk vm msg.bytes payload true true
    r.res = .ok () ∧ ∃ b, r.payload = some b ∧ b.ub.bytes = aad.bytes := by
  obtain ⟨h1, -, h3, -⟩ := round_trip (junk := junk) hfit hhash hSV hP1 hP4 haw
    (aad := payload) hpw hct hkc hag h hlen true (pay := .inline true) ⟨true, rfl⟩
  exact ⟨h1, h3 rfl⟩

/-! ## The conditions are needed -/

/-- Signs with the toy adapter and gives the octets. -/
def toySigned (me : SignCtx) (payload : Bytes) : Bytes :=
  match (sign1Sign Config.full toyCrypto me (.data payload) (.buf (List.replicate 400 0))).1 with
  | .ok u => u.bytes
  | .error _ => []

/-- A signer whose key id happens to be the one for short-circuit signatures. -/
def ctxScKid : SignCtx :=
  (SignCtx.init 0 algES256).setKey Key.null (.data scKid)

/-- Its signatures are correct but refused, or not checked with the key. -/
theorem C03_short_circuit_kid_refused :
    (toyVerify 0 (toySigned ctxScKid [1, 2, 3])).res = .error .shortCircuitSig := by decide +kernel

/-- A signer making short-circuit signatures who has set a key id: the verifier,
allowing short-circuit signatures, does not see that it is one. -/
theorem C03_short_circuit_own_kid_refused :
    (toyVerify 1 (toySigned ((SignCtx.init 1 algES256).setKey Key.null (.data [1]))
      [1, 2, 3])).res = .error .sigVerify := by decide +kernel

/-- A short-circuit signature for PS256 is empty and never verifies. -/
theorem C03_short_circuit_pss_refused :
    (toyVerify 1 (toySigned (SignCtx.init 1 algPS256) [1, 2, 3])).res = .error .sigVerify := by
  decide +kernel

theorem C03_claim_false : ¬ C03_claim := by
  intro h
  have hw := C03_short_circuit_kid_refused
  unfold toySigned at hw
  cases hq : sign1Sign Config.full toyCrypto ctxScKid (.data [1, 2, 3])
      (.buf (List.replicate 400 0)) with
  | mk r rest =>
    obtain ⟨me', e'⟩ := rest
    rw [hq] at hw
    cases r with
    | error e => exact absurd (show (toyVerify 0 []).res = _ from hw) (by decide +kernel)
    | ok msg =>
      have hl : (match (sign1Sign Config.full toyCrypto ctxScKid (.data [1, 2, 3])
        (.buf (List.replicate 400 0))).1 with
        | .ok u => u.len
        | .error _ => 0) ≤ 4294967293 := by decide +kernel
      rw [hq] at hl
      have := h Config.full QParams.std toyCrypto noJunk ctxScKid me' (VerifyCtx.init 0) [1, 2, 3] _
        msg e' toy_signFits toy_hashFits (toy_signVerify _ _) (by decide) (by decide) (by decide)
        ⟨by unfold TagPolicy; decide, by decide, by decide, by decide⟩ hq hl
      rw [show toyVerify 0 msg.bytes = sign1Verify Config.full QParams.std toyCrypto noJunk
        (VerifyCtx.init 0) msg.bytes true true from rfl] at hw
      rw [this] at hw
      cases hw

/-! ## Examples -/

/-- A signer with key id and content type; the hypotheses of C03 hold. -/
example : KidConsistent Config.full exCtx ∧
    Agrees exCtx (VerifyCtx.init 0)
      (sigStructure (protectedHeader exCtx.alg) [] [1, 2, 3]).length ∧
    SignFits toyCrypto ∧ HashFits toyCrypto ∧
    SignVerify toyCrypto exCtx.key (VerifyCtx.init 0).key ∧ exCtx.contentTypeUint ≤ 65536 :=
  ⟨⟨by decide, by decide⟩, ⟨by unfold TagPolicy; decide, by decide, by decide, by decide⟩, toy_signFits, toy_hashFits,
    toy_signVerify _ _, by decide⟩

example : (toySigned exCtx [1, 2, 3]).length = 87 ∧
    (toyVerify 0 (toySigned exCtx [1, 2, 3])).res = .ok () ∧
    ((toyVerify 0 (toySigned exCtx [1, 2, 3])).payload.map (fun b => b.ub.bytes)) =
      some [1, 2, 3] ∧
    ((toyVerify 0 (toySigned exCtx [1, 2, 3])).params.map (fun p => p.alg)) = some (-7) := by
  decide +kernel

/-- Short-circuit signing without a key id round trips if the verifier allows it. -/
example : KidConsistent Config.full (SignCtx.init 1 algES512) ∧
    (toyVerify 1 (toySigned (SignCtx.init 1 algES512) [1, 2, 3])).res = .ok () :=
  ⟨⟨by decide, by decide⟩, by decide +kernel⟩

/-- EdDSA with an auxiliary buffer on both sides, detached, with external data. -/
example :
    (match (sign1SignDetached Config.full toyCrypto
        ((SignCtx.init 0 algEDDSA).setAux Config.full (.buf (List.replicate 100 0))) (.data [9]) (.data [1, 2, 3])
        (.buf (List.replicate 400 0))).1 with
     | .ok u => (sign1VerifyDetached Config.full QParams.std toyCrypto noJunk
        ((VerifyCtx.init 0).setAux Config.full (.buf (List.replicate 100 0))) u.bytes (.data [9])
        (.data [1, 2, 3]) true).res
     | .error e => .error e) = .ok () := by
  decide +kernel

end TCose.Props
