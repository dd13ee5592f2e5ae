import Verif.Props.SignOutcome
import Verif.Props.RealMain
import Verif.Spec.Interop

/-!
# C83: messages between different builds and adapters

The signer and the verifier need not be the same program: they may be built with other
options and with another crypto library. A message made by one is accepted by the other
if the verifier has the algorithm, both hash alike and the verifier's library accepts the
signatures of the signer's.
-/

namespace TCose.Props
open TCose Spec

/-- What one adapter signs with `sk` the other verifies with `pk`, for one algorithm. -/
structure Across (CS CV : Crypto) (alg : Int) (sk pk : Key) : Prop where
  sign : ∀ h n s kid, CS.sign alg sk h n = .ok s → CV.verify alg pk kid h s = .ok ()
  eddsa : alg = -8 → ∀ tbs n s kid, CS.signEddsa sk tbs n = .ok s → CV.verifyEddsa pk kid tbs s = .ok ()

/-- The verifier's build has the algorithm, and takes the message for a short-circuit message
exactly if it is one. -/
structure BuildFits (cfg : Config) (me : SignCtx) : Prop where
  alg : algEnabled cfg me.alg
  short : Spec.Opt.shortCircuit me.flags = true → cfg.disableShortCircuit = false ∧ specKid me = some scKid ∧
    (me.alg = -7 ∨ me.alg = -35 ∨ me.alg = -36)
  plain : Spec.Opt.shortCircuit me.flags = false → cfg.disableShortCircuit = true ∨ specKid me ≠ some scKid

/-- Signing, then verifying elsewhere with the same external data and payload. -/
theorem across_trip {cfgS cfg : Config} {P : QParams} {CS C : Crypto} {junk : Junk} {me me' : SignCtx}
    {vm : VerifyCtx} {det : Bool} {payload aad : UB} {m : Bytes} {msg : UB} {e' : Enc}
    {N : Nat} {D : Int → Bytes → Bytes}
    (hfit : SignFits CS) (hhash : HashFits C) (hDS : Hashes N cfgS CS D me.alg) (hDV : Hashes N cfg C D me.alg)
    (hN : PiecesUpTo N (protectedHeader me.alg) aad.bytes payload.bytes) (hSV : Across CS C me.alg me.key vm.key)
    (hP1 : 1 ≤ P.maxTags) (hP4 : P.maxTags ≤ 4) (hpw : payload.wf) (haw : aad.wf)
    (hct : me.contentTypeUint ≤ 65536)
    (hkc : BuildFits cfg me)
    (hag : Agrees me vm (sigStructure (protectedHeader me.alg) aad.bytes payload.bytes).length)
    (h : signAadInternal cfgS CS me det payload aad (.buf m) = (.ok msg, me', e'))
    (hlen : msg.len ≤ 4294967293) (want : Bool) {pay : VPayload}
    (hpay : if det then pay = .detached payload else ∃ w, pay = .inline w) :
    let r := verifyInternal cfg P C junk vm msg.bytes aad pay want
    r.res = .ok () ∧ r.ub = false ∧
    (pay = .inline true → ∃ b, r.payload = some b ∧ b.ub.bytes = payload.bytes) ∧
    (want = true → ∃ p, r.params = some p ∧ p.alg = me.alg ∧
      p.kid.map (·.bytes) = specKid me ∧ p.iv = none ∧ p.partialIv = none ∧
      match (if cfg.disableContentType then ContentType.none else specCt cfgS me) with
      | .none => p.ctTstr = none ∧ p.ctUint = 65536
      | .num n => p.ctTstr = none ∧ p.ctUint = n
      | .text t => p.ctTstr.map (·.bytes) = some t ∧ p.ctUint = 65536) := by
  obtain ⟨hpre, sig, rfl, -, -, -, hrun⟩ := sign_buf_run hfit hpw haw h
  obtain ⟨a0, a1, a2⟩ := alg_range hpre.alg
  have ha64 : InInt64 me.alg := by unfold InInt64; omega
  have hctn : ∀ n, specCt cfgS me = .num n → n ≤ 65535 := by
    intro n hn
    unfold specCt at hn
    split at hn
    · cases hn
    · split at hn
      · cases hn
      · split at hn
        · cases hn
        · rename_i hne
          injection hn with hn
          unfold noContentType at hne
          omega
  simp only [UB.len] at hlen
  have henc := signed_encoded (tag := !hasFlag me.flags optOmitTag) (kid := specKid me)
    (ct := specCt cfgS me) (payload := if det then none else some payload.bytes) (sig := sig) ha64
    (by omega) hctn
  have hfits := signed_fits (P := P) (tag := !hasFlag me.flags optOmitTag) (kid := specKid me)
    (ct := specCt cfgS me) (payload := if det then none else some payload.bytes) (sig := sig) ha64
    (msg := (coseSign1 (!hasFlag me.flags optOmitTag) me.alg (specKid me) (specCt cfgS me)
      (if det then none else some payload.bytes) sig).enc) (by unfold maxDecodeInput; omega) hP1
  have hval := signed_valid (tag := !hasFlag me.flags optOmitTag) (kid := specKid me)
    (ct := specCt cfgS me) (payload := if det then none else some payload.bytes) (sig := sig) a0 a1 a2
    hctn
  obtain ⟨s1, s2, s3, s4, s5⟩ := signed_params (tag := !hasFlag me.flags optOmitTag) (alg := me.alg)
    (kid := specKid me) (ct := specCt cfgS me)
    (payload := if det then none else some payload.bytes) (sig := sig)
  have hnc := signed_noCrit (tag := !hasFlag me.flags optOmitTag) (alg := me.alg)
    (kid := specKid me) (ct := specCt cfgS me)
    (payload := if det then none else some payload.bytes) (sig := sig)
  generalize hmm : signedMessage (!hasFlag me.flags optOmitTag) me.alg (specKid me) (specCt cfgS me)
    (if det then none else some payload.bytes) sig = sm at *
  have hpm : PayMatches sm pay := by
    subst hmm
    cases det with
    | true =>
      simp only [if_true] at hpay
      subst hpay
      exact ⟨rfl, hpw⟩
    | false =>
      simp only [Bool.false_eq_true, if_false] at hpay
      obtain ⟨w, rfl⟩ := hpay
      simp [PayMatches, signedMessage]
  have hpo : payloadOf sm pay = payload.bytes := by
    subst hmm
    cases det with
    | true =>
      simp only [if_true] at hpay
      subst hpay
      rfl
    | false =>
      simp only [Bool.false_eq_true, if_false] at hpay
      obtain ⟨w, rfl⟩ := hpay
      rfl
  -- a detached payload is never NULL
  have hnn : det = true → payload = .data payload.bytes := by
    intro hd
    subst hd
    cases payload with
    | data b => rfl
    | null n =>
      obtain ⟨x, hx⟩ := sign_detached_null (C := CS) (n := n) (aad := aad) (out := .buf m) hpre
      rw [h] at hx; cases hx
  obtain ⟨v, x, hview, htags, hdec, hpar, hcr, hxp, hxs, hxw, hxb, hxi, hxd⟩ :=
    message_run cfg henc hfits hval hpm
  have hxpay : x.payload.ub = .data payload.bytes := by
    cases det with
    | true =>
      simp only [if_true] at hpay
      rw [hxd _ hpay]
      exact hnn rfl
    | false =>
      simp only [Bool.false_eq_true, if_false] at hpay
      obtain ⟨w, hw⟩ := hpay
      rw [hxi w hw, hpo]
  have htg : sm.tags.reverse = if hasFlag me.flags optOmitTag then [] else [18] := by
    subst hmm
    unfold signedMessage
    cases hasFlag me.flags optOmitTag <;> rfl
  have hpol : TagPolicy vm.flags v.tags := by
    rw [htags, htg]; exact hag.tag
  have hsig : sm.sig = sig := by subst hmm; rfl
  rw [hsig] at hxs
  have halg : x.params.alg = me.alg := by rw [hpar.alg, s1]; rfl
  have hkid : x.params.kid.map (·.bytes) = specKid me := by rw [hpar.kid, s2]
  have hfl : (vm.withTags v).flags = vm.flags := rfl
  have hpreck : PreChecks (vm.withTags v) x := by
    constructor
    · intro h1 h2
      rw [h2] at hkid
      exact hag.kid h1 hkid.symm
    · right
      rw [hcr]
      exact hnc
  have hw : x.Wf aad := ⟨by rw [hxp]; rfl, haw, hxw⟩
  have htbs : x.tbs aad = sigStructure (protectedHeader me.alg) aad.bytes payload.bytes := by
    unfold Decoded.tbs
    rw [hxp, hxpay]; rfl
  obtain ⟨r1, r2, r3⟩ := checkDecoded_run (cfg := cfg) (C := C) (aad := aad) hpreck hdec.crOk
    hdec.unkOk
  have hsc : isShortCircuit cfg x ↔ cfg.disableShortCircuit = false ∧
      specKid me = some scKid := by
    rw [← hkid]
    unfold isShortCircuit
    cases x.params.kid with
    | none =>
      simp only [Option.map_none, reduceCtorEq, and_false, iff_false, not_and]
      intro _ h
      exact absurd h (by decide)
    | some s => simp [Str.ub, UB.bytes, shortCircuitKid, scKid]
  -- both sides hash alike
  have hhf : hashFor cfg me.alg = hashFor cfgS me.alg := by
    unfold hashFor
    rw [if_pos hkc.alg, if_pos ((C32_supported_iff _ _).mp hpre.alg)]
  have hha : ∀ h, createTbsHash cfgS CS me.alg (.data (protectedHeader me.alg)) aad (.data payload.bytes)
      (maxHashSize cfgS) = .ok h → createTbsHash cfg C me.alg (.data (protectedHeader me.alg)) aad
      (.data payload.bytes) (maxHashSize cfg) = .ok h := by
    rw [protectedHeader_eq]
    intro h hh
    rw [tbs_hash hDS haw hN] at hh
    rw [tbs_hash hDV haw hN, ← hh]
    unfold toBeSignedHash
    rw [hhf]
  -- the signature is accepted
  have hck : ∃ me2, checkDecoded cfg C (vm.withTags v) aad x = (.ok (), me2, false) := by
    cases hf : hasFlag me.flags optShortCircuit with
    | true =>
      obtain ⟨hen, hk, hecd⟩ := hkc.short hf
      rw [r1 (hsc.mpr ⟨hen, hk⟩)]
      unfold SigRun at hrun
      rw [opt_shortCircuit] at hrun
      rw [if_pos hf] at hrun
      obtain ⟨hash, n, hh, hs⟩ := hrun
      replace hh := hha _ hh
      unfold verifyShortCircuit
      rw [hfl]
      by_cases hdo : hasFlag vm.flags optDecodeOnly = true
      · rw [if_pos hdo]; exact ⟨_, rfl⟩
      · rw [if_neg hdo]
        have hal : hasFlag vm.flags optAllowShortCircuit = true := by
          rcases hag.short hf with h1 | h1
          · exact h1
          · exact absurd h1 hdo
        rw [hal, halg, hxp, hxpay, hh, hxs]
        simp only [Bool.not_true, Bool.false_eq_true, if_false]
        have hhf : hash ≠ [] ∧ hash.length ≤ 64 := by
          rw [createTbsHash_eq] at hh
          split at hh
          · cases hh
          · split at hh
            · cases hh
            · obtain ⟨q1, q2⟩ := hhash _ _ _ hh
              exact ⟨q1, Nat.le_trans q2 (maxHash_le cfg)⟩
        have : ∃ k, ecdsaSize me.alg = some k ∧ 64 ≤ k := by
          rcases hecd with h | h | h
          · rw [h]; exact ⟨64, rfl, by omega⟩
          · rw [h]; exact ⟨96, rfl, by omega⟩
          · rw [h]; exact ⟨132, rfl, by omega⟩
        obtain ⟨k, hk1, hk2⟩ := this
        rw [show UB.bytes (.data sig) = sig from rfl,
          C12_sign_verify me.alg k hk1 hash sig hhf.1 (by omega) n hs]
        exact ⟨_, rfl⟩
    | false =>
      have hns : ¬ isShortCircuit cfg x := by
        rw [hsc]
        rintro ⟨h1, h2⟩
        rcases hkc.plain hf with h3 | h3
        · rw [h1] at h3; cases h3
        · exact h3 h2
      unfold SigRun at hrun
      rw [opt_shortCircuit] at hrun
      rw [if_neg (by simp [hf])] at hrun
      by_cases he : me.alg = algEDDSA
      · rw [if_pos he] at hrun
        obtain ⟨n, hs⟩ := hrun
        have hen : cfg.disableEDDSA = false := by
          have ha := (C32_supported_iff _ _).mpr hkc.alg
          simp only [sigAlgSupported, he] at ha
          simpa [algEDDSA, algES256, algES384, algES512, algPS256, algPS384, algPS512] using ha
        rw [r2 hns ⟨hen, by rw [halg]; exact he⟩, verifyEddsa_eq hw, htbs]
        obtain ⟨x1, x2⟩ := hag.aux hf he
        rw [if_neg (by rw [show (vm.withTags v).aux = vm.aux from rfl]; omega)]
        rw [show (vm.withTags v).aux = vm.aux from rfl, x1, hxs]
        refine ⟨_, Prod.ext ?_ rfl⟩
        simp only [Bool.false_eq_true, if_false]
        split
        · rfl
        · exact hSV.eddsa he _ _ _ _ hs
      · rw [if_neg he] at hrun
        obtain ⟨hash, n, hh, hs⟩ := hrun
        replace hh := hha _ hh
        have hne : ¬ isEddsa cfg x := by
          rintro ⟨-, h2⟩
          rw [halg] at h2
          exact he h2
        rw [r3 hns hne]
        unfold verifyDefault
        rw [hfl]
        by_cases hdo : hasFlag vm.flags optDecodeOnly = true
        · rw [if_pos hdo]; exact ⟨_, rfl⟩
        · rw [if_neg hdo, halg, hxp, hxpay, hh, hxs]
          simp only
          rw [show UB.bytes (.data sig) = sig from rfl]
          rw [show (vm.withTags v).key = vm.key from rfl, hSV.sign _ _ _ _ hs]
          exact ⟨_, rfl⟩
  obtain ⟨me2, hck⟩ := hck
  intro r
  have hr : r = _ := rfl
  rw [show r = verifyInternal cfg P C junk vm (UB.bytes (.data _)) aad pay want from rfl]
  rw [show UB.bytes (.data (coseSign1 (!hasFlag me.flags optOmitTag) me.alg (specKid me)
      (specCt cfgS me) (if det then none else some payload.bytes) sig).enc) =
      (coseSign1 (!hasFlag me.flags optOmitTag) me.alg (specKid me)
      (specCt cfgS me) (if det then none else some payload.bytes) sig).enc from rfl]
  rw [verify_run hP4 hview hpol hdec, hck]
  refine ⟨rfl, rfl, ?_, ?_⟩
  · intro hw
    exact ⟨x.payload, by simp [hw], by rw [hxb, hpo]⟩
  · intro hw
    refine ⟨x.params, by simp [hw], halg, hkid, ?_, ?_, ?_⟩
    · have := hpar.iv
      rw [s3] at this
      cases hq : x.params.iv with
      | none => rfl
      | some s => rw [hq] at this; cases this
    · have := hpar.partialIv
      rw [s4] at this
      cases hq : x.params.partialIv with
      | none => rfl
      | some s => rw [hq] at this; cases this
    · have := hpar.ct
      rw [s5] at this
      exact this

/-- What a verifier of the build `cfg` hands back about the headers that a signer of the build
`cfgS` wrote. -/
structure ReturnsAcross (cfgS cfg : Config) (me : SignCtx) (p : Params) : Prop where
  alg : p.alg = me.alg
  kid : p.kid.map (·.bytes) = specKid me
  iv : p.iv = none
  partialIv : p.partialIv = none
  ct : match (if cfg.disableContentType then ContentType.none else specCt cfgS me) with
    | .none => p.ctTstr = none ∧ p.ctUint = 65536
    | .num n => p.ctTstr = none ∧ p.ctUint = n
    | .text t => p.ctTstr.map (·.bytes) = some t ∧ p.ctUint = 65536

/-- The parts of a message of this size are not longer than the size. -/
theorem pieces_of_message {cfgS : Config} {CS : Crypto} (hfit : SignFits CS) {me me' : SignCtx}
    {payload m : Bytes} {msg : UB} {e' : Enc} {N : Nat} (hN : 12 ≤ N)
    (h : sign1Sign cfgS CS me (.data payload) (.buf m) = (.ok msg, me', e')) (hlen : msg.len ≤ N) :
    PiecesUpTo N (protectedHeader me.alg) [] payload := by
  obtain ⟨hpre, sig, rfl, -, -, -, -⟩ := sign_buf_run hfit (aad := .nil) (UB.wf_data payload) rfl h
  simp only [UB.len] at hlen
  have hp : (protectedHeader me.alg).length ≤ 12 := by
    rcases enabled_cases ((C32_supported_iff _ _).mp hpre.alg) with h | h | h | h | h | h | h <;>
      rw [h] <;> decide
  refine ⟨hN, by omega, Nat.zero_le _, Nat.le_trans ?_ hlen⟩
  unfold coseSign1
  cases hasFlag me.flags optOmitTag <;>
    simp [Item.enc, encList, UB.bytes, List.length_append] <;> omega

/-- **C83.** A message of one program is accepted by another, with the payload and the header
that was signed, although the build options and the adapters differ. -/
theorem C83_interop (cfgS cfgV : Config) (P : QParams) (CS CV : Crypto) (junk : Junk) (N : Nat)
    (D : Int → Bytes → Bytes) (me me' : SignCtx) (vm : VerifyCtx) (payload m : Bytes) (msg : UB) (e' : Enc)
    (hfit : SignFits CS) (hhash : HashFits CV) (hDS : Hashes N cfgS CS D me.alg)
    (hDV : Hashes N cfgV CV D me.alg) (hSV : Across CS CV me.alg me.key vm.key)
    (hP1 : 1 ≤ P.maxTags) (hP4 : P.maxTags ≤ 4) (hct : me.contentTypeUint ≤ 65536)
    (hkc : BuildFits cfgV me)
    (hag : Agrees me vm (sigStructure (protectedHeader me.alg) [] payload).length)
    (h : sign1Sign cfgS CS me (.data payload) (.buf m) = (.ok msg, me', e'))
    (hlen : msg.len ≤ 4294967293) (hN : 12 ≤ N) (hlenN : msg.len ≤ N) :
    let r := sign1Verify cfgV P CV junk vm msg.bytes true true
    r.res = .ok () ∧ r.ub = false ∧ (∃ b, r.payload = some b ∧ b.ub.bytes = payload) ∧
    ∃ p, r.params = some p ∧ ReturnsAcross cfgS cfgV me p := by
  have hpc := pieces_of_message hfit hN h hlenN
  obtain ⟨h1, h2, h3, h4⟩ := across_trip (junk := junk) (payload := .data payload) hfit hhash hDS hDV
    hpc hSV hP1 hP4 (UB.wf_data payload)
    (aad := .nil) rfl hct hkc hag h hlen true (pay := .inline true) ⟨true, rfl⟩
  refine ⟨h1, h2, h3 rfl, ?_⟩
  obtain ⟨p, hp, a, b, c, d, e⟩ := h4 rfl
  exact ⟨p, hp, a, b, c, d, e⟩

/-- **C83 for detached payloads** and external data. -/
theorem C83_detached (cfgS cfgV : Config) (P : QParams) (CS CV : Crypto) (junk : Junk) (N : Nat)
    (D : Int → Bytes → Bytes) (me me' : SignCtx) (vm : VerifyCtx) (aad payload : UB) (haw : aad.wf)
    (hpw : payload.wf) (m : Bytes) (msg : UB) (e' : Enc)
    (hfit : SignFits CS) (hhash : HashFits CV) (hDS : Hashes N cfgS CS D me.alg)
    (hDV : Hashes N cfgV CV D me.alg) (hSV : Across CS CV me.alg me.key vm.key)
    (hP1 : 1 ≤ P.maxTags) (hP4 : P.maxTags ≤ 4) (hct : me.contentTypeUint ≤ 65536)
    (hkc : BuildFits cfgV me)
    (hag : Agrees me vm (sigStructure (protectedHeader me.alg) aad.bytes payload.bytes).length)
    (h : sign1SignDetached cfgS CS me aad payload (.buf m) = (.ok msg, me', e'))
    (hlen : msg.len ≤ 4294967293) (hN : PiecesUpTo N (protectedHeader me.alg) aad.bytes payload.bytes) :
    let r := sign1VerifyDetached cfgV P CV junk vm msg.bytes aad payload true
    r.res = .ok () ∧ r.ub = false ∧ ∃ p, r.params = some p ∧ ReturnsAcross cfgS cfgV me p := by
  obtain ⟨h1, h2, -, h4⟩ := across_trip (junk := junk) hfit hhash hDS hDV hN hSV hP1 hP4 hpw
    (aad := aad) haw hct hkc hag h hlen true (pay := .detached payload) rfl
  refine ⟨h1, h2, ?_⟩
  obtain ⟨p, hp, a, b, c, d, e⟩ := h4 rfl
  exact ⟨p, hp, a, b, c, d, e⟩

/-! ## OpenSSL and PSA -/

theorem hashes_same {cfg : Config} {C : Crypto} {N : Nat} {DO : Int → Bytes → Bytes}
    {DP : Psa.HashAlg → Bytes → Bytes} {alg : Int} (hD : SameDigests DO DP) (h : Hashes N cfg C DO alg) :
    Hashes N cfg C (fun ha => DP (Spec.Psa.hashTable ha)) alg := by
  intro ha hh
  have := h ha hh
  rw [hD ha (hashFor_known hh).1] at this
  exact this

/-- OpenSSL's signatures, in the format of COSE, are accepted through PSA. -/
theorem openssl_psa_across {cfgS cfgV : Config} {LO : Ossl.Lib} {LP : Psa.Lib} {alg : Int} {sk : Nat} {pk : Key}
    (he : algEnabled cfgV alg) (h8 : alg ≠ -8) (hL : OpensslToPsa LO LP alg sk (pk.k % 2 ^ 32)) :
    Across (Ossl.crypto cfgS LO) (Psa.crypto cfgV LP) alg ⟨.openssl, sk⟩ pk where
  sign := by
    intro h n s kid hs
    have hst := C34_openssl_sign cfgS LO alg ⟨.openssl, sk⟩ h n s hs
    refine ((C34_psa cfgV LP alg pk h s n 0).2.1 kid).2 ⟨⟨he, h8⟩, ?_⟩
    rcases hst.okAlg with h1 | h1
    · obtain ⟨der, r, t, e1, e2, -, -, e3⟩ := hst.ecdsa h1
      obtain ⟨w, hw⟩ : ∃ w, coordOf alg = some w := by
        rcases h1.1 with h | h | h <;> subst h <;> exact ⟨_, rfl⟩
      obtain ⟨k1, k2⟩ := hL.ecdsa w hw
      obtain ⟨r', t', d1, d2, d3, d4⟩ := k2 _ _ _ e1
      rw [e2] at d1
      cases d1
      dsimp only at e3
      rw [k1] at e3
      rw [e3 d2 d3]
      exact d4
    · obtain ⟨ha, e1, e2⟩ := hst.pss h1
      exact hL.pss ha (by rcases h1.1 with h | h | h <;> subst h <;> rfl) e1 _ _ _ e2
  eddsa := fun h => absurd h h8

/-- PSA's signatures are accepted through OpenSSL. -/
theorem psa_openssl_across {cfgS cfgV : Config} {LP : Psa.Lib} {LO : Ossl.Lib} {alg : Int} {sk : Key} {pk : Nat}
    (hw : Spec.Ossl.Works LO) (hi : ∀ r s, LO.i2d r s = some (derSig r s))
    (he : algEnabled cfgV alg) (hk : pk ≠ 0) (hL : PsaToOpenssl LP LO alg (sk.k % 2 ^ 32) pk) :
    Across (Psa.crypto cfgS LP) (Ossl.crypto cfgV LO) alg sk ⟨.openssl, pk⟩ where
  sign := by
    intro h n s kid hs
    obtain ⟨⟨-, h8⟩, h2⟩ := (C34_psa cfgS LP alg sk h s n 0).1.1 hs
    obtain ⟨ha, -, hha⟩ := enabled_hash he h8
    exact openssl_verify_takes hw hi he h8 hk (fun w hc => (hL.ecdsa w hc).1) hha
      (fun w hc => (hL.ecdsa w hc).2 _ _ _ h2) (fun hc => hL.pss ha hc hha _ _ _ h2)
  eddsa := fun _ tbs n s kid hs => absurd hs ((C34_psa cfgS LP alg sk [] s n 0).2.2.2.1 tbs)

/-- **C83 from OpenSSL to PSA.** What a program built with OpenSSL signs (with an algorithm other than
EdDSA, which the PSA adapter does not have) is accepted by one built with PSA. -/
theorem C83_openssl_to_psa (cfgS cfgV : Config) (P : QParams) (LO : Ossl.Lib) (LP : Psa.Lib) (junk : Junk)
    (DO : Int → Bytes → Bytes) (AO : LO.Md → Int → Bytes → Prop) (DP : Psa.HashAlg → Bytes → Bytes)
    (AP : LP.Op → Psa.HashAlg → Bytes → Prop) (sk : Nat) (me me' : SignCtx) (vm : VerifyCtx)
    (payload m : Bytes) (msg : UB) (e' : Enc)
    (hw : Spec.Ossl.Works LO) (hfO : Spec.Ossl.Fits LO) (hfP : Spec.Psa.Fits LP)
    (hhO : Spec.Ossl.Hashing LO DO AO) (hhP : Spec.Psa.Hashing LP DP AP) (hD : SameDigests DO DP)
    (hsk : me.key = ⟨.openssl, sk⟩) (h8 : me.alg ≠ -8)
    (hL : OpensslToPsa LO LP me.alg sk (vm.key.k % 2 ^ 32))
    (hP1 : 1 ≤ P.maxTags) (hP4 : P.maxTags ≤ 4) (hct : me.contentTypeUint ≤ 65536) (hkc : BuildFits cfgV me)
    (hag : Agrees me vm (sigStructure (protectedHeader me.alg) [] payload).length)
    (h : sign1Sign cfgS (Ossl.crypto cfgS LO) me (.data payload) (.buf m) = (.ok msg, me', e'))
    (hlen : msg.len ≤ 4294967293) :
    let r := sign1Verify cfgV P (Psa.crypto cfgV LP) junk vm msg.bytes true true
    r.res = .ok () ∧ r.ub = false ∧ (∃ b, r.payload = some b ∧ b.ub.bytes = payload) ∧
    ∃ p, r.params = some p ∧ ReturnsAcross cfgS cfgV me p :=
  C83_interop cfgS cfgV P _ _ junk 4294967295 _ me me' vm payload m msg e' (openssl_signFits cfgS LO hfO)
    (psa_hashFits cfgV LP hfP) (hashes_same hD (openssl_hashes hw hhO)) (psa_hashes hhP)
    (by rw [hsk]; exact openssl_psa_across hkc.alg h8 hL) hP1 hP4 hct hkc hag h hlen (by decide) (by omega)

/-- **C83 from PSA to OpenSSL.** -/
theorem C83_psa_to_openssl (cfgS cfgV : Config) (P : QParams) (LP : Psa.Lib) (LO : Ossl.Lib) (junk : Junk)
    (DO : Int → Bytes → Bytes) (AO : LO.Md → Int → Bytes → Prop) (DP : Psa.HashAlg → Bytes → Bytes)
    (AP : LP.Op → Psa.HashAlg → Bytes → Prop) (pk : Nat) (me me' : SignCtx) (vm : VerifyCtx)
    (payload m : Bytes) (msg : UB) (e' : Enc)
    (hw : Spec.Ossl.Works LO) (hi : ∀ r s, LO.i2d r s = some (derSig r s))
    (hne : ∀ md, (LO.digestFinal md).1 ≠ 0 → (LO.digestFinal md).2 ≠ []) (hfP : Spec.Psa.Fits LP)
    (hhO : Spec.Ossl.Hashing LO DO AO) (hhP : Spec.Psa.Hashing LP DP AP) (hD : SameDigests DO DP)
    (hpk : vm.key = ⟨.openssl, pk⟩) (hpk0 : pk ≠ 0)
    (hL : PsaToOpenssl LP LO me.alg (me.key.k % 2 ^ 32) pk)
    (hP1 : 1 ≤ P.maxTags) (hP4 : P.maxTags ≤ 4) (hct : me.contentTypeUint ≤ 65536) (hkc : BuildFits cfgV me)
    (hag : Agrees me vm (sigStructure (protectedHeader me.alg) [] payload).length)
    (h : sign1Sign cfgS (Psa.crypto cfgS LP) me (.data payload) (.buf m) = (.ok msg, me', e'))
    (hlen : msg.len ≤ 4294967293) :
    let r := sign1Verify cfgV P (Ossl.crypto cfgV LO) junk vm msg.bytes true true
    r.res = .ok () ∧ r.ub = false ∧ (∃ b, r.payload = some b ∧ b.ub.bytes = payload) ∧
    ∃ p, r.params = some p ∧ ReturnsAcross cfgS cfgV me p :=
  C83_interop cfgS cfgV P _ _ junk 4294967295 _ me me' vm payload m msg e' (psa_signFits cfgS LP hfP)
    (openssl_hashFits cfgV LO hne) (psa_hashes hhP) (hashes_same hD (openssl_hashes hw hhO))
    (by rw [hpk]; exact psa_openssl_across hw hi hkc.alg hpk0 hL) hP1 hP4 hct hkc hag h hlen (by decide) (by omega)

/-- OpenSSL in two builds. -/
theorem openssl_builds_across {cfgS cfgV : Config} {L : Ossl.Lib} {alg : Int} {sk pk : Nat}
    (hw : Spec.Ossl.Works L) (hv : Spec.Ossl.Verifies L sk pk (Spec.Ossl.keyOctets L sk)) (he : algEnabled cfgV alg)
    (hpk : pk ≠ 0) (ho : ∀ w, coordOf alg = some w → Spec.Ossl.keyOctets L sk = w ∧ Spec.Ossl.keyOctets L pk = w) :
    Across (Ossl.crypto cfgS L) (Ossl.crypto cfgV L) alg ⟨.openssl, sk⟩ ⟨.openssl, pk⟩ where
  sign := by
    intro h n s kid hs
    have hst := C34_openssl_sign cfgS L alg ⟨.openssl, sk⟩ h n s hs
    have h8 : alg ≠ -8 := by
      rcases hst.okAlg with h1 | h1 <;> rcases h1.1 with h | h | h <;> subst h <;> decide
    obtain ⟨ha, -, hha⟩ := enabled_hash he h8
    refine openssl_verify_takes hw hv.i2d he h8 hpk (fun w hc => (ho w hc).2) hha ?_ ?_
    · intro w hc
      rcases hst.okAlg with h1 | h1
      · obtain ⟨der, r, t, e1, e2, -, -, e3⟩ := hst.ecdsa h1
        obtain ⟨r', t', d1, d2, d3, d4⟩ := hv.ecdsa _ _ _ e1
        rw [e2] at d1
        cases d1
        dsimp only at e3
        rw [(ho w hc).1] at e3 d2 d3
        exact ⟨r, t, e3 d2 d3, d2, d3, d4⟩
      · rcases h1.1 with h | h | h <;> subst h <;> cases hc
    · intro hc
      rcases hst.okAlg with h1 | h1
      · rcases h1.1 with h | h | h <;> subst h <;> cases hc
      · obtain ⟨ha', e1, e2⟩ := hst.pss h1
        rw [hha] at e1
        cases e1
        exact hv.pss _ _ _ _ e2
  eddsa := by
    intro _ tbs n s kid hs
    obtain ⟨-, -, -, -, h⟩ := (C34_openssl_eddsa L ⟨.openssl, sk⟩ tbs s n).1 hs
    exact openssl_eddsa_good hw hpk (hv.eddsa _ _ _ h)

/-- **C83 between two builds with OpenSSL**, with all algorithms. -/
theorem C83_openssl_builds (cfgS cfgV : Config) (P : QParams) (L : Ossl.Lib) (junk : Junk)
    (D : Int → Bytes → Bytes) (A : L.Md → Int → Bytes → Prop) (sk pk : Nat) (me me' : SignCtx) (vm : VerifyCtx)
    (payload m : Bytes) (msg : UB) (e' : Enc)
    (hw : Spec.Ossl.Works L) (hf : Spec.Ossl.Fits L) (hh : Spec.Ossl.Hashing L D A)
    (hne : ∀ md, (L.digestFinal md).1 ≠ 0 → (L.digestFinal md).2 ≠ [])
    (hv : Spec.Ossl.Verifies L sk pk (Spec.Ossl.keyOctets L sk))
    (hsk : me.key = ⟨.openssl, sk⟩) (hpk : vm.key = ⟨.openssl, pk⟩) (hpk0 : pk ≠ 0)
    (ho : ∀ w, coordOf me.alg = some w → Spec.Ossl.keyOctets L sk = w ∧ Spec.Ossl.keyOctets L pk = w)
    (hP1 : 1 ≤ P.maxTags) (hP4 : P.maxTags ≤ 4) (hct : me.contentTypeUint ≤ 65536) (hkc : BuildFits cfgV me)
    (hag : Agrees me vm (sigStructure (protectedHeader me.alg) [] payload).length)
    (h : sign1Sign cfgS (Ossl.crypto cfgS L) me (.data payload) (.buf m) = (.ok msg, me', e'))
    (hlen : msg.len ≤ 4294967293) :
    let r := sign1Verify cfgV P (Ossl.crypto cfgV L) junk vm msg.bytes true true
    r.res = .ok () ∧ r.ub = false ∧ (∃ b, r.payload = some b ∧ b.ub.bytes = payload) ∧
    ∃ p, r.params = some p ∧ ReturnsAcross cfgS cfgV me p :=
  C83_interop cfgS cfgV P _ _ junk 4294967295 _ me me' vm payload m msg e' (openssl_signFits cfgS L hf)
    (openssl_hashFits cfgV L hne) (openssl_hashes hw hh) (openssl_hashes hw hh)
    (by rw [hsk, hpk]; exact openssl_builds_across hw hv hkc.alg hpk0 ho) hP1 hP4 hct hkc hag h hlen
    (by decide) (by omega)

/-- **C83 between two builds with PSA.** -/
theorem C83_psa_builds (cfgS cfgV : Config) (P : QParams) (L : Psa.Lib) (junk : Junk)
    (D : Psa.HashAlg → Bytes → Bytes) (A : L.Op → Psa.HashAlg → Bytes → Prop) (me me' : SignCtx) (vm : VerifyCtx)
    (payload m : Bytes) (msg : UB) (e' : Enc) (hf : Spec.Psa.Fits L) (hh : Spec.Psa.Hashing L D A)
    (hv : Spec.Psa.Verifies L (me.key.k % 2 ^ 32) (vm.key.k % 2 ^ 32))
    (hP1 : 1 ≤ P.maxTags) (hP4 : P.maxTags ≤ 4) (hct : me.contentTypeUint ≤ 65536) (hkc : BuildFits cfgV me)
    (hag : Agrees me vm (sigStructure (protectedHeader me.alg) [] payload).length)
    (h : sign1Sign cfgS (Psa.crypto cfgS L) me (.data payload) (.buf m) = (.ok msg, me', e'))
    (hlen : msg.len ≤ 4294967293) :
    let r := sign1Verify cfgV P (Psa.crypto cfgV L) junk vm msg.bytes true true
    r.res = .ok () ∧ r.ub = false ∧ (∃ b, r.payload = some b ∧ b.ub.bytes = payload) ∧
    ∃ p, r.params = some p ∧ ReturnsAcross cfgS cfgV me p := by
  refine C83_interop cfgS cfgV P _ _ junk 4294967295 _ me me' vm payload m msg e' (psa_signFits cfgS L hf)
    (psa_hashFits cfgV L hf) (psa_hashes hh) (psa_hashes hh) ⟨?_, ?_⟩ hP1 hP4 hct hkc hag h hlen
    (by decide) (by omega)
  · intro hsh n s kid hs
    obtain ⟨⟨-, h8⟩, h2⟩ := (C34_psa cfgS L me.alg me.key hsh s n 0).1.1 hs
    have h3 := hv (Spec.Psa.sigId me.alg) hsh n (by rw [h2]; rfl)
    rw [h2] at h3
    exact ((C34_psa cfgV L me.alg vm.key hsh s n 0).2.1 kid).2 ⟨⟨hkc.alg, h8⟩, h3⟩
  · exact fun _ tbs n s kid hs => absurd hs ((C34_psa cfgS L me.alg me.key [] s n 0).2.2.2.1 tbs)

/-! ## Examples -/

/-- A PSA library that makes the signatures of `mainOssl`, and accepts them. -/
def joinSig (k : Nat) (h : Bytes) : Psa.SigAlg → Bytes
  | .ecdsa _ => coseSig ((mainBits k + 7) / 8) (Ossl.demoR h) (Ossl.demoS h)
  | _ => List.replicate 256 (h.headD 0)

def joinPsa : Psa.Lib :=
  { mainPsa with
    signHash := fun k a h n =>
      if n < (joinSig k h a).length then (Psa.errBufferTooSmall, []) else (0, joinSig k h a)
    verifyHash := fun k a h s => if s = joinSig k h a then 0 else Psa.errInvalidSignature }

theorem join_fits : Spec.Psa.Fits joinPsa where
  hash := (mainPsa_ready Config.full).fits.hash
  sign := by
    intro k a h n hs
    simp only [joinPsa] at hs ⊢
    split at hs
    · cases hs
    · rename_i h1
      rw [if_neg h1]
      exact Nat.le_of_not_lt h1

theorem join_hashing : Spec.Psa.Hashing joinPsa mainPsaDigest (fun op a b => op = (a, b) ∧ a ≠ .bad) :=
  (fun (h : Spec.Psa.Hashing mainPsa mainPsaDigest (fun op a b => op = (a, b) ∧ a ≠ .bad)) =>
    ⟨⟨h.digests.init, h.digests.update, h.digests.final⟩, h.known, h.update, h.final, h.len⟩)
    (mainPsa_ready Config.full).hashing

theorem join_digests : SameDigests mainDigest mainPsaDigest := by
  intro ha h
  rcases h with h | h | h <;> subst h <;> rfl

theorem join_forth : OpensslToPsa mainOssl joinPsa (-35) 2 2 where
  ecdsa := by
    intro w hw
    cases hw
    refine ⟨rfl, ?_⟩
    intro h n der hd
    simp only [mainOssl] at hd
    split at hd
    · cases hd
    · cases hd
      have hle : 256 ^ 32 ≤ 256 ^ 48 := Nat.pow_le_pow_right (by decide) (by decide)
      exact ⟨_, _, Ossl.demo_d2i h, Nat.lt_of_lt_of_le (Ossl.demoR_lt h) hle,
        Nat.lt_of_lt_of_le (Ossl.demoS_lt h) hle, if_pos rfl⟩
  pss := by
    intro ha hc
    cases hc

theorem join_back : PsaToOpenssl joinPsa mainOssl (-35) 2 2 where
  ecdsa := by
    intro w hw
    cases hw
    refine ⟨rfl, ?_⟩
    intro h n sig hs
    simp only [joinPsa] at hs
    split at hs
    · cases hs
    · cases hs
      have hle : 256 ^ 32 ≤ 256 ^ 48 := Nat.pow_le_pow_right (by decide) (by decide)
      exact ⟨_, _, rfl, Nat.lt_of_lt_of_le (Ossl.demoR_lt h) hle,
        Nat.lt_of_lt_of_le (Ossl.demoS_lt h) hle, mainOssl_plain (.inl rfl)⟩
  pss := by
    intro ha hc
    cases hc

/-- A signer with ES384 in the full build with one adapter, and a verifier with the other, in a build
without ES512, EdDSA, content type and short-circuit signatures. -/
def joinCfg : Config :=
  { Config.full with disableES512 := true, disableEDDSA := true, disableContentType := true, disableShortCircuit := true }

def joinSigner (lib : CryptoLib) : SignCtx :=
  { (SignCtx.init 0 (-35)) with key := ⟨lib, 2⟩, contentTypeUint := 42 }

def joinVerifier (lib : CryptoLib) : VerifyCtx := { VerifyCtx.init 0 with key := ⟨lib, 2⟩ }

example : BuildFits joinCfg (joinSigner .openssl) ∧
    Agrees (joinSigner .openssl) (joinVerifier .psa) (sigStructure (protectedHeader (-35)) [] [1, 2, 3]).length :=
  ⟨⟨by decide, by decide, by decide⟩, ⟨by unfold TagPolicy; decide, by decide, by decide, by decide⟩⟩

example : (match (sign1Sign Config.full (Ossl.crypto Config.full mainOssl) (joinSigner .openssl) (.data [1, 2, 3])
      (.buf (List.replicate 200 0))).1 with
    | .ok u =>
      let r := sign1Verify joinCfg QParams.std (Psa.crypto joinCfg joinPsa) noJunk (joinVerifier .psa) u.bytes true true
      (u.bytes.length, r.res, r.payload.map (fun b => b.ub.bytes), r.params.map (fun p => p.ctUint))
    | .error e => (0, .error e, none, none)) = (113, .ok (), some [1, 2, 3], some 65536) := by
  decide +kernel

example : (match (sign1Sign Config.full (Psa.crypto Config.full joinPsa) (joinSigner .psa) (.data [1, 2, 3])
      (.buf (List.replicate 200 0))).1 with
    | .ok u =>
      let r := sign1Verify joinCfg QParams.std (Ossl.crypto joinCfg mainOssl) noJunk (joinVerifier .openssl) u.bytes true
        true
      (u.bytes.length, r.res, r.payload.map (fun b => b.ub.bytes), r.params.map (fun p => p.ctUint))
    | .error e => (0, .error e, none, none)) = (113, .ok (), some [1, 2, 3], some 65536) := by
  decide +kernel

end TCose.Props
