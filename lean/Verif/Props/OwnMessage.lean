import Verif.Props.RoundTrip

/-!
# C03, C04: the outcome for the library's own messages, without exclusions

C03 and C04 leave out signers whose key id does not go with the kind of their signature
(`KidConsistent`) and verifiers whose options forbid the message (`Agrees`).  Here the outcome is
given for all of them, error codes included, and with it that the conditions are necessary as well
as sufficient.
-/

namespace TCose.Props
open TCose Spec

/-- A short-circuit signature can be checked for these algorithms. -/
def hasShortCircuit (alg : Int) : Prop := alg = -7 ∨ alg = -35 ∨ alg = -36

instance (alg : Int) : Decidable (hasShortCircuit alg) := by unfold hasShortCircuit; infer_instance

open Classical in
/-- How verification of the library's own message ends.  `n` is the length of the Sig_structure,
`hash` its hash, `sig` the signature made, `byKey` what the adapter says of a short-circuit
signature under the verifier's key; `outer` are tags put around the message by the application,
innermost first. -/
noncomputable def ownOutcome (cfg : Config) (me : SignCtx) (vm : VerifyCtx) (n : Nat)
    (hash sig : Bytes) (byKey : Except Err Unit) (outer : List Nat := []) : Except Err Unit :=
  if ¬ TagPolicy vm.flags ((if Spec.Opt.omitTag me.flags then [] else [18]) ++ outer) then
    .error .incorrectlyTagged
  else if Spec.Opt.requireKid vm.flags = true ∧ specKid me = none then .error .noKid
  else if cfg.disableShortCircuit = false ∧ specKid me = some scKid then
    -- taken for a short-circuit signature
    if Spec.Opt.decodeOnly vm.flags = true then .ok ()
    else if Spec.Opt.allowShortCircuit vm.flags = false then .error .shortCircuitSig
    else if Spec.Opt.shortCircuit me.flags = true then
      if hasShortCircuit me.alg then .ok () else .error .sigVerify
    else if me.alg = -8 then .error .unsupportedSigningAlg
    else if hash <+: sig then .ok () else .error .sigVerify
  else if Spec.Opt.shortCircuit me.flags = true then
    if Spec.Opt.decodeOnly vm.flags = true then .ok () else byKey
  else if me.alg = -8 then
    if vm.aux.cap < n then .error .auxiliaryBufferSize
    else if Spec.Opt.decodeOnly vm.flags = true then .ok ()
    else if vm.aux.isNull = true then .error .needAuxiliaryBuffer
    else .ok ()
  else .ok ()

/-- Tags around an encoded item. -/
theorem encodes_tagged {x : Item} {b : Bytes} (h : Encodes x b) : ∀ ts : List Nat, (∀ t ∈ ts, t < 2 ^ 64) →
    Encodes (tagged ts x) ((ts.map (Spec.head 6)).flatten ++ b)
  | [], _ => h
  | t :: ts, ht => by
    have := encodes_tagged h ts fun u hu => ht u (List.mem_cons_of_mem _ hu)
    simp only [List.map_cons, List.flatten_cons, List.append_assoc]
    exact .tag (head_of (ht t List.mem_cons_self)) this

/-- How verification ends for a message of the library's own with any signature `sig` it would
make, and tags around it. -/
theorem own_core {cfg : Config} {P : QParams} {C : Crypto} {junk : Junk} {me : SignCtx}
    {vm : VerifyCtx} {det : Bool} {payload aad : UB} {sig : Bytes} {outer : List Nat}
    (hpre : SignPre cfg me)
    (hrun : SigRun cfg C me (.data (protectedHeader me.alg)) aad (.data payload.bytes) sig)
    (hnn : det = true → payload = .data payload.bytes)
    (hhash : HashFits C) (hSV : SignVerify C me.key vm.key)
    (hP1 : outer.length + 1 ≤ P.maxTags) (hP4 : P.maxTags ≤ 4) (hot : ∀ t ∈ outer, t < 2 ^ 64)
    (hpw : payload.wf) (haw : aad.wf) (hct : me.contentTypeUint ≤ 65536) {msg : Bytes}
    (hmsg : msg = (outer.reverse.map (Spec.head 6)).flatten ++
      (coseSign1 (!hasFlag me.flags optOmitTag) me.alg (specKid me)
        (specCt cfg me) (if det then none else some payload.bytes) sig).enc)
    (hlen : msg.length ≤ 4294967293) (want : Bool) {pay : VPayload}
    (hpay : if det then pay = .detached payload else ∃ w, pay = .inline w) :
    ∃ hash,
      (¬ (Spec.Opt.shortCircuit me.flags = false ∧ me.alg = algEDDSA) →
        createTbsHash cfg C me.alg (.data (protectedHeader me.alg)) aad (.data payload.bytes)
          (maxHashSize cfg) = .ok hash) ∧
      (verifyInternal cfg P C junk vm msg aad pay want).res = ownOutcome cfg me vm
        (sigStructure (protectedHeader me.alg) aad.bytes payload.bytes).length hash sig
        (C.verify me.alg vm.key (specKid me) hash sig) outer ∧
      ∃ v, IsView P msg v ∧ v.tags = (if Spec.Opt.omitTag me.flags then [] else [18]) ++ outer ∧
        IsPayload pay v payload.bytes := by
  obtain ⟨a0, a1, a2⟩ := alg_range hpre.alg
  have ha64 : InInt64 me.alg := by unfold InInt64; omega
  have hctn : ∀ n, specCt cfg me = .num n → n ≤ 65535 := by
    intro n hn
    unfold specCt at hn
    split at hn
    · cases hn
    · split at hn
      · cases hn
      · split at hn
        · cases hn
        · rename_i hne
          injection hn with hn
          unfold noContentType at hne
          omega
  have hl1 : (coseSign1 (!hasFlag me.flags optOmitTag) me.alg (specKid me)
        (specCt cfg me) (if det then none else some payload.bytes) sig).enc.length < 2 ^ 64 := by
    rw [hmsg, List.length_append] at hlen
    omega
  have henc0 := signed_encoded (tag := !hasFlag me.flags optOmitTag) (kid := specKid me)
    (ct := specCt cfg me) (payload := if det then none else some payload.bytes) (sig := sig) ha64
    hl1 hctn
  have hfits0 := signed_fits (P := P) (tag := !hasFlag me.flags optOmitTag) (kid := specKid me)
    (ct := specCt cfg me) (payload := if det then none else some payload.bytes) (sig := sig) ha64
    (msg := msg) (by unfold maxDecodeInput; omega) (by omega)
  have hval0 := signed_valid (tag := !hasFlag me.flags optOmitTag) (kid := specKid me)
    (ct := specCt cfg me) (payload := if det then none else some payload.bytes) (sig := sig) a0 a1 a2
    hctn
  obtain ⟨s1, s2, -, -, -⟩ := signed_params (tag := !hasFlag me.flags optOmitTag) (alg := me.alg)
    (kid := specKid me) (ct := specCt cfg me)
    (payload := if det then none else some payload.bytes) (sig := sig)
  have hnc := signed_noCrit (tag := !hasFlag me.flags optOmitTag) (alg := me.alg)
    (kid := specKid me) (ct := specCt cfg me)
    (payload := if det then none else some payload.bytes) (sig := sig)
  generalize hmm : signedMessage (!hasFlag me.flags optOmitTag) me.alg (specKid me) (specCt cfg me)
    (if det then none else some payload.bytes) sig = sm0 at *
  let sm : Message := { sm0 with tags := outer.reverse ++ sm0.tags }
  have henc : sm.Encoded (protectedHeader me.alg) msg := by
    refine ⟨henc0.1, ?_⟩
    have := encodes_tagged henc0.2 outer.reverse fun t ht => hot t (List.mem_reverse.mp ht)
    rw [hmsg]
    have e1 : tagged sm.tags (sm.body (protectedHeader me.alg)) =
        tagged outer.reverse (tagged sm0.tags (sm0.body (protectedHeader me.alg))) := by
      simp only [tagged, sm, List.foldr_append]
      rfl
    rw [e1]
    exact this
  have hfits : sm.Fits P msg := by
    refine ⟨hfits0.size, ?_, hfits0.prot, hfits0.unprot⟩
    have : sm0.tags.length ≤ 1 := by
      subst hmm
      unfold signedMessage
      cases hasFlag me.flags optOmitTag <;> simp
    simp only [sm, List.length_append, List.length_reverse]
    omega
  have hval : sm.Valid := ⟨hval0.unique, hval0.range, hval0.alg, hval0.crit, hval0.ct, hval0.bstrs,
    hval0.protectedOnly, hval0.fewInts, hval0.fewTexts⟩
  have hsp : sm.payload = sm0.payload := rfl
  have hpm : PayMatches sm pay := by
    have hp0 : sm.payload = if det then none else some payload.bytes := by
      rw [hsp, ← hmm]; rfl
    cases det with
    | true =>
      simp only [if_true] at hpay hp0
      subst hpay
      exact ⟨hp0, hpw⟩
    | false =>
      simp only [Bool.false_eq_true, if_false] at hpay hp0
      obtain ⟨w, rfl⟩ := hpay
      simp [PayMatches, hp0]
  have hpo : payloadOf sm pay = payload.bytes := by
    have hp0 : sm.payload = if det then none else some payload.bytes := by
      rw [hsp, ← hmm]; rfl
    cases det with
    | true =>
      simp only [if_true] at hpay
      subst hpay
      rfl
    | false =>
      simp only [Bool.false_eq_true, if_false] at hpay hp0
      obtain ⟨w, rfl⟩ := hpay
      simp [payloadOf, hp0]
  obtain ⟨v, x, hview, htags, hdec, hpar, hcr, hxp, hxs, hxw, hxb, hxi, hxd⟩ :=
    message_run cfg henc hfits hval hpm
  have hxpay : x.payload.ub = .data payload.bytes := by
    cases det with
    | true =>
      simp only [if_true] at hpay
      rw [hxd _ hpay]
      exact hnn rfl
    | false =>
      simp only [Bool.false_eq_true, if_false] at hpay
      obtain ⟨w, hw⟩ := hpay
      rw [hxi w hw, hpo]
  have htg : v.tags = (if Spec.Opt.omitTag me.flags = true then [] else [18]) ++ outer := by
    rw [htags]
    simp only [sm, List.reverse_append, List.reverse_reverse]
    subst hmm
    unfold signedMessage
    rw [opt_omitTag]
    cases hasFlag me.flags optOmitTag <;> rfl
  have hsig : sm.sig = sig := by
    show sm0.sig = sig
    subst hmm; rfl
  rw [hsig] at hxs
  have halg : x.params.alg = me.alg := by
    rw [hpar.alg, show sm.alg = sm0.alg from rfl, s1]; rfl
  have hkid : x.params.kid.map (·.bytes) = specKid me := by
    rw [hpar.kid, show sm.bstrParam 4 = sm0.bstrParam 4 from rfl, s2]
  have hkn : x.params.kid = none ↔ specKid me = none := by
    rw [← hkid]; cases x.params.kid <;> simp
  have hfl : (vm.withTags v).flags = vm.flags := rfl
  have hax : (vm.withTags v).aux = vm.aux := rfl
  have hky : (vm.withTags v).key = vm.key := rfl
  have hw : x.Wf aad := ⟨by rw [hxp]; rfl, haw, hxw⟩
  have htbs : x.tbs aad = sigStructure (protectedHeader me.alg) aad.bytes payload.bytes := by
    unfold Decoded.tbs
    rw [hxp, hxpay]; rfl
  have hsc : isShortCircuit cfg x ↔ cfg.disableShortCircuit = false ∧
      specKid me = some scKid := by
    rw [← hkid]
    unfold isShortCircuit
    cases x.params.kid with
    | none =>
      simp only [Option.map_none, reduceCtorEq, and_false, iff_false, not_and]
      intro _ h
      exact absurd h (by decide)
    | some s => simp [Str.ub, UB.bytes, shortCircuitKid, scKid]
  have hed : me.alg = algEDDSA → isEddsa cfg x := by
    intro he
    have hen : cfg.disableEDDSA = false := by
      have ha := hpre.alg
      simp only [sigAlgSupported, he] at ha
      simpa [algEDDSA, algES256, algES384, algES512, algPS256, algPS384, algPS512] using ha
    exact ⟨hen, by rw [halg]; exact he⟩
  have hned : me.alg ≠ algEDDSA → ¬ isEddsa cfg x := by
    rintro he ⟨-, h2⟩
    rw [halg] at h2
    exact he h2
  -- the hash
  have hH : ∃ hash, (¬ (Spec.Opt.shortCircuit me.flags = false ∧ me.alg = algEDDSA) →
        createTbsHash cfg C me.alg (.data (protectedHeader me.alg)) aad (.data payload.bytes)
          (maxHashSize cfg) = .ok hash) := by
    unfold SigRun at hrun
    split at hrun
    · obtain ⟨hh, n, h1, -⟩ := hrun
      exact ⟨hh, fun _ => h1⟩
    · rename_i hns
      split at hrun
      · rename_i he
        exact ⟨[], fun hn => absurd ⟨by simpa using hns, he⟩ hn⟩
      · obtain ⟨hh, n, h1, -⟩ := hrun
        exact ⟨hh, fun _ => h1⟩
  obtain ⟨hash, hH⟩ := hH
  have hhf : ¬ (Spec.Opt.shortCircuit me.flags = false ∧ me.alg = algEDDSA) →
      hash ≠ [] ∧ hash.length ≤ 64 := by
    intro hn
    have hh := hH hn
    rw [createTbsHash_eq] at hh
    split at hh
    · cases hh
    · split at hh
      · cases hh
      · obtain ⟨q1, q2⟩ := hhash _ _ _ hh
        exact ⟨q1, Nat.le_trans q2 (maxHash_le cfg)⟩
  have hispay : IsPayload pay v payload.bytes := by
    have h1 := isPayload_of hdec
    rw [hxpay] at h1
    exact h1
  refine ⟨hash, hH, ?_, v, hview, htg, hispay⟩
  unfold ownOutcome
  by_cases hpol : TagPolicy vm.flags ((if Spec.Opt.omitTag me.flags = true then [] else [18]) ++ outer)
  rotate_left
  · rw [if_pos hpol, verify_untagged hP4 hview (by rw [htg]; exact hpol) hdec]; rfl
  rw [if_neg (not_not_intro hpol)]
  rw [verify_run_res hP4 hview (by rw [htg]; exact hpol) hdec]
  by_cases hk : Spec.Opt.requireKid vm.flags = true ∧ specKid me = none
  · rw [if_pos hk, checkDecoded_nokid (by rw [hfl, hkn]; exact hk)]
  rw [if_neg hk]
  have hpreck : PreChecks (vm.withTags v) x := by
    constructor
    · intro h1 h2
      exact hk ⟨h1, hkn.mp h2⟩
    · right
      rw [hcr]
      exact hnc
  obtain ⟨r1, r2, r3⟩ := checkDecoded_run (cfg := cfg) (C := C) (aad := aad) hpreck hdec.crOk
    hdec.unkOk
  by_cases hs : cfg.disableShortCircuit = false ∧ specKid me = some scKid
  · rw [if_pos hs, r1 (hsc.mpr hs)]
    simp only
    unfold verifyShortCircuit
    rw [hfl, opt_decodeOnly, opt_allowShortCircuit]
    by_cases hdo : hasFlag vm.flags optDecodeOnly = true
    · rw [if_pos hdo, if_pos hdo]
    rw [if_neg hdo, if_neg hdo]
    cases hal : hasFlag vm.flags optAllowShortCircuit with
    | false => rfl
    | true =>
    simp only [Bool.not_true, Bool.false_eq_true, if_false, Bool.true_eq_false]
    rw [halg, hxp, hxpay, hxs]
    by_cases hf : Spec.Opt.shortCircuit me.flags = true
    · have hn : ¬ (Spec.Opt.shortCircuit me.flags = false ∧ me.alg = algEDDSA) := by
        rw [hf]; simp
      rw [if_pos hf, hH hn]
      obtain ⟨q1, q2⟩ := hhf hn
      unfold SigRun at hrun
      rw [if_pos hf] at hrun
      obtain ⟨hash', n, hh', hss⟩ := hrun
      rw [hH hn] at hh'
      cases hh'
      simp only
      by_cases hsca : hasShortCircuit me.alg
      · rw [if_pos hsca]
        have : ∃ k, ecdsaSize me.alg = some k ∧ 64 ≤ k := by
          rcases hsca with h | h | h
          · rw [h]; exact ⟨64, rfl, by omega⟩
          · rw [h]; exact ⟨96, rfl, by omega⟩
          · rw [h]; exact ⟨132, rfl, by omega⟩
        obtain ⟨k, hk1, hk2⟩ := this
        exact C12_sign_verify me.alg k hk1 hash sig q1 (by omega) n hss
      · rw [if_neg hsca]
        have hnone : ecdsaSize me.alg = none := by
          unfold ecdsaSize
          rw [if_neg (show ¬ me.alg = algES256 from fun h => hsca (.inl h)),
            if_neg (show ¬ me.alg = algES384 from fun h => hsca (.inr (.inl h))),
            if_neg (show ¬ me.alg = algES512 from fun h => hsca (.inr (.inr h)))]
        rw [C13_violated_empty_signature me.alg hnone] at hss
        cases hss
        exact C13_empty_signature_rejected hash q1
    · rw [if_neg hf]
      by_cases he : me.alg = -8
      · rw [if_pos he, createTbsHash_eq, if_pos]
        rw [he]
        simp [hashAlgOfSigAlg, algES256, algES384, algES512, algPS256, algPS384, algPS512]
      · rw [if_neg he, hH (fun hc => he hc.2)]
        simp only
        obtain ⟨t1, t2⟩ := C12_verify_iff hash sig
        split
        · rename_i hp; exact t1.mpr hp
        · rename_i hp; exact t2 hp
  rw [if_neg hs]
  have hns : ¬ isShortCircuit cfg x := fun hc => hs (hsc.mp hc)
  by_cases hf : Spec.Opt.shortCircuit me.flags = true
  · rw [if_pos hf]
    have hn : ¬ (Spec.Opt.shortCircuit me.flags = false ∧ me.alg = algEDDSA) := by
      rw [hf]; simp
    have hne : me.alg ≠ algEDDSA := by
      intro he
      have hh := hH hn
      rw [createTbsHash_eq, if_pos] at hh
      · cases hh
      · rw [he]
        simp [hashAlgOfSigAlg, algES256, algES384, algES512, algPS256, algPS384, algPS512, algEDDSA]
    rw [r3 hns (hned hne)]
    simp only
    unfold verifyDefault
    rw [hfl, opt_decodeOnly]
    by_cases hdo : hasFlag vm.flags optDecodeOnly = true
    · rw [if_pos hdo, if_pos hdo]
    · rw [if_neg hdo, if_neg hdo, halg, hxp, hxpay, hH hn, hxs, hkid]
      rfl
  rw [if_neg hf]
  unfold SigRun at hrun
  rw [if_neg hf] at hrun
  by_cases he : me.alg = algEDDSA
  · rw [if_pos he] at hrun
    obtain ⟨n, hss⟩ := hrun
    rw [if_pos (show me.alg = -8 from he), r2 hns (hed he), verifyEddsa_eq hw, htbs, hax, hfl, hky]
    by_cases hc : vm.aux.cap < (sigStructure (protectedHeader me.alg) aad.bytes payload.bytes).length
    · rw [if_pos hc, if_pos hc]
    · rw [if_neg hc, if_neg hc, opt_decodeOnly, hxs]
      simp only
      split
      · rfl
      · split
        · rfl
        · exact hSV.eddsa _ _ _ _ hss
  · rw [if_neg he] at hrun
    obtain ⟨hash', n, hh', hss⟩ := hrun
    rw [if_neg (show ¬ me.alg = -8 from he), r3 hns (hned he)]
    simp only
    unfold verifyDefault
    split
    · rfl
    · rw [halg, hxp, hxpay, hh', hxs, hky]
      exact hSV.sign _ _ _ _ _ hss

theorem own_run {cfg : Config} {P : QParams} {C : Crypto} {junk : Junk} {me me' : SignCtx}
    {vm : VerifyCtx} {det : Bool} {payload aad : UB} {m : Bytes} {msg : UB} {e' : Enc}
    (hfit : SignFits C) (hhash : HashFits C) (hSV : SignVerify C me.key vm.key)
    (hP1 : 1 ≤ P.maxTags) (hP4 : P.maxTags ≤ 4) (hpw : payload.wf) (haw : aad.wf)
    (hct : me.contentTypeUint ≤ 65536)
    (h : signAadInternal cfg C me det payload aad (.buf m) = (.ok msg, me', e'))
    (hlen : msg.len ≤ 4294967293) (want : Bool) {pay : VPayload}
    (hpay : if det then pay = .detached payload else ∃ w, pay = .inline w) :
    ∃ hash sig, msg = .data (coseSign1 (!hasFlag me.flags optOmitTag) me.alg (specKid me)
        (specCt cfg me) (if det then none else some payload.bytes) sig).enc ∧
      SigRun cfg C me (.data (protectedHeader me.alg)) aad (.data payload.bytes) sig ∧
      (¬ (Spec.Opt.shortCircuit me.flags = false ∧ me.alg = algEDDSA) →
        createTbsHash cfg C me.alg (.data (protectedHeader me.alg)) aad (.data payload.bytes)
          (maxHashSize cfg) = .ok hash) ∧
      (verifyInternal cfg P C junk vm msg.bytes aad pay want).res = ownOutcome cfg me vm
        (sigStructure (protectedHeader me.alg) aad.bytes payload.bytes).length hash sig
        (C.verify me.alg vm.key (specKid me) hash sig) := by
  obtain ⟨hpre, sig, rfl, -, -, -, hrun⟩ := sign_buf_run hfit hpw haw h
  have hnn : det = true → payload = .data payload.bytes := by
    intro hd
    subst hd
    cases payload with
    | data b => rfl
    | null n =>
      obtain ⟨x, hx⟩ := sign_detached_null (C := C) (n := n) (aad := aad) (out := .buf m) hpre
      rw [h] at hx; cases hx
  obtain ⟨hash, h1, h2, -⟩ := own_core (junk := junk) (outer := []) hpre hrun hnn hhash hSV hP1 hP4
    (by simp) hpw haw hct rfl hlen want hpay
  exact ⟨hash, sig, rfl, hrun, h1, h2⟩

/-- **C03, C04 (exactly).** How verification of a message that the library has made ends, whatever
the options and the key id: `ownOutcome`. -/
theorem C03_exact (cfg : Config) (P : QParams) (C : Crypto) (junk : Junk)
    (me me' : SignCtx) (vm : VerifyCtx) (payload : Bytes) (m : Bytes) (msg : UB) (e' : Enc)
    (hfit : SignFits C) (hhash : HashFits C) (hSV : SignVerify C me.key vm.key)
    (hP1 : 1 ≤ P.maxTags) (hP4 : P.maxTags ≤ 4) (hct : me.contentTypeUint ≤ 65536)
    (h : sign1Sign cfg C me (.data payload) (.buf m) = (.ok msg, me', e'))
    (hlen : msg.len ≤ 4294967293) :
    ∃ hash sig, msg = .data (coseSign1 (!Spec.Opt.omitTag me.flags) me.alg (specKid me)
        (specCt cfg me) (some payload) sig).enc ∧
      SigRun cfg C me (.data (protectedHeader me.alg)) .nil (.data payload) sig ∧
      (¬ (Spec.Opt.shortCircuit me.flags = false ∧ me.alg = algEDDSA) →
        createTbsHash cfg C me.alg (.data (protectedHeader me.alg)) .nil (.data payload)
          (maxHashSize cfg) = .ok hash) ∧
      (sign1Verify cfg P C junk vm msg.bytes true true).res = ownOutcome cfg me vm
        (sigStructure (protectedHeader me.alg) [] payload).length hash sig
        (C.verify me.alg vm.key (specKid me) hash sig) :=
  own_run (junk := junk) hfit hhash hSV hP1 hP4 (UB.wf_data payload) (aad := .nil) rfl hct h hlen true
    (pay := .inline true) ⟨true, rfl⟩

/-- **C04 (exactly).** The same with a detached payload and external data. -/
theorem C04_exact (cfg : Config) (P : QParams) (C : Crypto) (junk : Junk)
    (me me' : SignCtx) (vm : VerifyCtx) (aad payload : UB) (haw : aad.wf) (hpw : payload.wf)
    (m : Bytes) (msg : UB) (e' : Enc)
    (hfit : SignFits C) (hhash : HashFits C) (hSV : SignVerify C me.key vm.key)
    (hP1 : 1 ≤ P.maxTags) (hP4 : P.maxTags ≤ 4) (hct : me.contentTypeUint ≤ 65536)
    (h : sign1SignDetached cfg C me aad payload (.buf m) = (.ok msg, me', e'))
    (hlen : msg.len ≤ 4294967293) :
    ∃ hash sig, msg = .data (coseSign1 (!Spec.Opt.omitTag me.flags) me.alg (specKid me)
        (specCt cfg me) none sig).enc ∧
      SigRun cfg C me (.data (protectedHeader me.alg)) aad (.data payload.bytes) sig ∧
      (¬ (Spec.Opt.shortCircuit me.flags = false ∧ me.alg = algEDDSA) →
        createTbsHash cfg C me.alg (.data (protectedHeader me.alg)) aad (.data payload.bytes)
          (maxHashSize cfg) = .ok hash) ∧
      (sign1VerifyDetached cfg P C junk vm msg.bytes aad payload true).res = ownOutcome cfg me vm
        (sigStructure (protectedHeader me.alg) aad.bytes payload.bytes).length hash sig
        (C.verify me.alg vm.key (specKid me) hash sig) :=
  own_run (junk := junk) hfit hhash hSV hP1 hP4 hpw (aad := aad) haw hct h hlen true
    (pay := .detached payload) rfl

/-- Signatures do not happen to look like those of the other kind: none made with the key begins
with the hash, and no repeated hash is accepted under the key. -/
structure NoConfusion (C : Crypto) (sk pk : Key) : Prop where
  plain : ∀ alg h n s, h ≠ [] → C.sign alg sk h n = .ok s → ¬ h <+: s
  short : ∀ alg h n s kid, h ≠ [] → scSign alg h n = .ok s → C.verify alg pk kid h s ≠ .ok ()

theorem hash_nonempty {cfg : Config} {C : Crypto} (hhash : HashFits C) {alg : Int} {p a w : UB}
    {hash : Bytes} (hh : createTbsHash cfg C alg p a w (maxHashSize cfg) = .ok hash) : hash ≠ [] := by
  rw [createTbsHash_eq] at hh
  split at hh
  · cases hh
  · split at hh
    · cases hh
    · exact (hhash _ _ _ hh).1

theorem own_iff {cfg : Config} {C : Crypto} {me : SignCtx} {vm : VerifyCtx} {p a w : UB} {n : Nat}
    {hash sig : Bytes} (hpre : cfg.disableShortCircuit = true → Spec.Opt.shortCircuit me.flags = false)
    (hes : Spec.Opt.shortCircuit me.flags = false → me.alg ≠ -8 → ∀ h,
      createTbsHash cfg C me.alg p a w (maxHashSize cfg) = .ok h → h = hash)
    (hss : Spec.Opt.shortCircuit me.flags = true → ∀ h,
      createTbsHash cfg C me.alg p a w (maxHashSize cfg) = .ok h → h = hash)
    (hne : Spec.Opt.shortCircuit me.flags = true ∨ me.alg ≠ -8 → hash ≠ [])
    (hno : NoConfusion C me.key vm.key) (hrun : SigRun cfg C me p a w sig)
    (hdo : Spec.Opt.decodeOnly vm.flags = false) :
    ownOutcome cfg me vm n hash sig (C.verify me.alg vm.key (specKid me) hash sig) = .ok () ↔
      Agrees me vm n ∧ KidConsistent cfg me := by
  unfold ownOutcome
  unfold SigRun at hrun
  rw [List.append_nil]
  by_cases hpol : TagPolicy vm.flags (if Spec.Opt.omitTag me.flags = true then [] else [18])
  rotate_left
  · rw [if_pos hpol]
    exact ⟨nofun, fun h => absurd h.1.tag hpol⟩
  rw [if_neg (not_not_intro hpol)]
  by_cases hk : Spec.Opt.requireKid vm.flags = true ∧ specKid me = none
  · rw [if_pos hk]
    exact ⟨nofun, fun h => absurd hk.2 (h.1.kid hk.1)⟩
  rw [if_neg hk]
  have hkid : Spec.Opt.requireKid vm.flags = true → specKid me ≠ none := fun h1 h2 => hk ⟨h1, h2⟩
  by_cases hs : cfg.disableShortCircuit = false ∧ specKid me = some scKid
  · rw [if_pos hs, if_neg (by rw [hdo]; simp)]
    cases hal : Spec.Opt.allowShortCircuit vm.flags with
    | false =>
      rw [if_pos rfl]
      refine ⟨nofun, fun ⟨h1, h2⟩ => ?_⟩
      cases hf : Spec.Opt.shortCircuit me.flags with
      | true =>
        rcases h1.short hf with h3 | h3
        · rw [hal] at h3; cases h3
        · rw [hdo] at h3; cases h3
      | false =>
        rcases h2.plain hf with h3 | h3
        · rw [hs.1] at h3; cases h3
        · exact absurd hs.2 h3
    | true =>
      rw [if_neg (by simp)]
      cases hf : Spec.Opt.shortCircuit me.flags with
      | true =>
        rw [if_pos rfl]
        by_cases hsca : hasShortCircuit me.alg
        · rw [if_pos hsca]
          refine ⟨fun _ => ⟨⟨hpol, hkid, fun _ => .inl hal, fun h => ?_⟩, ⟨fun _ => ⟨hs.2, hsca⟩,
            fun h => ?_⟩⟩, fun _ => rfl⟩
          · rw [hf] at h; cases h
          · rw [hf] at h; cases h
        · rw [if_neg hsca]
          exact ⟨nofun, fun h => absurd (h.2.short hf).2 hsca⟩
      | false =>
        rw [if_neg (by simp)]
        have hno' : ¬ KidConsistent cfg me := by
          intro h2
          rcases h2.plain hf with h3 | h3
          · rw [hs.1] at h3; cases h3
          · exact absurd hs.2 h3
        by_cases he : me.alg = -8
        · rw [if_pos he]
          exact ⟨nofun, fun h => absurd h.2 hno'⟩
        · rw [if_neg he]
          rw [if_neg (by rw [hf]; simp), if_neg (show ¬ me.alg = algEDDSA from he)] at hrun
          obtain ⟨h', n', h1, h2⟩ := hrun
          rw [hes hf he h' h1] at h2
          rw [if_neg (hno.plain _ _ _ _ (hne (.inr he)) h2)]
          exact ⟨nofun, fun h => absurd h.2 hno'⟩
  rw [if_neg hs]
  cases hf : Spec.Opt.shortCircuit me.flags with
  | true =>
    rw [if_pos rfl, if_neg (by rw [hdo]; simp)]
    rw [if_pos hf] at hrun
    obtain ⟨h', n', h1, h2⟩ := hrun
    rw [hss hf h' h1] at h2
    refine ⟨fun h => absurd h (hno.short _ _ _ _ _ (hne (.inl hf)) h2), fun h => ?_⟩
    have hen : cfg.disableShortCircuit = false := by
      cases hd : cfg.disableShortCircuit with
      | false => rfl
      | true => have := hpre hd; rw [hf] at this; cases this
    exact absurd ⟨hen, (h.2.short hf).1⟩ hs
  | false =>
    rw [if_neg (by simp)]
    have hkc : KidConsistent cfg me := by
      refine ⟨(fun h => by rw [hf] at h; cases h), fun _ => ?_⟩
      cases hd : cfg.disableShortCircuit with
      | true => exact .inl rfl
      | false => exact .inr fun h => hs ⟨hd, h⟩
    have hsh : Spec.Opt.shortCircuit me.flags = true → Spec.Opt.allowShortCircuit vm.flags = true ∨
        Spec.Opt.decodeOnly vm.flags = true := fun h => by rw [hf] at h; cases h
    by_cases he : me.alg = -8
    · rw [if_pos he, if_neg (show ¬ Spec.Opt.decodeOnly vm.flags = true by rw [hdo]; simp)]
      by_cases hc : vm.aux.cap < n
      · rw [if_pos hc]
        refine ⟨nofun, fun h => ?_⟩
        have := (h.1.aux hf he).2
        omega
      · rw [if_neg hc]
        cases hnull : vm.aux.isNull with
        | true =>
          rw [if_pos rfl]
          refine ⟨nofun, fun h => ?_⟩
          have := (h.1.aux hf he).1
          rw [hnull] at this
          cases this
        | false =>
          rw [if_neg (by simp)]
          exact ⟨fun _ => ⟨⟨hpol, hkid, hsh, fun _ _ => ⟨hnull, by omega⟩⟩, hkc⟩, fun _ => rfl⟩
    · rw [if_neg he]
      exact ⟨fun _ => ⟨⟨hpol, hkid, hsh, fun _ h => absurd h he⟩, hkc⟩, fun _ => rfl⟩

/-- **C03.** The conditions of C03 are necessary and sufficient: a verifier that checks signatures
accepts a message made by the library exactly if its options do not forbid the message and the
signer's key id goes with the kind of signature. -/
theorem C03_accepted_iff (cfg : Config) (P : QParams) (C : Crypto) (junk : Junk)
    (me me' : SignCtx) (vm : VerifyCtx) (payload : Bytes) (m : Bytes) (msg : UB) (e' : Enc)
    (hfit : SignFits C) (hhash : HashFits C) (hSV : SignVerify C me.key vm.key)
    (hno : NoConfusion C me.key vm.key)
    (hP1 : 1 ≤ P.maxTags) (hP4 : P.maxTags ≤ 4) (hct : me.contentTypeUint ≤ 65536)
    (h : sign1Sign cfg C me (.data payload) (.buf m) = (.ok msg, me', e'))
    (hlen : msg.len ≤ 4294967293) (hdo : Spec.Opt.decodeOnly vm.flags = false) :
    (sign1Verify cfg P C junk vm msg.bytes true true).res = .ok () ↔
      Agrees me vm (sigStructure (protectedHeader me.alg) [] payload).length ∧
        KidConsistent cfg me := by
  obtain ⟨hash, sig, -, hrun, hH, hres⟩ := C03_exact cfg P C junk me me' vm payload m msg e' hfit hhash
    hSV hP1 hP4 hct h hlen
  obtain ⟨hpre, -⟩ := sign_buf_run hfit (UB.wf_data payload) (aad := .nil) rfl h
  rw [hres]
  refine own_iff (fun hd => ?_) (fun _ he h' h1 => ?_) (fun hf h' h1 => ?_)
    (fun hc => hash_nonempty hhash (hH fun ⟨h1, h2⟩ => ?_)) hno hrun hdo
  · cases hf : Spec.Opt.shortCircuit me.flags with
    | false => rfl
    | true => exact absurd ⟨hf, hd⟩ hpre.sc
  · rw [hH (fun hc => he hc.2)] at h1
    cases h1; rfl
  · rw [hH (fun hc => by rw [hf] at hc; exact absurd hc.1 (by simp))] at h1
    cases h1; rfl
  · rcases hc with hc | hc
    · rw [h1] at hc; cases hc
    · exact hc h2

/-- **C04.** The same with a detached payload and external data. -/
theorem C04_accepted_iff (cfg : Config) (P : QParams) (C : Crypto) (junk : Junk)
    (me me' : SignCtx) (vm : VerifyCtx) (aad payload : UB) (haw : aad.wf) (hpw : payload.wf)
    (m : Bytes) (msg : UB) (e' : Enc)
    (hfit : SignFits C) (hhash : HashFits C) (hSV : SignVerify C me.key vm.key)
    (hno : NoConfusion C me.key vm.key)
    (hP1 : 1 ≤ P.maxTags) (hP4 : P.maxTags ≤ 4) (hct : me.contentTypeUint ≤ 65536)
    (h : sign1SignDetached cfg C me aad payload (.buf m) = (.ok msg, me', e'))
    (hlen : msg.len ≤ 4294967293) (hdo : Spec.Opt.decodeOnly vm.flags = false) :
    (sign1VerifyDetached cfg P C junk vm msg.bytes aad payload true).res = .ok () ↔
      Agrees me vm (sigStructure (protectedHeader me.alg) aad.bytes payload.bytes).length ∧
        KidConsistent cfg me := by
  obtain ⟨hash, sig, -, hrun, hH, hres⟩ := C04_exact cfg P C junk me me' vm aad payload haw hpw m msg e'
    hfit hhash hSV hP1 hP4 hct h hlen
  obtain ⟨hpre, -⟩ := sign_buf_run hfit hpw haw h
  rw [hres]
  refine own_iff (fun hd => ?_) (fun _ he h' h1 => ?_) (fun hf h' h1 => ?_)
    (fun hc => hash_nonempty hhash (hH fun ⟨h1, h2⟩ => ?_)) hno hrun hdo
  · cases hf : Spec.Opt.shortCircuit me.flags with
    | false => rfl
    | true => exact absurd ⟨hf, hd⟩ hpre.sc
  · rw [hH (fun hc => he hc.2)] at h1
    cases h1; rfl
  · rw [hH (fun hc => by rw [hf] at hc; exact absurd hc.1 (by simp))] at h1
    cases h1; rfl
  · rcases hc with hc | hc
    · rw [h1] at hc; cases hc
    · exact hc h2

/-! ## Examples -/

/-- The octets of a hash turned round. -/
def flipped (h : Bytes) : Bytes := h.map (255 - ·)

/-- An adapter whose signatures do not look like hashes. -/
def flipCrypto : Crypto :=
  { toyCrypto with
    sign := fun _ _ h n => if n < 64 then .error .sigBufferSize else .ok (toySig (flipped h))
    verify := fun _ _ _ h s => if s = toySig (flipped h) then .ok () else .error .sigVerify }

theorem flip_ne (x : UInt8) : 255 - x ≠ x := by
  intro h
  have h := congrArg UInt8.toNat h
  have hx := x.toNat_lt
  rw [UInt8.toNat_sub] at h
  simp only [UInt8.reduceToNat] at h
  omega

theorem flip_head {x : UInt8} {r : Bytes} : (toySig (flipped (x :: r)))[0]? = some (255 - x) := by
  simp [toySig, flipped]

theorem flip_noConfusion (sk pk : Key) : NoConfusion flipCrypto sk pk where
  plain := by
    intro alg h n s hne hs
    simp only [flipCrypto] at hs
    split at hs
    · simp at hs
    · cases h with
      | nil => exact absurd rfl hne
      | cons x r =>
        simp only [Except.ok.injEq] at hs
        subst hs
        rintro ⟨t, ht⟩
        have h1 := flip_head (x := x) (r := r)
        rw [← ht] at h1
        simp only [List.cons_append, List.getElem?_cons_zero, Option.some.injEq] at h1
        exact flip_ne x h1.symm
  short := by
    intro alg h n s kid hne hs
    simp only [flipCrypto]
    cases h with
    | nil => exact absurd rfl hne
    | cons x r =>
    rw [if_neg]
    · simp
    · rintro rfl
      cases hk : ecdsaSize alg with
      | none =>
        rw [C13_violated_empty_signature alg hk] at hs
        have := congrArg (fun y => match y with | Except.ok b => List.length b | .error _ => 0) hs
        simp [toySig_length] at this
      | some k =>
        obtain ⟨h1, h2⟩ := C12_sign_repeats alg k hk (x :: r) hne n
        by_cases hr : k ≤ n
        · obtain ⟨s, e1, e2, e3⟩ := h1 hr
          rw [hs] at e1
          cases e1
          rw [toySig_length] at e2
          have h4 := e3 0 (by omega)
          rw [flip_head] at h4
          simp only [List.length_cons, Nat.zero_mod, List.getElem?_cons_zero, Option.some.injEq] at h4
          exact flip_ne x h4
        · rw [h2 (by omega)] at hs; cases hs

theorem flip_signVerify (sk pk : Key) : Spec.SignVerify flipCrypto sk pk where
  sign := by
    intro alg h n s kid hs
    simp only [flipCrypto] at hs ⊢
    split at hs
    · simp at hs
    · simp at hs; simp [hs]
  eddsa := (toy_signVerify sk pk).eddsa

theorem flip_signFits : Spec.SignFits flipCrypto where
  sign := by
    intro alg key h n s hs
    simp only [flipCrypto] at hs
    split at hs
    · simp at hs
    · simp at hs; subst hs; rw [toySig_length]; omega
  eddsa := toy_signFits.eddsa

/-- Signs and verifies with this adapter. -/
def flipOwn (me : SignCtx) (flags : Nat) : Except Err Unit :=
  match (sign1Sign Config.full flipCrypto me (.data [1, 2, 3]) (.buf (List.replicate 400 0))).1 with
  | .ok u => (sign1Verify Config.full QParams.std flipCrypto noJunk (VerifyCtx.init flags) u.bytes true
      true).res
  | .error e => .error e

/-- The hypotheses hold together, and both sides of the equivalence occur: accepted; a key id that
stands for short-circuit signatures, not allowed and allowed; a short-circuit signature with a key
id of its own; one for PS256; a key id asked for and absent. -/
example : SignFits flipCrypto ∧ HashFits flipCrypto ∧ SignVerify flipCrypto Key.null Key.null ∧
    NoConfusion flipCrypto Key.null Key.null ∧
    flipOwn exCtx 0 = .ok () ∧ flipOwn ctxScKid 0 = .error .shortCircuitSig ∧
    flipOwn ctxScKid 1 = .error .sigVerify ∧
    flipOwn ((SignCtx.init 1 algES256).setKey Key.null (.data [1])) 1 = .error .sigVerify ∧
    flipOwn (SignCtx.init 1 algPS256) 1 = .error .sigVerify ∧
    flipOwn (SignCtx.init 1 algES256) 1 = .ok () ∧
    flipOwn (SignCtx.init 0 algES256) 2 = .error .noKid :=
  ⟨flip_signFits, toy_hashFits, flip_signVerify _ _, flip_noConfusion _ _, by decide +kernel,
    by decide +kernel, by decide +kernel, by decide +kernel, by decide +kernel, by decide +kernel,
    by decide +kernel⟩

end TCose.Props
