import Verif.Props.EachSwitch
import Verif.Props.SignOutcome

/-!
# C99: what options and build switches change in signing

Pairs of signing calls that differ in one thing, for all contexts, payloads, external data and buffers.
-/

namespace TCose.Props
open TCose Spec

variable {cfg cfg' : Config} {C C' : Crypto} {D : Int → Bytes → Bytes} {me : SignCtx} {det : Bool} {payload aad : UB}
  {N : Nat}

/-- A signing call whose arguments are proper. -/
structure ProperArgs (N : Nat) (cfg : Config) (me : SignCtx) (det : Bool) (payload aad : UB) : Prop where
  payloadWf : payload.wf
  aadWf : aad.wf
  detached : det = true → payload.isNull = false
  pieces : PiecesUpTo N (protectedHeader me.alg) aad.bytes payload.bytes
  short : begun cfg me det payload.bytes < 2 ^ 32 - 9

/-- The result of signing into a buffer. -/
abbrev signed (cfg : Config) (C : Crypto) (me : SignCtx) (det : Bool) (payload aad : UB) (m : Bytes) : Except Err UB :=
  (signAadInternal cfg C me det payload aad (.buf m)).1

theorem signed_eq (hfit : SignFits C) (hD : Hashes N cfg C D me.alg) (ha : ProperArgs N cfg me det payload aad) (m : Bytes) :
    signed cfg C me det payload aad m =
      (outcome cfg C me det payload.bytes aad.bytes
        (toBeSignedHash cfg D me payload.bytes aad.bytes) m.length).map UB.data :=
  C67_sign cfg C D me det payload aad hfit hD m ha.payloadWf ha.aadWf ha.pieces ha.detached ha.short

/-! ## Options -/

theorem coseSign1_tag (alg : Int) (kid : Option Bytes) (ct : ContentType) (p : Option Bytes) (s : Bytes) :
    (coseSign1 true alg kid ct p s).enc = 0xd2 :: (coseSign1 false alg kid ct p s).enc := by
  unfold coseSign1
  simp only [if_true, Bool.false_eq_true, if_false]
  rfl

theorem finished_inner (me : SignCtx) (p s : Bytes) :
    (finished cfg me det p s).length =
      (if Opt.omitTag me.flags then 0 else 1) + (1 + (Item.bstr (protectedHeader me.alg)).enc.length +
        (unprotectedHeader (specKid me) (specCt cfg me)).enc.length +
        (if det then 1 else (Item.bstr p).enc.length) + (Item.bstr s).enc.length) := by
  have h6 : (head 6 18).length = 1 := rfl
  have h4 : (head 4 (0 + 1 + 1 + 1 + 1)).length = 1 := rfl
  unfold finished coseSign1
  cases Opt.omitTag me.flags <;> cases det <;>
    simp only [Item.enc, encList, Bool.not_false, Bool.not_true, if_true, if_false, Bool.false_eq_true, List.length_append,
      List.length_cons, List.length_nil, h6, h4] <;> omega

theorem finished_long {me : SignCtx} {p : Bytes} (s : Bytes) : 2 ≤ (finished cfg me det p s).length := by
  rw [finished_inner]
  have : 1 ≤ (Item.bstr s).enc.length := by
    simp only [Item.enc, List.length_append]
    unfold head
    repeat' split
    all_goals (simp only [List.length_cons]; omega)
  omega

/-- **C99 (OMIT_CBOR_TAG).** With the option and a buffer shorter by one octet, signing ends with the same error, or with
the same message without its first octet, which is the tag. -/
theorem C99_omit_tag {f : Nat} (hfit : SignFits C) (hD : Hashes N cfg C D me.alg)
    (ha : ProperArgs N cfg me det payload aad) (h0 : Opt.omitTag me.flags = false) (h1 : Opt.omitTag f = true)
    (hs : Opt.shortCircuit f = Opt.shortCircuit me.flags) {m m' : Bytes} (hm : m.length = m'.length + 1) :
    signed cfg C me det payload aad m =
      (signed cfg C { me with flags := f } det payload aad m').map fun u => .data (0xd2 :: u.bytes) := by
  have hfin : ∀ s, finished cfg me det payload.bytes s = 0xd2 :: finished cfg { me with flags := f } det payload.bytes s := by
    intro s
    unfold finished specKid specCt
    simp only [h0, h1, hs, Bool.not_false, Bool.not_true]
    exact coseSign1_tag _ _ _ _ _
  have hlen : 2 ≤ (finished cfg { me with flags := f } det payload.bytes []).length := finished_long _
  have hb : begun cfg me det payload.bytes = begun cfg { me with flags := f } det payload.bytes + 1 := by
    unfold begun
    rw [hfin, List.length_cons]
    omega
  have ha' : ProperArgs N cfg { me with flags := f } det payload aad :=
    ⟨ha.payloadWf, ha.aadWf, ha.detached, ha.pieces, by have := ha.short; omega⟩
  rw [signed_eq hfit hD ha, signed_eq (me := { me with flags := f }) hfit hD ha', hm]
  have hfault : ctxFault cfg { me with flags := f } = ctxFault cfg me := by
    unfold ctxFault
    simp only [hs]
  have hask : ∀ d, askSize C { me with flags := f } payload.bytes aad.bytes d =
      askSize C me payload.bytes aad.bytes d := by
    intro d
    unfold askSize
    simp only [hs]
    rfl
  have hmake : ∀ d n, makeSig C { me with flags := f } payload.bytes aad.bytes d n =
      makeSig C me payload.bytes aad.bytes d n := by
    intro d n
    unfold makeSig
    simp only [hs]
    rfl
  have hdig : toBeSignedHash cfg D { me with flags := f } payload.bytes aad.bytes =
      toBeSignedHash cfg D me payload.bytes aad.bytes := rfl
  rw [hdig]
  generalize toBeSignedHash cfg D me payload.bytes aad.bytes = d
  unfold outcome
  rw [hfault, hb, hask]
  cases ctxFault cfg me with
  | some x => rfl
  | none =>
    simp only [Nat.add_lt_add_iff_right, Nat.add_right_cancel_iff, Nat.add_sub_add_right, hmake, hfin, List.length_cons]
    by_cases g1 : m'.length < begun cfg { me with flags := f } det payload.bytes
    · simp only [if_pos g1]; rfl
    simp only [if_neg g1]
    by_cases g2 : m'.length = begun cfg { me with flags := f } det payload.bytes
    · simp only [if_pos g2]
      cases askSize C me payload.bytes aad.bytes d <;> rfl
    simp only [if_neg g2]
    cases makeSig C me payload.bytes aad.bytes d (m'.length - begun cfg { me with flags := f } det payload.bytes) with
    | error x => rfl
    | ok s =>
      simp only
      by_cases g3 : m'.length < (finished cfg { me with flags := f } det payload.bytes s).length
      · simp only [if_pos g3]; rfl
      · simp only [if_neg g3]; rfl

/-- **C99 (detached payload).** Signing with a detached payload, in a buffer that is shorter by what the payload takes as a
byte string beyond the one octet that stands for it: both calls end with the same error, or with messages that are the same
but for the payload, with one signature. -/
theorem C99_detached (hfit : SignFits C) (hD : Hashes N cfg C D me.alg)
    (ha : ProperArgs N cfg me false payload aad) (ha' : ProperArgs N cfg me true payload aad) {m m' : Bytes}
    (hm : m.length + 1 = m'.length + (Item.bstr payload.bytes).enc.length) :
    ∃ r : Except Err Bytes,
      signed cfg C me false payload aad m = r.map (fun s => .data (coseSign1 (!Opt.omitTag me.flags) me.alg (specKid me)
        (specCt cfg me) (some payload.bytes) s).enc) ∧
      signed cfg C me true payload aad m' = r.map (fun s => .data (coseSign1 (!Opt.omitTag me.flags) me.alg (specKid me)
        (specCt cfg me) none s).enc) := by
  have hl : ∀ s, (finished cfg me false payload.bytes s).length + 1 =
      (finished cfg me true payload.bytes s).length + (Item.bstr payload.bytes).enc.length := by
    intro s
    rw [finished_inner, finished_inner]
    simp only [if_true, Bool.false_eq_true, if_false]
    omega
  have hb : begun cfg me false payload.bytes + 1 =
      begun cfg me true payload.bytes + (Item.bstr payload.bytes).enc.length := by
    have h1 := finished_long (cfg := cfg) (det := false) (me := me) (p := payload.bytes) []
    have h2 := finished_long (cfg := cfg) (det := true) (me := me) (p := payload.bytes) []
    have h3 := hl []
    unfold begun
    omega
  rw [signed_eq hfit hD ha, signed_eq hfit hD ha']
  generalize toBeSignedHash cfg D me payload.bytes aad.bytes = d
  unfold outcome
  cases ctxFault cfg me with
  | some x => exact ⟨.error x, rfl, rfl⟩
  | none =>
    simp only
    by_cases g1 : m'.length < begun cfg me true payload.bytes
    · rw [if_pos g1, if_pos (by omega)]
      exact ⟨.error .tooSmall, rfl, rfl⟩
    rw [if_neg g1, if_neg (by omega)]
    by_cases g2 : m'.length = begun cfg me true payload.bytes
    · rw [if_pos g2, if_pos (by omega)]
      cases askSize C me payload.bytes aad.bytes d with
      | error x => exact ⟨.error x, rfl, rfl⟩
      | ok k => exact ⟨.error .tooSmall, rfl, rfl⟩
    rw [if_neg g2, if_neg (by omega)]
    have hr : m.length - begun cfg me false payload.bytes = m'.length - begun cfg me true payload.bytes := by omega
    rw [hr]
    cases makeSig C me payload.bytes aad.bytes d (m'.length - begun cfg me true payload.bytes) with
    | error x => exact ⟨.error x, rfl, rfl⟩
    | ok s =>
      simp only
      have := hl s
      by_cases g3 : m'.length < (finished cfg me true payload.bytes s).length
      · rw [if_pos g3, if_pos (by omega)]
        exact ⟨.error .tooSmall, rfl, rfl⟩
      · rw [if_neg g3, if_neg (by omega)]
        exact ⟨.ok s, rfl, rfl⟩

/-- **C99 (other bits).** Bits that are no option change nothing. -/
theorem C99_other_bits {f : Nat} (hfit : SignFits C) (hD : Hashes N cfg C D me.alg)
    (ha : ProperArgs N cfg me det payload aad) (h1 : Opt.omitTag f = Opt.omitTag me.flags)
    (hs : Opt.shortCircuit f = Opt.shortCircuit me.flags) (m : Bytes) :
    signed cfg C { me with flags := f } det payload aad m = signed cfg C me det payload aad m := by
  have hfin : ∀ s, finished cfg { me with flags := f } det payload.bytes s = finished cfg me det payload.bytes s := by
    intro s
    unfold finished specKid specCt
    simp only [h1, hs]
  have hb : begun cfg { me with flags := f } det payload.bytes = begun cfg me det payload.bytes := by
    unfold begun
    rw [hfin]
  have ha' : ProperArgs N cfg { me with flags := f } det payload aad :=
    ⟨ha.payloadWf, ha.aadWf, ha.detached, ha.pieces, by rw [hb]; exact ha.short⟩
  rw [signed_eq hfit hD ha, signed_eq (me := { me with flags := f }) hfit hD ha']
  have hfault : ctxFault cfg { me with flags := f } = ctxFault cfg me := by
    unfold ctxFault
    simp only [hs]
  have hask : ∀ d, askSize C { me with flags := f } payload.bytes aad.bytes d =
      askSize C me payload.bytes aad.bytes d := by
    intro d
    unfold askSize
    simp only [hs]
    rfl
  have hmake : ∀ d n, makeSig C { me with flags := f } payload.bytes aad.bytes d n =
      makeSig C me payload.bytes aad.bytes d n := by
    intro d n
    unfold makeSig
    simp only [hs]
    rfl
  have hdig : toBeSignedHash cfg D { me with flags := f } payload.bytes aad.bytes =
      toBeSignedHash cfg D me payload.bytes aad.bytes := rfl
  rw [hdig]
  unfold outcome
  simp only [hfault, hb, hask, hmake, hfin]

/-! ## Build switches -/

/-- **C99 (algorithms).** In a build without some algorithms signing is refused if the algorithm is one of them, and gives
otherwise the result of the build with them. -/
theorem C99_algorithms (hc : FewerAlgorithms cfg cfg') (hfit : SignFits C) (hfit' : SignFits C')
    (hD : Hashes N cfg C D me.alg) (hD' : Hashes N cfg' C' D me.alg) (hA : SignAlike C C' me.alg me.key)
    (ha : ProperArgs N cfg me det payload aad) (m : Bytes) :
    signed cfg' C' me det payload aad m =
      if algEnabled cfg me.alg ∧ ¬ algEnabled cfg' me.alg then .error .unsupportedSigningAlg
      else signed cfg C me det payload aad m := by
  have hfin : ∀ s, finished cfg' me det payload.bytes s = finished cfg me det payload.bytes s := by
    intro s
    unfold finished specCt
    rw [hc.contentType]
  have hb : begun cfg' me det payload.bytes = begun cfg me det payload.bytes := by
    unfold begun
    rw [hfin]
  have ha' : ProperArgs N cfg' me det payload aad :=
    ⟨ha.payloadWf, ha.aadWf, ha.detached, ha.pieces, by rw [hb]; exact ha.short⟩
  rw [signed_eq hfit' hD' ha', signed_eq hfit hD ha]
  by_cases h2 : algEnabled cfg' me.alg
  · have h1 := hc.algs _ h2
    have hn : ¬ (algEnabled cfg me.alg ∧ ¬ algEnabled cfg' me.alg) := fun h => h.2 h2
    rw [if_neg hn]
    have hfault : ctxFault cfg' me = ctxFault cfg me := by
      unfold ctxFault
      rw [if_neg (Classical.not_not.mpr h2), if_neg (Classical.not_not.mpr h1), hc.shortCircuit, hc.contentType]
    have hdig : toBeSignedHash cfg' D me payload.bytes aad.bytes = toBeSignedHash cfg D me payload.bytes aad.bytes := by
      unfold toBeSignedHash hashFor
      rw [if_pos h2, if_pos h1]
    have hask : ∀ d, askSize C' me payload.bytes aad.bytes d = askSize C me payload.bytes aad.bytes d := by
      intro d
      unfold askSize
      rw [hA.size]
    have hmake : ∀ d n, makeSig C' me payload.bytes aad.bytes d n = makeSig C me payload.bytes aad.bytes d n := by
      intro d n
      unfold makeSig
      simp only [hA.eddsa, hA.sign]
    rw [hdig]
    unfold outcome
    simp only [hfault, hb, hask, hmake, hfin]
  · have e2 : ctxFault cfg' me = some .unsupportedSigningAlg := by
      unfold ctxFault
      rw [if_pos h2]
    have hl : outcome cfg' C' me det payload.bytes aad.bytes (toBeSignedHash cfg' D me payload.bytes aad.bytes) m.length =
        .error .unsupportedSigningAlg := by
      unfold outcome
      rw [e2]
    rw [hl]
    by_cases h1 : algEnabled cfg me.alg
    · have hp : algEnabled cfg me.alg ∧ ¬ algEnabled cfg' me.alg := ⟨h1, h2⟩
      rw [if_pos hp]
      rfl
    · have hn : ¬ (algEnabled cfg me.alg ∧ ¬ algEnabled cfg' me.alg) := fun h => h1 h.1
      rw [if_neg hn]
      have e1 : ctxFault cfg me = some .unsupportedSigningAlg := by
        unfold ctxFault
        rw [if_pos h1]
      unfold outcome
      rw [e1]

/-- **C99 (short-circuit signatures).** In a build without them, signing is refused if the context asks for one and its
algorithm is one of the build, and nothing else changes. -/
theorem C99_short_circuit (hc : NoShortCircuit cfg cfg') (hfit : SignFits C) (hD : Hashes N cfg C D me.alg)
    (ha : ProperArgs N cfg me det payload aad) (m : Bytes) :
    signed cfg' C me det payload aad m =
      if algEnabled cfg me.alg ∧ Opt.shortCircuit me.flags = true then .error .shortCircuitSigDisabled
      else signed cfg C me det payload aad m := by
  obtain ⟨hw, rfl⟩ := hc
  rw [signed_eq (cfg := { cfg with disableShortCircuit := true }) hfit hD
    ⟨ha.payloadWf, ha.aadWf, ha.detached, ha.pieces, ha.short⟩, signed_eq hfit hD ha]
  unfold outcome ctxFault
  by_cases h1 : algEnabled cfg me.alg
  · cases h3 : Opt.shortCircuit me.flags
    · simp [h1]
      rfl
    · simp [h1]
      rfl
  · simp [h1]

/-- **C99 (content type).** A build without the content type makes the message that the other one makes if no content type
was set. -/
theorem C99_content_type (hc : NoContentType cfg cfg') (hfit : SignFits C) (hD : Hashes N cfg C D me.alg)
    (ha : ProperArgs N cfg { me with contentTypeUint := noContentType, contentTypeTstr := none } det payload aad) (m : Bytes) :
    signed cfg' C me det payload aad m =
      signed cfg C { me with contentTypeUint := noContentType, contentTypeTstr := none } det payload aad m := by
  obtain ⟨hw, rfl⟩ := hc
  have hfin : ∀ s, finished { cfg with disableContentType := true } me det payload.bytes s =
      finished cfg { me with contentTypeUint := noContentType, contentTypeTstr := none } det payload.bytes s := by
    intro s
    unfold finished specCt
    simp [hw]
    rfl
  have hb : begun { cfg with disableContentType := true } me det payload.bytes =
      begun cfg { me with contentTypeUint := noContentType, contentTypeTstr := none } det payload.bytes := by
    unfold begun
    rw [hfin]
  have hfault : ctxFault { cfg with disableContentType := true } me =
      ctxFault cfg { me with contentTypeUint := noContentType, contentTypeTstr := none } := by
    unfold ctxFault
    simp [hw]
  rw [signed_eq (cfg := { cfg with disableContentType := true }) hfit hD
    ⟨ha.payloadWf, ha.aadWf, ha.detached, ha.pieces, by rw [hb]; exact ha.short⟩,
    signed_eq (me := { me with contentTypeUint := noContentType, contentTypeTstr := none }) hfit hD ha]
  unfold outcome
  rw [hfault, hb]
  simp only [hfin]
  rfl

/-! ## The adapters of the repository -/

/-- **C99 (PSA).** The PSA adapters of two builds sign alike with the algorithms of both. -/
theorem C99_psa_alike (L : Psa.Lib) (hc : FewerAlgorithms cfg cfg') {alg : Int} (h8 : algEnabled cfg' alg) (key : Key) :
    SignAlike (Psa.crypto cfg L) (Psa.crypto cfg' L) alg key := by
  have h : Psa.sigAlg cfg' alg = Psa.sigAlg cfg alg := by
    have h9 := hc.algs alg h8
    rcases enabled_cases h8 with e | e | e | e | e | e | e <;> subst e <;>
      simp_all [Psa.sigAlg, algEnabled, algES256, algES384, algES512, algPS256, algPS384, algPS512]
  refine ⟨fun d n => ?_, ?_, fun _ _ => rfl⟩
  · show Psa.sign cfg' L alg key d n = Psa.sign cfg L alg key d n
    unfold Psa.sign
    rw [h]
  · show Psa.sigSize cfg' L alg key = Psa.sigSize cfg L alg key
    unfold Psa.sigSize
    rw [h]

/-- **C99 (OpenSSL).** The same of the OpenSSL adapters, if the library signs alike with the two sizes of the buffer for the
DER form. -/
theorem C99_openssl_alike (L : Ossl.Lib) (hc : FewerAlgorithms cfg cfg') {alg : Int} (h8 : algEnabled cfg' alg) (key : Key)
    (hb : ∀ d, L.pkeySign key.k .plain d (Spec.Ossl.derRoom cfg') = L.pkeySign key.k .plain d (Spec.Ossl.derRoom cfg)) :
    SignAlike (Ossl.crypto cfg L) (Ossl.crypto cfg' L) alg key := by
  obtain ⟨k1, k2⟩ := openssl_kind hc h8
  refine ⟨fun d n => ?_, ?_, fun _ _ => rfl⟩
  · show (Ossl.sign cfg' L alg key d n).1 = (Ossl.sign cfg L alg key d n).1
    have hcv : ∀ k, Ossl.keyConvert key = .ok k → k = key.k := by
      intro k h
      unfold Ossl.keyConvert at h
      split at h
      · cases h
      · split at h <;> cases h
        rfl
    unfold Ossl.sign Ossl.configure
    simp only [k1, k2, derBufSize_eq]
    cases hkc : Ossl.keyConvert key with
    | error e => rfl
    | ok k =>
      rw [hcv k hkc]
      by_cases he : algIsEcdsa cfg alg = true
      · simp only [he, hb, if_true]
      · simp only [he, Bool.false_eq_true, if_false]
  · show (Ossl.sigSize cfg' L alg key).1 = (Ossl.sigSize cfg L alg key).1
    unfold Ossl.sigSize
    simp only [k1, k2]

/-! ## Examples -/

/-- The arguments of a call. -/
example : ProperArgs 100 Config.full exCtx false (.data [1, 2, 3]) .nil ∧
    ProperArgs 100 Config.full exCtx true (.data [1, 2, 3]) .nil ∧ Opt.omitTag exCtx.flags = false ∧
    Opt.omitTag 2 = true ∧ Opt.shortCircuit 2 = Opt.shortCircuit exCtx.flags ∧
    (Item.bstr [1, 2, 3]).enc.length = 4 := by
  refine ⟨⟨rfl, rfl, by simp, by unfold PiecesUpTo; decide, by decide +kernel⟩,
    ⟨rfl, rfl, fun _ => rfl, by unfold PiecesUpTo; decide, by decide +kernel⟩, by decide, by decide, by decide, by decide⟩

/-- With and without the tag, detached, and in builds without something. -/
example :
    let s := fun cfg me det n => (signed cfg toyCrypto me det (.data [1, 2, 3]) .nil (List.replicate n 0)).map (·.bytes.length)
    let me := exCtx
    (s Config.full me false 87, s Config.full { me with flags := 2 } false 86, s Config.full me true 84) =
      (.ok 87, .ok 86, .ok 84) ∧
    (s Config.full me false 86, s Config.full { me with flags := 2 } false 85, s Config.full me true 83) =
      (.error .tooSmall, .error .tooSmall, .error .tooSmall) ∧
    (s Config.full { me with alg := -35 } false 100, s es256Only { me with alg := -35 } false 100) =
      (.ok 88, .error .unsupportedSigningAlg) ∧
    s { Config.full with disableShortCircuit := true } { me with flags := 1 } false 200 = .error .shortCircuitSigDisabled ∧
    s { Config.full with disableContentType := true } { me with contentTypeUint := 5 } false 200 =
      s Config.full { me with contentTypeUint := noContentType, contentTypeTstr := none } false 200 := by
  decide +kernel

/-- The adapters. -/
example (key : Key) : SignAlike (Psa.crypto Config.full mainPsa) (Psa.crypto es256Only mainPsa) (-7) key :=
  C99_psa_alike mainPsa es256Only_fewer (by decide) key

end TCose.Props
