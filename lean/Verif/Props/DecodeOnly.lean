import Verif.Lemmas.VerifyRun
import Verif.Props.VerifyState

/-!
# C14: decode-only
-/

namespace TCose.Props
open TCose Spec

variable (cfg : Config) (P : QParams) (C : Crypto) (junk : Junk) (me : VerifyCtx)
  (msg : Bytes) (aad : UB) (pay : VPayload) (want : Bool)

theorem checkDecoded_decodeOnly {cfg : Config} {C C' : Crypto} {me : VerifyCtx} (k' : Key)
    (aad : UB) (x : Decoded) (hd : Spec.Opt.decodeOnly me.flags = true) :
    checkDecoded cfg C' { me with key := k' } aad x =
      ((checkDecoded cfg C me aad x).1, { (checkDecoded cfg C me aad x).2.1 with key := k' },
        (checkDecoded cfg C me aad x).2.2) := by
  have hd : hasFlag me.flags optDecodeOnly = true := hd
  obtain ⟨k, f, t, a, s⟩ := me
  simp only at hd
  unfold checkDecoded
  simp only
  split
  · rfl
  · generalize (if hasFlag f optUnknownCritAllowed then ((.ok () : Except Err Unit), false)
        else checkCritical x.crit x.unk) = y
    obtain ⟨cr, ub⟩ := y
    cases cr with
    | error e => rfl
    | ok u =>
      simp only
      split
      · unfold verifyShortCircuit
        simp only [hd, if_true]
      · split
        · unfold verifyEddsa
          simp only [hd, if_true]
          generalize createTbs x.prot.ub aad x.payload.ub a = z
          obtain ⟨r, b⟩ := z
          cases r with
          | error e => cases e <;> rfl
          | ok tbs => rfl
        · unfold verifyDefault
          simp only [hd, if_true]

/-- **C14 (no key, no crypto).** With DECODE_ONLY the result code and everything
returned are the same for every key and every crypto adapter, however it behaves:
neither is consulted. -/
theorem C14_no_crypto (C' : Crypto) (k' : Key) (hd : Spec.Opt.decodeOnly me.flags = true) :
    (verifyInternal cfg P C' junk { me with key := k' } msg aad pay want).res =
      (verifyInternal cfg P C junk me msg aad pay want).res ∧
    (verifyInternal cfg P C' junk { me with key := k' } msg aad pay want).params =
      (verifyInternal cfg P C junk me msg aad pay want).params ∧
    (verifyInternal cfg P C' junk { me with key := k' } msg aad pay want).payload =
      (verifyInternal cfg P C junk me msg aad pay want).payload ∧
    (verifyInternal cfg P C' junk { me with key := k' } msg aad pay want).ctx =
      { (verifyInternal cfg P C junk me msg aad pay want).ctx with key := k' } := by
  have hd : hasFlag me.flags optDecodeOnly = true := hd
  unfold verifyInternal
  simp only
  cases decodeErr ((Dec.init msg).enterArray P).err with
  | error e => exact ⟨rfl, rfl, rfl, rfl⟩
  | ok u =>
    simp only
    have hpt : processTags P { me with key := k' } ((Dec.init msg).enterArray P) =
        ((processTags P me ((Dec.init msg).enterArray P)).1,
          { (processTags P me ((Dec.init msg).enterArray P)).2.1 with key := k' },
          (processTags P me ((Dec.init msg).enterArray P)).2.2) := by
      unfold processTags
      simp only
      split
      · rfl
      · split
        · rfl
        · generalize tagLoop P _ (P.maxTags + 1) 1 _ _ = x
          obtain ⟨r, tags, ub⟩ := x
          rfl
    have hfl : (processTags P me ((Dec.init msg).enterArray P)).2.1.flags = me.flags := by
      unfold processTags
      simp only
      split
      · rfl
      · split
        · rfl
        · generalize tagLoop P _ (P.maxTags + 1) 1 _ _ = x
          obtain ⟨r, tags, ub⟩ := x
          rfl
    rw [hpt]
    generalize processTags P me ((Dec.init msg).enterArray P) = x at hfl ⊢
    obtain ⟨r, m, ub⟩ := x
    simp only at hfl
    cases r with
    | error e => exact ⟨rfl, rfl, rfl, rfl⟩
    | ok u =>
      simp only
      generalize decodeBody cfg P ((Dec.init msg).enterArray P) pay junk = y
      obtain ⟨r, st⟩ := y
      cases r with
      | error e => exact ⟨rfl, rfl, rfl, rfl⟩
      | ok x =>
        simp only
        rw [checkDecoded_decodeOnly (C := C) (C' := C') k' aad x (by rw [hfl]; exact hd)]
        generalize checkDecoded cfg C m aad x = z
        obtain ⟨r, m2, b⟩ := z
        cases r with
        | error e => exact ⟨rfl, rfl, rfl, rfl⟩
        | ok u => exact ⟨rfl, rfl, rfl, rfl⟩

/-- An adapter that refuses everything. -/
def refusingCrypto : Crypto where
  HashCtx := Unit
  hashStart _ := .error .hashGeneralFail
  hashUpdate h _ := h
  hashFinish _ _ := .error .hashGeneralFail
  sigSize _ _ := .error .sigFail
  sign _ _ _ _ := .error .sigFail
  verify _ _ _ _ _ := .error .sigFail
  signEddsa _ _ _ := .error .sigFail
  verifyEddsa _ _ _ _ := .error .sigFail

example : Spec.Opt.decodeOnly (VerifyCtx.init 8).flags = true ∧
    (verifyInternal Config.full QParams.std refusingCrypto noJunk (VerifyCtx.init 8)
      (toyMsg true es256Hdr [] [1]) .nil (.inline true) true).res = .ok () ∧
    (verifyInternal Config.full QParams.std refusingCrypto noJunk (VerifyCtx.init 0)
      (toyMsg true es256Hdr [] [1]) .nil (.inline true) true).res = .error .hashGeneralFail := by
  decide +kernel

/-- The message is not for EdDSA, or the auxiliary buffer (a NULL one of length
SIZE_MAX in particular) has room for its Sig_structure. -/
def AuxRoom (cfg : Config) (v : MsgView) (pay : VPayload) (aad : UB) (aux : Mem) : Prop :=
  cfg.disableEDDSA = true ∨ (∀ i, v.alg = some i → ¬ Int32Of i (-8)) ∨
  ∀ payload, IsPayload pay v payload →
    (sigStructure v.prot.bytes aad.bytes payload).length ≤ aux.cap

theorem auxRoom_tbs {cfg : Config} {P : QParams} {v : MsgView} {pay : VPayload} {aad : UB}
    {aux : Mem} {x : Decoded} (h : AuxRoom cfg v pay aad aux) (hdec : DecodesTo cfg P v pay x)
    (he : isEddsa cfg x) : (x.tbs aad).length ≤ aux.cap := by
  rcases h with h | h | h
  · rw [he.1] at h; cases h
  · obtain ⟨p1, hm⟩ := hdec.headersMean
    rcases hm.alg.2 with ⟨-, h0, -⟩ | ⟨i, hi, -, -, ha⟩
    · rw [he.2] at h0; cases h0
    · exact absurd (by rw [← show x.params.alg = -8 from he.2, ha]; exact toInt32_of i) (h i hi)
  · have := h _ (isPayload_of hdec)
    unfold Decoded.tbs
    rw [hdec.prot]
    exact this

/-- Decode-only passes once decoding and its checks do. -/
theorem decodeOnly_ok {cfg : Config} {P : QParams} {C : Crypto} {me : VerifyCtx} {aad : UB}
    {pay : VPayload} {v : MsgView} {x : Decoded} (hargs : ArgsOk aad pay)
    (hd : Spec.Opt.decodeOnly me.flags = true) (hdec : DecodesTo cfg P v pay x)
    (hpre : PreChecks me x) (hroom : AuxRoom cfg v pay aad me.aux) :
    ∃ me', checkDecoded cfg C me aad x = (.ok (), me', false) := by
  have hd : hasFlag me.flags optDecodeOnly = true := hd
  obtain ⟨h1, h2, h3⟩ := checkDecoded_run (cfg := cfg) (C := C) (aad := aad) hpre hdec.crOk
    hdec.unkOk
  by_cases hs : isShortCircuit cfg x
  · exact ⟨me, by rw [h1 hs]; unfold verifyShortCircuit; rw [if_pos hd]⟩
  · by_cases he : isEddsa cfg x
    · refine ⟨{ me with auxSize := (x.tbs aad).length }, ?_⟩
      have := auxRoom_tbs hroom hdec he
      rw [h2 hs he, verifyEddsa_eq (hdec.wf hargs.1 hargs.2), if_neg (by omega), if_pos hd]
    · exact ⟨me, by rw [h3 hs he]; unfold verifyDefault; rw [if_pos hd]⟩

/-- **C14 (independence), partial.** If a message is accepted, by decode-only or by
full verification, with any adapter, key, auxiliary buffer and external data, then
decode-only accepts it, and every message that differs from it only in the
signature (or what follows it), with any others of those, and returns the same
parameters and payload.  Missing from the full claim: an EdDSA message with an
auxiliary buffer that is too small (`AuxRoom`; see `C14_claim_false`). -/
theorem C14_independent_partial (hP : P.maxTags ≤ 4)
    (h : (verifyInternal cfg P C junk me msg aad pay want).res = .ok ())
    (C' : Crypto) (junk' : Junk) (me' : VerifyCtx) (msg' : Bytes) (aad' : UB)
    (hargs : ArgsOk aad' pay)
    (hd : Spec.Opt.decodeOnly me'.flags = true) (hf : SameDecoding me.flags me'.flags)
    (v : MsgView) (hv : IsView P msg v) (sig' : Str) (extra' : List Entry)
    (hv' : IsView P msg' { v with sig := sig', extra := extra' })
    (hroom : AuxRoom cfg v pay aad' me'.aux) :
    (verifyInternal cfg P C' junk' me' msg' aad' pay want).res = .ok () ∧
    (verifyInternal cfg P C' junk' me' msg' aad' pay want).params =
      (verifyInternal cfg P C junk me msg aad pay want).params ∧
    (verifyInternal cfg P C' junk' me' msg' aad' pay want).payload =
      (verifyInternal cfg P C junk me msg aad pay want).payload := by
  have hd : hasFlag me'.flags optDecodeOnly = true := hd
  obtain ⟨v0, x, me1, ub, hacc, heq⟩ := verify_ok hP h
  have := hv.unique hacc.view
  subst this
  have hdec' : DecodesTo cfg P { v with sig := sig', extra := extra' } pay
      { x with sig := .slice sig' } :=
    ⟨hacc.decodes.prot, rfl, hacc.decodes.payload, hacc.decodes.headers⟩
  have hpre := checkDecoded_pre hacc.check
  have hpre' : PreChecks me' x := hf.pre ⟨hpre.kid, hpre.crit⟩
  obtain ⟨me2, hc⟩ := decodeOnly_ok (C := C') (me := me'.withTags { v with sig := sig', extra := extra' })
    (aad := aad') hargs hd hdec' ⟨hpre'.kid, hpre'.crit⟩ hroom
  rw [verify_run hP hv' (hf.policy hacc.policy) hdec' junk' want, hc, heq]
  exact ⟨rfl, rfl, rfl⟩

/-- The message with another signature. -/
example : (viewOf QParams.std (toyMsg true es256Hdr [] [1])).map (fun v => { v with sig := ⟨0, []⟩ })
    = (viewOf QParams.std ((toyMsg true es256Hdr [] [1]).set 20 0)).map
        (fun v => { v with sig := ⟨0, []⟩ }) ∧
    (toyVerify 0 (toyMsg true es256Hdr [] [1])).res = .ok () ∧
    (toyVerify 0 ((toyMsg true es256Hdr [] [1]).set 20 0)).res = .error .sigVerify ∧
    (toyVerify 8 ((toyMsg true es256Hdr [] [1]).set 20 0)).res = .ok () := by decide +kernel

example : SameDecoding 0 8 ∧ ∀ v aad pay, AuxRoom { Config.full with disableEDDSA := true } v pay
    aad (.null 0) := ⟨⟨rfl, rfl, rfl, rfl⟩, fun _ _ _ => .inl rfl⟩

/-- **C14 (only decoding errors).** If decode-only fails, other than for the size
of the auxiliary buffer, then so does full verification with the same options, with
the same error, whatever the adapter, the key and the external data. -/
theorem C14_same_error (hP : P.maxTags ≤ 4) (hargs : ArgsOk aad pay)
    (hd : Spec.Opt.decodeOnly me.flags = true) (e : Err) (hne : e ≠ .auxiliaryBufferSize)
    (h : (verifyInternal cfg P C junk me msg aad pay want).res = .error e)
    (C' : Crypto) (me' : VerifyCtx) (aad' : UB) (hf : SameDecoding me.flags me'.flags) :
    (verifyInternal cfg P C' junk me' msg aad' pay want).res = .error e := by
  have hd : hasFlag me.flags optDecodeOnly = true := hd
  unfold verifyInternal at h ⊢
  simp only at h ⊢
  cases hq : ((Dec.init msg).enterArray P).err with
  | some q =>
    rw [hq] at h
    have : decodeErr (some q) ≠ .ok () := by
      intro hc; exact absurd (decodeErr_ok.mp hc) (by simp)
    generalize decodeErr (some q) = y at this h ⊢
    cases y with
    | error x => exact h
    | ok u => exact absurd rfl this
  | none =>
    have htl := enterArray_tags hq
    rw [hq, decodeErr_ok.mpr rfl] at h
    rw [decodeErr_ok.mpr rfl]
    simp only at h ⊢
    have hpi : TagPolicy me'.flags ((Dec.init msg).enterArray P).tags ↔
        TagPolicy me.flags ((Dec.init msg).enterArray P).tags := by
      unfold TagPolicy; rw [hf.req, hf.proh]
    rcases processTags_eq (me := me) hq htl hP with ⟨hp, hpt⟩ | ⟨hp, hpt⟩ <;>
      rcases processTags_eq (me := me') hq htl hP with ⟨hp', hpt'⟩ | ⟨hp', hpt'⟩
    · rw [hpt] at h
      rw [hpt']
      simp only at h ⊢
      generalize hb : decodeBody cfg P ((Dec.init msg).enterArray P) pay junk = y at h ⊢
      obtain ⟨r, st⟩ := y
      cases r with
      | error x => exact h
      | ok x =>
        simp only at h ⊢
        obtain ⟨v, hv, hvt, hdec⟩ := decodeBody_ok hq hb
        have hc0 : (checkDecoded cfg C { me with auTags := padTags (restTags
            ((Dec.init msg).enterArray P).tags) } aad x).1 = .error e := by
          revert h
          generalize checkDecoded cfg C _ aad x = z
          obtain ⟨r, m, b⟩ := z
          cases r with
          | error x => intro h; simpa [VRes.fail] using h
          | ok u => intro h; cases h
        have hc1 : (checkDecoded cfg C' { me' with auTags := padTags (restTags
            ((Dec.init msg).enterArray P).tags) } aad' x).1 = .error e := by
          generalize hm : ({ me with auTags := padTags (restTags
            ((Dec.init msg).enterArray P).tags) } : VerifyCtx) = m at hc0
          generalize hm' : ({ me' with auTags := padTags (restTags
            ((Dec.init msg).enterArray P).tags) } : VerifyCtx) = m'
          have hfm : SameDecoding m.flags m'.flags := by rw [← hm, ← hm']; exact hf
          have hdm : hasFlag m.flags optDecodeOnly = true := by rw [← hm]; exact hd
          clear hm hm'
          by_cases hpre : PreChecks m x
          · exfalso
            obtain ⟨h1, h2, h3⟩ := checkDecoded_run (cfg := cfg) (C := C) (aad := aad) hpre
              hdec.crOk hdec.unkOk
            by_cases hs : isShortCircuit cfg x
            · rw [h1 hs] at hc0
              unfold verifyShortCircuit at hc0
              rw [if_pos hdm] at hc0
              cases hc0
            · by_cases he : isEddsa cfg x
              · rw [h2 hs he, verifyEddsa_eq (hdec.wf hargs.1 hargs.2), if_pos hdm] at hc0
                split at hc0
                · simp only [Except.error.injEq] at hc0
                  exact hne hc0.symm
                · cases hc0
              · rw [h3 hs he] at hc0
                unfold verifyDefault at hc0
                rw [if_pos hdm] at hc0
                cases hc0
          · unfold checkDecoded at hc0 ⊢
            rw [show hasFlag m'.flags optRequireKid = hasFlag m.flags optRequireKid from hfm.kid,
              show hasFlag m'.flags optUnknownCritAllowed = hasFlag m.flags optUnknownCritAllowed
                from hfm.crit]
            split
            · rename_i hk
              rw [if_pos hk] at hc0
              exact hc0
            · rename_i hk
              rw [if_neg hk] at hc0
              simp only at hc0 ⊢
              generalize hcr : (if hasFlag m.flags optUnknownCritAllowed = true then
                ((.ok (), false) : Except Err Unit × Bool) else checkCritical x.crit x.unk) = cr
                at hc0 ⊢
              obtain ⟨r, b⟩ := cr
              cases r with
              | error y => exact hc0
              | ok u =>
                exfalso
                apply hpre
                refine ⟨fun hf hn => hk (by rw [← opt_requireKid, hf, hn]; rfl), ?_⟩
                split at hcr
                · rename_i hfl; exact .inl hfl
                · rw [hcr]; exact .inr rfl
        generalize checkDecoded cfg C' _ aad' x = z at hc1 ⊢
        obtain ⟨r, m, b⟩ := z
        simp only at hc1
        subst hc1
        rfl
    · exact absurd (hpi.mpr hp) hp'
    · exact absurd (hpi.mp hp') hp
    · rw [hpt] at h
      rw [hpt']
      exact h

example : (toyVerify 8 (toyMsg true [] es256Hdr [1])).res = .error .parameterNotProtected ∧
    (toyVerify 0 (toyMsg true [] es256Hdr [1])).res = .error .parameterNotProtected := by
  decide +kernel

/-- **C14, the full claim is false**: with an EdDSA message and a registered
auxiliary buffer the outcome depends on the external data (and on the buffer). -/
theorem C14_claim_false :
    ¬ ∀ (cfg : Config) (C : Crypto) (junk : Junk) (me : VerifyCtx) (msg : Bytes) (aad aad' : UB),
      aad.wf → aad'.wf → Spec.Opt.decodeOnly me.flags = true →
      (sign1VerifyAad cfg QParams.std C junk me msg aad true true).res =
        (sign1VerifyAad cfg QParams.std C junk me msg aad' true true).res := by
  intro h
  have := h Config.full toyCrypto noJunk
    ((VerifyCtx.init 8).setAux Config.full (.buf (List.replicate 19 0)))
    (toyMsgEddsa [] [1]) .nil (.data [1, 2]) rfl rfl rfl
  revert this
  decide +kernel

end TCose.Props
