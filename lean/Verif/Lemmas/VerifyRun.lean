import Verif.Lemmas.VerifySafe

/-!
# A verification of a message laid open, whatever the checks say
-/

namespace TCose
open Spec

theorem DecodesTo.crOk {cfg : Config} {P : QParams} {v : MsgView} {pay : VPayload} {x : Decoded}
    (h : DecodesTo cfg P v pay x) : CrOk x.crit := by
  obtain ⟨p1, hm⟩ := h.headersMean
  rcases hm.crit.mean with ⟨-, h⟩ | ⟨e, k, ces, cEnd, -, -, -, -, -, h1, h2, h3, -⟩
  · exact ⟨[], [], by simp, by simp, h⟩
  · exact ⟨_, _, h1, h2, h3⟩

theorem DecodesTo.unkOk {cfg : Config} {P : QParams} {v : MsgView} {pay : VPayload} {x : Decoded}
    (h : DecodesTo cfg P v pay x) : UnkOk x.unk := by
  obtain ⟨p1, hm⟩ := h.headersMean
  exact ⟨_, hm.unkOk, hm.unk⟩

/-- The call ends with the outcome of the checks after decoding. -/
theorem verify_run {cfg : Config} {P : QParams} {C : Crypto} {me : VerifyCtx}
    {msg : Bytes} {aad : UB} {pay : VPayload} {v : MsgView} {x : Decoded}
    (hP : P.maxTags ≤ maxTagsToReturn) (hv : IsView P msg v) (hpol : TagPolicy me.flags v.tags)
    (hdec : DecodesTo cfg P v pay x) (junk : Junk) (want : Bool) :
    verifyInternal cfg P C junk me msg aad pay want =
      match checkDecoded cfg C (me.withTags v) aad x with
      | (.error e, me', ub') => .fail e me' ub'
      | (.ok (), me', ub') =>
        { res := .ok (), ctx := me', params := if want then some x.params else none,
          payload := if pay = .inline true then some x.payload else none, ub := ub' } := by
  obtain ⟨he, hvt, st, hb⟩ := decodeBody_intro (junk := junk) hv hdec
  have htl : ((Dec.init msg).enterArray P).tags.length ≤ P.maxTags := by
    rw [hvt]; exact hv.tags_le
  have h1 := hdec.crOk.ub
  have h2 := hdec.unkOk.ub
  unfold verifyInternal
  simp only
  rw [decodeErr_ok.mpr he]
  simp only
  rcases processTags_eq (me := me) he htl hP with ⟨-, hpt⟩ | ⟨hnp, -⟩
  · rw [hpt]
    simp only
    rw [hb]
    simp only
    have hme : { me with auTags := padTags (restTags ((Dec.init msg).enterArray P).tags) }
        = me.withTags v := by rw [hvt]; rfl
    rw [hme]
    generalize checkDecoded cfg C (me.withTags v) aad x = z
    obtain ⟨r, m, b⟩ := z
    cases r <;> simp [h1, h2]
  · rw [hvt] at hnp
    exact absurd hpol hnp

/-- The checks between decoding and the signature pass. -/
structure PreChecks (me : VerifyCtx) (x : Decoded) : Prop where
  kid : Spec.Opt.requireKid me.flags = true → x.params.kid ≠ none
  crit : Spec.Opt.unknownCritAllowed me.flags = true ∨ (checkCritical x.crit x.unk).1 = .ok ()

theorem checkDecoded_run {cfg : Config} {C : Crypto} {me : VerifyCtx} {aad : UB} {x : Decoded}
    (h : PreChecks me x) (hc : CrOk x.crit) (hu : UnkOk x.unk) :
    (isShortCircuit cfg x → checkDecoded cfg C me aad x =
      (verifyShortCircuit cfg C me x.params x.sig.ub x.prot.ub aad x.payload.ub, me, false)) ∧
    (¬ isShortCircuit cfg x → isEddsa cfg x → checkDecoded cfg C me aad x =
      verifyEddsa C me x.params x.sig.ub x.prot.ub aad x.payload.ub) ∧
    (¬ isShortCircuit cfg x → ¬ isEddsa cfg x → checkDecoded cfg C me aad x =
      (verifyDefault cfg C me x.params x.sig.ub x.prot.ub aad x.payload.ub, me, false)) := by
  have hk : ¬ (hasFlag me.flags optRequireKid && x.params.kid.isNone) = true := by
    intro hk
    rw [Bool.and_eq_true] at hk
    exact h.kid hk.1 (by simpa using hk.2)
  have hcr : (if hasFlag me.flags optUnknownCritAllowed = true then
      ((.ok (), false) : Except Err Unit × Bool) else checkCritical x.crit x.unk) =
      (.ok (), false) := by
    by_cases hf : hasFlag me.flags optUnknownCritAllowed = true
    · rw [if_pos hf]
    · rw [if_neg hf]
      rcases h.crit with h1 | h1
      · exact absurd h1 hf
      · refine Prod.ext h1 ?_
        unfold checkCritical
        simp [hc.term, hu.term]
  have hs : (!cfg.disableShortCircuit && (Str.ub x.params.kid).bytes == shortCircuitKid) = true ↔
      isShortCircuit cfg x := by
    simp [isShortCircuit]
  have he : (!cfg.disableEDDSA && x.params.alg == algEDDSA) = true ↔ isEddsa cfg x := by
    simp [isEddsa]
  unfold checkDecoded
  rw [if_neg hk]
  simp only
  rw [hcr]
  simp only
  refine ⟨fun h1 => ?_, fun h1 h2 => ?_, fun h1 h2 => ?_⟩
  · rw [if_pos (hs.mpr h1)]
  · rw [if_neg (fun hh => h1 (hs.mp hh)), if_pos (he.mpr h2)]
    simp
  · rw [if_neg (fun hh => h1 (hs.mp hh)), if_neg (fun hh => h2 (he.mp hh))]

theorem checkDecoded_pre {cfg : Config} {C : Crypto} {me me' : VerifyCtx} {aad : UB} {x : Decoded}
    {ub : Bool} (h : checkDecoded cfg C me aad x = (.ok (), me', ub)) : PreChecks me x :=
  ⟨(checkDecoded_ok h).1, (checkDecoded_ok h).2.1⟩

/-- Two option words agree on everything that concerns decoding. -/
structure SameDecoding (f f' : Nat) : Prop where
  kid : Spec.Opt.requireKid f' = Spec.Opt.requireKid f
  crit : Spec.Opt.unknownCritAllowed f' = Spec.Opt.unknownCritAllowed f
  req : Spec.Opt.tagRequired f' = Spec.Opt.tagRequired f
  proh : Spec.Opt.tagProhibited f' = Spec.Opt.tagProhibited f

theorem SameDecoding.policy {f f' : Nat} (h : SameDecoding f f') {tags : List Nat}
    (hp : TagPolicy f tags) : TagPolicy f' tags := by
  unfold TagPolicy at *
  rw [h.req, h.proh]; exact hp

theorem SameDecoding.pre {me me' : VerifyCtx} {x : Decoded}
    (h : SameDecoding me.flags me'.flags) (hp : PreChecks me x) : PreChecks me' x :=
  ⟨by rw [h.kid]; exact hp.kid, by rw [h.crit]; exact hp.crit⟩

end TCose
