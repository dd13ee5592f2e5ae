import Verif.Lemmas.SignSig

/-! Helper lemmas: one-call signing, complete characterisation. -/

namespace TCose
open Enc (PRef Place maxStart)

/-- Header part of the body (protected bstr and unprotected map). -/
def hdrBytes (cfg : Config) (me : SignCtx) : Bytes :=
  bstrBytes (protMap me.alg) ++ unprotBytes (kidArg me).bytes (ctArg cfg me)

def payPart (det : Bool) (w : Bytes) : Bytes := if det then [0xf6] else bstrBytes w

def tagPart (me : SignCtx) : Bytes := tagBytes (!hasFlag me.flags optOmitTag)

/-- Everything that is in the buffer before the signature. -/
def preSig (cfg : Config) (me : SignCtx) (det : Bool) (w : Bytes) : Bytes :=
  tagPart me ++ (hdrBytes cfg me ++ payPart det w)

/-- The complete message. -/
def msgBytes (cfg : Config) (me : SignCtx) (det : Bool) (w s : Bytes) : Bytes :=
  tagPart me ++ encodeHead 4 4 ++ ((hdrBytes cfg me ++ payPart det w) ++ bstrBytes s)

theorem preSig_lt_msg (cfg : Config) (me : SignCtx) (det : Bool) (w s : Bytes) :
    (preSig cfg me det w).length < (msgBytes cfg me det w s).length := by
  have := encodeHead_length_pos 4 4
  simp only [preSig, msgBytes, List.length_append]; omega

/-- What the caller must supply as payload: for an inline payload any pointer
that has the octets (or only the length in size mode); for a detached payload a
non-NULL pointer. -/
def PayArg (det nul : Bool) (payload : UB) (w : Bytes) : Prop :=
  if det then payload = .data w else Src nul payload w

/-- The conditions the code checks before writing anything that matters. -/
structure SignPre (cfg : Config) (me : SignCtx) : Prop where
  alg : sigAlgSupported cfg me.alg = true
  sc : ¬ (hasFlag me.flags optShortCircuit = true ∧ cfg.disableShortCircuit = true)
  ct : ctArg cfg me ≠ .both

/-- The payload as passed to the signing procedure. -/
def paySeen (det nul : Bool) (w : Bytes) : UB := if det then .data w else seen nul w

theorem closePayload_inline {cap : Nat} {nul : Bool} {e : Enc} {H w : Bytes} {k : Nat}
    {ns : List Nest} (h : Rel cap nul e ⟨H ++ w, none, ⟨.bstr, H.length, k⟩ :: ns⟩) :
    Rel cap nul (closePayload .nil e).1 ⟨H ++ bstrBytes w, none, ns⟩ ∧
      ((closePayload .nil e).1.small = false → (closePayload .nil e).2 = seen nul w) := by
  have hr := h.closeBstr_rel
  have hcl : (Ideal.closeBstr ⟨H ++ w, none, ⟨.bstr, H.length, k⟩ :: ns⟩)
      = ⟨H ++ bstrBytes w, none, ns⟩ := by
    simp only [Ideal.closeBstr]
    rw [Ideal.closeLevel_ok]
    simp [bstrBytes]
  rw [hcl] at hr
  have hcp : closePayload .nil e
      = (e.closeBstrWrap2.1, e.closeBstrWrap2.1.deref e.closeBstrWrap2.2) := rfl
  rw [hcp]
  refine ⟨hr, ?_⟩
  intro hs
  simp only [] at hs ⊢
  rw [Rel.closeBstr_ref h hs]
  cases nul with
  | true => simp [Enc.deref, seen]
  | false =>
    simp only [Bool.false_eq_true, if_false, seen]
    have hlen : (H ++ bstrBytes w).length
        = H.length + (encodeHead 2 w.length).length + w.length := by
      simp [bstrBytes]; omega
    rw [hr.deref_slice hs rfl (by simp only [hlen]; omega)]
    congr 1
    have : H ++ bstrBytes w = (H ++ encodeHead 2 w.length) ++ w := by simp [bstrBytes]
    simp only [this]
    rw [List.drop_append, List.drop_of_length_le (by simp)]
    simp

theorem sign_error_pre {cfg : Config} {C : Crypto} {me : SignCtx} {det : Bool} {payload aad : UB}
    {out : Mem} {x : Err}
    (h : (encodeParametersInternal cfg me det (Enc.init out)).1 = .error x) :
    (signAadInternal cfg C me det payload aad out).1 = .error x := by
  unfold signAadInternal
  generalize encodeParametersInternal cfg me det (Enc.init out) = q at h
  obtain ⟨r, me', e⟩ := q
  simp only [] at h
  subst h
  rfl

theorem o1_nil (me : SignCtx) : o1 me [] = tagPart me := by simp [o1, tagPart]

/-- The rest of a signing run once the payload octets are in place:
`encode_signature`, then the final checks
(src/t_cose_sign1_sign.c:585-612). -/
def signTail (cfg : Config) (C : Crypto) (me : SignCtx) (aad dp : UB) (e : Enc) :
    Except Err UB × SignCtx × Enc :=
  match encodeSignatureInternal cfg C me aad dp e with
  | (.error x, me, e) => (.error x, me, e)
  | (.ok (), me, e) =>
    match e.errState with
    | .tooSmall => (.error .tooSmall, me, e)
    | .other _ => (.error .cborFormatting, me, e)
    | .ok =>
      match e.finish with
      | .ok r => (.ok r, me, e)
      | .error _ => (.error .cborNotWellFormed, me, e)

theorem signTail_run (cfg : Config) (C : Crypto) (me : SignCtx) (det : Bool) (aad : UB)
    (w : Bytes) (out : Mem) (dp : UB) (e1 : Enc) (pp : PRef)
    (hst1 : Rel out.cap out.isNull (closePayload dp e1).1
      ⟨tagPart me ++ (hdrBytes cfg me ++ payPart det w), none,
        ⟨.arr, (tagPart me).length, 3⟩ :: []⟩)
    (hst2 : (closePayload dp e1).1.small = false →
        (closePayload dp e1).2 = paySeen det out.isNull w ∧ PPok out.isNull me [] pp) :
    (out.cap < (preSig cfg me det w).length →
      ∃ e' me', signTail cfg C { me with protectedParams := pp } aad dp e1
        = (.error .tooSmall, me', e')) ∧
    ((preSig cfg me det w).length ≤ out.cap →
      PPok out.isNull me [] pp ∧
      match signDispatch cfg C { me with protectedParams := pp } (seen out.isNull (protMap me.alg))
          aad (paySeen det out.isNull w) (placeOf out.cap out.isNull (preSig cfg me det w).length) with
      | (.error x, me', _) =>
        ∃ e', signTail cfg C { me with protectedParams := pp } aad dp e1 = (.error x, me', e')
      | (.ok sig, me', ub) =>
        ∃ e' r, signTail cfg C { me with protectedParams := pp } aad dp e1 = (r, me', e') ∧
          ∀ s, Rel.SigSrc out.cap out.isNull (preSig cfg me det w).length sig s → ub = false →
            e'.ub = false ∧ e'.mem.cap = out.cap ∧
            (out.cap < (msgBytes cfg me det w s).length →
              (preSig cfg me det w).length < maxStart → r = .error .tooSmall) ∧
            (maxStart ≤ (preSig cfg me det w).length → ∃ x, r = .error x) ∧
            ((msgBytes cfg me det w s).length ≤ out.cap →
              (preSig cfg me det w).length < maxStart →
              r = .ok (seen out.isNull (msgBytes cfg me det w s)))) := by
  constructor
  · intro hcap
    have hsm : (closePayload dp e1).1.small = true := by
      cases hh : (closePayload dp e1).1.small with
      | true => rfl
      | false =>
        have h1 := (hst1.good hh).1
        have h2 := hst1.le
        simp only [preSig] at hcap
        simp only [] at h1
        omega
    rw [signTail, encSig_tooSmall hsm]
    exact ⟨_, _, rfl⟩
  · intro hcap
    have hsm : (closePayload dp e1).1.small = false := by
      cases hh : (closePayload dp e1).1.small with
      | false => rfl
      | true => have := hst1.small hh; simp only [preSig] at hcap; simp only [] at this; omega
    obtain ⟨hpay2, hPP⟩ := hst2 hsm
    refine ⟨hPP, ?_⟩
    have hhl : (encodeHead 2 (protMap me.alg).length).length = 1 := by
      have := Ideal.protMap_length_le me.alg
      unfold encodeHead; rw [if_pos (by omega)]; rfl
    have hrun := encSig_run (pm := protMap me.alg)
      (rest := unprotBytes (kidArg me).bytes (ctArg cfg me) ++ payPart det w)
      cfg C { me with protectedParams := pp } aad dp _ hpay2 hst1 hsm (by simp)
      (by simp [hdrBytes]) hhl (by rw [PPok, o1_nil] at hPP; exact hPP)
    have hpre' : tagPart me ++ (hdrBytes cfg me ++ payPart det w) = preSig cfg me det w := rfl
    rw [hpre'] at hrun
    rw [signTail]
    generalize signDispatch cfg C { me with protectedParams := pp }
      (seen out.isNull (protMap me.alg)) aad (paySeen det out.isNull w)
      (placeOf out.cap out.isNull (preSig cfg me det w).length) = q at hrun ⊢
    obtain ⟨r, me', ub⟩ := q
    cases r with
    | error x =>
      obtain ⟨e', he'⟩ := hrun
      rw [he']
      exact ⟨_, rfl⟩
    | ok sig =>
      obtain ⟨e', he', hs'⟩ := hrun
      rw [he']
      simp only []
      cases hst : e'.errState with
      | tooSmall =>
        refine ⟨_, _, rfl, ?_⟩
        intro s hss hub
        obtain ⟨k1, k2⟩ := hs' s hss hub
        have hsmall : e'.small = true := by
          unfold Enc.errState at hst
          split at hst
          · assumption
          · split at hst <;> cases hst
        refine ⟨?_, ?_, fun _ _ => rfl, fun _ => ⟨_, rfl⟩, ?_⟩
        · rcases Nat.lt_or_ge (preSig cfg me det w).length maxStart with hm | hm
          · exact (k1 hm).ub
          · obtain ⟨a, ha, _⟩ := k2 hm; exact ha.ub
        · rcases Nat.lt_or_ge (preSig cfg me det w).length maxStart with hm | hm
          · exact (k1 hm).cap_eq
          · obtain ⟨a, ha, _⟩ := k2 hm; exact ha.cap_eq
        · intro h1 h2
          have := (k1 h2).small hsmall
          simp only [finalIdeal] at this
          simp only [msgBytes] at h1
          omega
      | other x =>
        refine ⟨_, _, rfl, ?_⟩
        intro s hss hub
        obtain ⟨k1, k2⟩ := hs' s hss hub
        have hsmall : e'.small = false ∧ e'.err = some x := by
          unfold Enc.errState at hst
          split at hst
          · cases hst
          · rename_i hh
            split at hst
            · rename_i x' hx'
              simp only [Enc.EncState.other.injEq] at hst
              subst hst
              exact ⟨by simpa using hh, hx'⟩
            · cases hst
        have hno : ¬ (preSig cfg me det w).length < maxStart := by
          intro h2
          have := ((k1 h2).good hsmall.1).2.1
          rw [hsmall.2] at this
          simp [finalIdeal] at this
        refine ⟨?_, ?_, fun _ h2 => absurd h2 hno, fun _ => ⟨_, rfl⟩, fun _ h2 => absurd h2 hno⟩
        · obtain ⟨a, ha, _⟩ := k2 (by omega); exact ha.ub
        · obtain ⟨a, ha, _⟩ := k2 (by omega); exact ha.cap_eq
      | ok =>
        have hsmall : e'.small = false ∧ e'.err = none := by
          unfold Enc.errState at hst
          split at hst
          · cases hst
          · rename_i hh
            split at hst
            · cases hst
            · exact ⟨by simpa using hh, by assumption⟩
        have key : ∀ s, Rel.SigSrc out.cap out.isNull (preSig cfg me det w).length sig s →
            ub = false → (preSig cfg me det w).length < maxStart ∧
            e'.finish = .ok (seen out.isNull (msgBytes cfg me det w s)) ∧
            (msgBytes cfg me det w s).length ≤ out.cap ∧ e'.ub = false ∧ e'.mem.cap = out.cap := by
          intro s hss hub
          obtain ⟨k1, k2⟩ := hs' s hss hub
          have hlt : (preSig cfg me det w).length < maxStart := by
            rcases Nat.lt_or_ge (preSig cfg me det w).length maxStart with hm | hm
            · exact hm
            · obtain ⟨a, ha, hae⟩ := k2 hm
              have := (ha.good hsmall.1).2.1
              rw [hsmall.2] at this
              rw [← this] at hae
              simp at hae
          have hr := k1 hlt
          obtain ⟨g1, g2, g3, g4⟩ := hr.good hsmall.1
          have hle := hr.le
          simp only [finalIdeal] at g1 g3 g4
          refine ⟨hlt, ?_, ?_, hr.ub, hr.cap_eq⟩
          · unfold Enc.finish
            rw [hst]
            simp only []
            rw [g3]
            simp only [List.isEmpty_nil, if_true]
            have hn := hr.nul_eq
            cases hm : e'.mem with
            | null c =>
              rw [hm] at hn
              have hn : out.isNull = true := hn.symm
              rw [hn]
              simp only [seen, msgBytes, if_true, g1]
            | buf m =>
              rw [hm] at hn
              have hn : out.isNull = false := hn.symm
              have := g4 m hm
              rw [hn]
              simp only [seen, msgBytes, Bool.false_eq_true, if_false, this]
          · simp only [msgBytes]; omega
        cases hf : e'.finish with
        | ok res =>
          refine ⟨_, _, rfl, ?_⟩
          intro s hss hub
          obtain ⟨q1, q2, q3, q4, q5⟩ := key s hss hub
          refine ⟨q4, q5, fun h _ => absurd h (by omega), fun h => absurd h (by omega), fun _ _ => ?_⟩
          rw [hf] at q2
          cases q2
          rfl
        | error res =>
          refine ⟨_, _, rfl, ?_⟩
          intro s hss hub
          obtain ⟨q1, q2, q3, q4, q5⟩ := key s hss hub
          rw [hf] at q2
          cases q2


/-- One-call signing up to where the payload is in place, for headers that end
below the 4 GiB offset limit: the same for every adapter. -/
theorem sign_stage_all (cfg : Config) (me : SignCtx) (det : Bool) (payload aad : UB)
    (w : Bytes) (out : Mem) (hpre : SignPre cfg me)
    (hpay : PayArg det out.isNull payload w)
    (hH : det = true ∨ (tagPart me ++ hdrBytes cfg me).length < maxStart) :
    ∃ pp dp e1, (∀ C, signAadInternal cfg C me det payload aad out
        = signTail cfg C { me with protectedParams := pp } aad dp e1) ∧
      Rel out.cap out.isNull (closePayload dp e1).1
        ⟨tagPart me ++ (hdrBytes cfg me ++ payPart det w), none,
          ⟨.arr, (tagPart me).length, 3⟩ :: []⟩ ∧
      ((closePayload dp e1).1.small = false →
        (closePayload dp e1).2 = paySeen det out.isNull w ∧ PPok out.isNull me [] pp) := by
  obtain ⟨pp, e0, henc, hrel, hpp⟩ := params_ok (o := []) (ns := []) cfg me det
    (Rel.init_rel out) trivial (by simp) (by simp [maxStart]) hpre.alg hpre.sc hpre.ct
  have ho1 : o1 me [] = tagPart me := by simp [o1, tagPart]
  have hhdr : hdrOut cfg me [] = tagPart me ++ hdrBytes cfg me := by
    simp [hdrOut, ho1, hdrBytes]
  rw [ho1, hhdr] at hrel
  simp only [bumpN] at hrel
  -- the payload element
  let dp : UB := if det then payload else .nil
  let e1 : Enc := if det then e0.addNull else e0.addEncoded payload
  have hstage : Rel out.cap out.isNull (closePayload dp e1).1
      ⟨tagPart me ++ (hdrBytes cfg me ++ payPart det w), none,
        ⟨.arr, (tagPart me).length, 3⟩ :: []⟩ ∧
      ((closePayload dp e1).1.small = false →
        (closePayload dp e1).2 = paySeen det out.isNull w ∧ e0.small = false) := by
    cases det with
    | true =>
      simp only [if_true] at hrel
      have h2 := hrel.addNull_rel
      rw [Ideal.addNull, Ideal.addItem_cons (by decide) (by decide)] at h2
      have hp : payload = .data w := by simpa [PayArg] using hpay
      have hcp : closePayload dp e1 = (e1, .data w) := by
        simp [closePayload, dp, hp, UB.isNull]
      rw [hcp]
      refine ⟨?_, ?_⟩
      · simpa [payPart, e1] using h2
      · intro hs
        refine ⟨by simp [paySeen], ?_⟩
        simp only [e1, if_true] at hs
        exact Enc.addItem_small_mono hs
    | false =>
      simp only [Bool.false_eq_true, if_false] at hrel
      have hH : (tagPart me ++ hdrBytes cfg me).length < maxStart := by
        rcases hH with h | h
        · cases h
        · exact h
      rw [Ideal.bstrWrap, Ideal.openLevel_cons _ (by decide) (by decide) (by simp) hH] at hrel
      have hp : Src out.isNull payload w := by simpa [PayArg] using hpay
      have h2 := hrel.addEncoded_rel hp
      rw [Ideal.addEncoded, Ideal.addItem_cons (by decide) (by decide)] at h2
      simp only [List.append_nil] at h2
      have h3 := closePayload_inline h2
      have hde : closePayload dp e1 = closePayload .nil (e0.addEncoded payload) := by
        simp [dp, e1]
      rw [hde]
      refine ⟨?_, ?_⟩
      · simpa [payPart] using h3.1
      · intro hs
        refine ⟨by simpa [paySeen] using h3.2 hs, ?_⟩
        have hs2 : (e0.addEncoded payload).closeBstrWrap2.1.small = false := hs
        exact Enc.addItem_small_mono (Enc.closeLevel_small_mono hs2)
  have hsign : ∀ C, signAadInternal cfg C me det payload aad out
      = signTail cfg C { me with protectedParams := pp } aad dp e1 := by
    intro C
    unfold signAadInternal
    rw [henc]
    rfl
  exact ⟨pp, dp, e1, hsign, hstage.1, fun hs => ⟨(hstage.2 hs).1, hpp (hstage.2 hs).2⟩⟩

/-- `sign_stage_all` for one adapter. -/
theorem sign_stage (cfg : Config) (C : Crypto) (me : SignCtx) (det : Bool) (payload aad : UB)
    (w : Bytes) (out : Mem) (hpre : SignPre cfg me)
    (hpay : PayArg det out.isNull payload w)
    (hH : det = true ∨ (tagPart me ++ hdrBytes cfg me).length < maxStart) :
    ∃ pp dp e1, signAadInternal cfg C me det payload aad out
        = signTail cfg C { me with protectedParams := pp } aad dp e1 ∧
      Rel out.cap out.isNull (closePayload dp e1).1
        ⟨tagPart me ++ (hdrBytes cfg me ++ payPart det w), none,
          ⟨.arr, (tagPart me).length, 3⟩ :: []⟩ ∧
      ((closePayload dp e1).1.small = false →
        (closePayload dp e1).2 = paySeen det out.isNull w ∧ PPok out.isNull me [] pp) := by
  obtain ⟨pp, dp, e1, h1, h2⟩ := sign_stage_all cfg me det payload aad w out hpre hpay hH
  exact ⟨pp, dp, e1, h1 C, h2⟩

/-- Complete characterisation of one-call signing up to the signing procedure,
for headers that end below the 4 GiB offset limit. -/
theorem sign_run (cfg : Config) (C : Crypto) (me : SignCtx) (det : Bool) (payload aad : UB)
    (w : Bytes) (out : Mem) (hpre : SignPre cfg me)
    (hpay : PayArg det out.isNull payload w)
    (hH : det = true ∨ (tagPart me ++ hdrBytes cfg me).length < maxStart) :
    (out.cap < (preSig cfg me det w).length →
      ∃ e' me', signAadInternal cfg C me det payload aad out = (.error .tooSmall, me', e')) ∧
    ((preSig cfg me det w).length ≤ out.cap → ∃ pp,
      PPok out.isNull me [] pp ∧
      match signDispatch cfg C { me with protectedParams := pp } (seen out.isNull (protMap me.alg))
          aad (paySeen det out.isNull w) (placeOf out.cap out.isNull (preSig cfg me det w).length) with
      | (.error x, me', _) =>
        ∃ e', signAadInternal cfg C me det payload aad out = (.error x, me', e')
      | (.ok sig, me', ub) =>
        ∃ e' r, signAadInternal cfg C me det payload aad out = (r, me', e') ∧
          ∀ s, Rel.SigSrc out.cap out.isNull (preSig cfg me det w).length sig s → ub = false →
            e'.ub = false ∧ e'.mem.cap = out.cap ∧
            (out.cap < (msgBytes cfg me det w s).length →
              (preSig cfg me det w).length < maxStart → r = .error .tooSmall) ∧
            (maxStart ≤ (preSig cfg me det w).length → ∃ x, r = .error x) ∧
            ((msgBytes cfg me det w s).length ≤ out.cap →
              (preSig cfg me det w).length < maxStart →
              r = .ok (seen out.isNull (msgBytes cfg me det w s)))) := by
  obtain ⟨pp, dp, e1, hsign, hst1, hst2⟩ := sign_stage cfg C me det payload aad w out hpre hpay hH
  obtain ⟨h1, h2⟩ := signTail_run cfg C me det aad w out dp e1 pp hst1 hst2
  rw [hsign]
  exact ⟨h1, fun hc => ⟨pp, h2 hc⟩⟩

end TCose
