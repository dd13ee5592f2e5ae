import Verif.Lemmas.RefusedBody
import Verif.Spec.Codes

/-!
# Helper lemmas: the codes decoding and signing can end with
-/

namespace TCose
open Spec

/-- A decoding error is one of the codes about the message, or the model's mark for
fuel used up. -/
abbrev MsgCode (y : Err) : Prop := y ∈ messageCodes ∨ y = .modelHang

theorem decodeErr_code {o : Option QErr} {y : Err} (h : decodeErr o = .error y) : MsgCode y := by
  unfold decodeErr at h
  cases o with
  | none => cases h
  | some e =>
    simp only at h
    repeat' split at h
    all_goals (cases h; decide)

theorem paramErr_code (e : QErr) : MsgCode (paramErr e) := by
  unfold paramErr
  repeat' split
  all_goals decide

theorem addLabel_code {l : Option Val} {u u' : LabelList} {y : Err}
    (h : addLabel l u = (.error y, u')) : MsgCode y := by
  unfold addLabel at h
  simp only at h
  repeat' split at h
  all_goals first | (cases h; done) | (cases h; decide)

/-- The callback has recorded nothing, or a code about the message. -/
def CbCode (s : CbCtx) : Prop := ∀ y, s.ret = .error y → MsgCode y

theorem headerCb_code {s : CbCtx} (l : Option Val) : CbCode (headerCb s l).1 := by
  unfold headerCb
  simp only
  by_cases h2 : l = some (.int 2)
  · rw [if_pos h2]
    intro y hy
    cases hy
  · rw [if_neg h2]
    rcases ha : addLabel l s.unk with ⟨r, u⟩
    cases r with
    | ok _ => intro y hy; cases hy
    | error x =>
      intro y hy
      cases hy
      exact addLabel_code ha

theorem critLoop_code (P : QParams) : ∀ (n : Nat) (d : Dec) (ni nt : Nat) (l : LabelList) (y : Err),
    (critLoop P n d ni nt l).1 = .error y → MsgCode y
  | 0, d, ni, nt, l, y, h => by cases h; decide
  | n + 1, d, ni, nt, l, y, h => by
    unfold critLoop at h
    generalize d.getNext P = x at h
    obtain ⟨r, d1⟩ := x
    cases r with
    | error e => cases e <;> first | (cases h; done) | (cases h; decide)
    | ok it =>
      simp only at h
      split at h
      · split at h
        · cases h; decide
        · exact critLoop_code P n _ _ _ _ y h
      · split at h
        · cases h; decide
        · exact critLoop_code P n _ _ _ _ y h
      · cases h; decide

theorem decodeCritical_code {P : QParams} {d : Dec} {prot : Bool} {l : LabelList} {y : Err}
    (h : (decodeCritical P d prot l).1 = .error y) : MsgCode y := by
  unfold decodeCritical at h
  simp only at h
  split at h
  · cases h
  · cases h; decide
  · split at h
    · cases h; decide
    · have hc := critLoop_code P ((d.enterArrayFromMap P 2).cur.rest.length + 1)
        { d.enterArrayFromMap P 2 with err := none } 0 0 l y
      generalize critLoop P _ _ 0 0 l = x at h hc
      obtain ⟨r, l', d3⟩ := x
      cases r with
      | error e => exact hc h
      | ok u =>
        simp only at h
        split at h
        · cases h; decide
        · cases h

theorem copyParams_code {cfg : Config} {prot : Bool} {f : Found} {p : Params} {y : Err}
    (h : copyParams cfg prot f p = .error y) : MsgCode y := by
  have ha : takeAlg prot f p = .error y → MsgCode y := by
    intro h; unfold takeAlg at h; repeat' split at h
    all_goals first | (cases h; done) | (cases h; decide)
  have hk : ∀ p, takeKid f p = .error y → MsgCode y := by
    intro p h; unfold takeKid at h; repeat' split at h
    all_goals first | (cases h; done) | (cases h; decide)
  have hi : ∀ p, takeIv f p = .error y → MsgCode y := by
    intro p h; unfold takeIv at h; repeat' split at h
    all_goals first | (cases h; done) | (cases h; decide)
  have hq : ∀ p, takePartialIv f p = .error y → MsgCode y := by
    intro p h; unfold takePartialIv at h; repeat' split at h
    all_goals first | (cases h; done) | (cases h; decide)
  have hc : ∀ p, takeContentType cfg f p = .error y → MsgCode y := by
    intro p h; unfold takeContentType at h; repeat' split at h
    all_goals first | (cases h; done) | (cases h; decide)
  unfold copyParams at h
  split at h
  · rename_i x h'; exact ha (h'.trans h)
  · split at h
    · rename_i x h'; exact hk _ (h'.trans h)
    · split at h
      · rename_i x h'; exact hi _ (h'.trans h)
      · split at h
        · rename_i x h'; exact hq _ (h'.trans h)
        · exact hc _ h

theorem parseHeader_code {cfg : Config} {P : QParams} {prot : Bool} {st : Parse} {y : Err}
    (h : (parseHeader cfg P prot st).1 = .error y) : MsgCode y := by
  unfold parseHeader at h
  simp only at h
  have h3 := Dec.getItemsInMap_inv (P := P) (d := st.d.enterMap P) (qs := headerQs) (cb := headerCb) CbCode
    (fun s l _ => headerCb_code l) (s := ⟨st.unk, .ok ()⟩) (fun y hy => by cases hy)
  generalize (st.d.enterMap P).getItemsInMap P headerQs headerCb ⟨st.unk, .ok ()⟩ = x at h h3
  obtain ⟨d2, f, cb⟩ := x
  simp only at h h3
  split at h
  · exact h3 y h
  · cases h; exact paramErr_code _
  · cases hc : copyParams cfg prot f st.params with
    | error e => rw [hc] at h; cases h; exact copyParams_code hc
    | ok p =>
      rw [hc] at h
      simp only at h
      exact decodeCritical_code (P := P) (d := d2) (prot := prot) (l := st.crit) h

theorem decodeBody_code {cfg : Config} {P : QParams} {d : Dec} {pay : VPayload} {junk : Junk} {y : Err}
    (h : (decodeBody cfg P d pay junk).1 = .error y) : MsgCode y := by
  unfold decodeBody at h
  generalize d.enterBstrWrapped P = x at h
  obtain ⟨d1, out⟩ := x
  simp only at h
  cases hp : parseProtected cfg P (wrapOut junk.prot out)
      { d := d1, params := Params.clear, crit := LabelList.clear, unk := LabelList.clear } with
  | mk r st =>
    rw [hp] at h
    cases r with
    | error e =>
      cases h
      have : (parseProtected cfg P (wrapOut junk.prot out)
        { d := d1, params := Params.clear, crit := LabelList.clear, unk := LabelList.clear }).1 = .error y := by
          rw [hp]
      unfold parseProtected at this
      split at this
      · exact parseHeader_code this
      · cases this
    | ok u =>
      simp only at h
      cases hu : parseHeader cfg P false { st with d := st.d.exitBstrWrapped } with
      | mk r st2 =>
        rw [hu] at h
        cases r with
        | error e =>
          cases h
          exact parseHeader_code (by rw [hu])
        | ok u =>
          simp only at h
          cases ht : takePayload P st2.d pay junk.payload with
          | error e =>
            rw [ht] at h
            cases h
            unfold takePayload at ht
            repeat' split at ht
            all_goals first | (cases ht; done) | (cases ht; decide)
          | ok q =>
            rw [ht] at h
            simp only at h
            cases hd : decodeErr ((q.1.getByteString P).1.exitArray P).finish with
            | error e => rw [hd] at h; cases h; exact decodeErr_code hd
            | ok u => rw [hd] at h; cases h

/-- The causes of an error that lie in the signature: hashing, verifying, and the
comparison of a short-circuit signature. -/
def SigCause (cfg : Config) (C : Crypto) (me : VerifyCtx) (scKidThere : Prop) (y : Err) : Prop :=
  (∃ alg p a w, createTbsHash cfg C alg p a w (maxHashSize cfg) = .error y) ∨
  (y = .sigVerify ∧ hasFlag me.flags optAllowShortCircuit = true ∧ scKidThere) ∨
  (∃ alg kid h s, C.verify alg me.key kid h s = .error y) ∨
  ∃ kid t s, C.verifyEddsa me.key kid t s = .error y

theorem checkDecoded_code {cfg : Config} {C : Crypto} {me me' : VerifyCtx} {aad : UB}
    {x : Decoded} {y : Err} {ub : Bool} (hw : x.Wf aad)
    (h : checkDecoded cfg C me aad x = (.error y, me', ub)) :
    y ∈ messageCodes ∨
    (hasFlag me.flags optDecodeOnly = false ∧ SigCause cfg C me (isShortCircuit cfg x) y) := by
  unfold checkDecoded at h
  split at h
  · cases h; exact .inl (by decide)
  · simp only at h
    generalize hcr : (if hasFlag me.flags optUnknownCritAllowed = true then
      ((.ok (), false) : Except Err Unit × Bool) else checkCritical x.crit x.unk) = cr at h
    obtain ⟨r, ub0⟩ := cr
    cases r with
    | error e =>
      cases h
      split at hcr
      · cases hcr
      · unfold checkCritical at hcr
        simp only [Prod.mk.injEq] at hcr
        have := hcr.1
        split at this
        · cases this; exact .inl (by decide)
        · split at this
          · cases this; exact .inl (by decide)
          · cases this
    | ok u =>
      simp only at h
      by_cases hs : isShortCircuit cfg x
      · rw [if_pos (by simp [hs.1, hs.2])] at h
        simp only [Prod.mk.injEq] at h
        have h1 := h.1
        unfold verifyShortCircuit at h1
        split at h1
        · cases h1
        · rename_i hd
          split at h1
          · cases h1; exact .inl (by decide)
          · rename_i ha
            refine .inr ⟨by simpa using hd, ?_⟩
            split at h1
            · rename_i z hz
              cases h1
              exact .inl ⟨_, _, _, _, hz⟩
            · refine .inr (.inl ⟨?_, by simpa using ha, hs⟩)
              unfold scVerify at h1
              repeat' split at h1
              all_goals first | (cases h1; rfl) | cases h1
      · rw [if_neg (by
            intro hc
            simp only [Bool.and_eq_true, Bool.not_eq_true', beq_iff_eq] at hc
            exact hs ⟨hc.1, hc.2⟩)] at h
        by_cases he : isEddsa cfg x
        · rw [if_pos (by simp [he.1, he.2]), verifyEddsa_eq hw] at h
          split at h
          · cases h; exact .inl (by decide)
          · simp only [Prod.mk.injEq] at h
            have h1 := h.1
            split at h1
            · cases h1
            · rename_i hd
              split at h1
              · cases h1; exact .inl (by decide)
              · exact .inr ⟨by simpa using hd, .inr (.inr (.inr ⟨_, _, _, h1⟩))⟩
        · rw [if_neg (by
            intro hc
            simp only [Bool.and_eq_true, Bool.not_eq_true', beq_iff_eq] at hc
            exact he ⟨hc.1, hc.2⟩)] at h
          simp only [Prod.mk.injEq] at h
          have h1 := h.1
          unfold verifyDefault at h1
          split at h1
          · cases h1
          · rename_i hd
            refine .inr ⟨by simpa using hd, ?_⟩
            split at h1
            · rename_i z hz
              cases h1
              exact .inl ⟨_, _, _, _, hz⟩
            · exact .inr (.inr (.inl ⟨_, _, _, _, h1⟩))

theorem verify_code {cfg : Config} {P : QParams} {C : Crypto} {junk : Junk} {me : VerifyCtx}
    {msg : Bytes} {aad : UB} {pay : VPayload} {want : Bool} {y : Err} (hP : P.maxTags ≤ 4)
    (ha : aad.wf) (hp : ∀ p, pay = .detached p → p.wf)
    (h : (verifyInternal cfg P C junk me msg aad pay want).res = .error y) :
    y ∈ messageCodes ∨
    (hasFlag me.flags optDecodeOnly = false ∧ ∃ v x, IsView P msg v ∧ DecodesTo cfg P v pay x ∧
      SigCause cfg C me (isShortCircuit cfg x) y) := by
  have h0 := h
  unfold verifyInternal at h
  simp only at h
  have nf := Dec.enterArray_nf (P := P) (init_nf msg)
  cases he : ((Dec.init msg).enterArray P).err with
  | some e =>
    rw [he] at h nf
    cases hd : decodeErr (some e) with
    | ok u => exact absurd (decodeErr_ok.mp hd) (by simp)
    | error z =>
      rw [hd] at h
      cases h
      rcases decodeErr_code hd with h | h
      · exact .inl h
      · subst h; exact absurd hd (decodeErr_nh nf)
  | none =>
    rw [he, decodeErr_ok.mpr rfl] at h
    simp only at h
    rcases processTags_eq (me := me) he (enterArray_tags he) hP with ⟨hpol, hpt⟩ | ⟨-, hpt⟩
    · rw [hpt] at h
      simp only at h
      obtain ⟨-, -, k4⟩ := decodeBody_inv (cfg := cfg) (P := P) (pay := pay) (junk := junk) nf
      cases hb : decodeBody cfg P ((Dec.init msg).enterArray P) pay junk with
      | mk r st =>
        rw [hb] at h k4
        cases r with
        | error z =>
          cases h
          rcases decodeBody_code (cfg := cfg) (P := P) (pay := pay) (junk := junk) (by rw [hb]) with h | h
          · exact .inl h
          · subst h; exact absurd rfl k4
        | ok x =>
          obtain ⟨v, hv, htg, hx⟩ := decodeBody_ok he hb
          simp only at h
          cases hc : checkDecoded cfg C { me with auTags := _ } aad x with
          | mk r q =>
            obtain ⟨me', ub⟩ := q
            rw [hc] at h
            cases r with
            | ok u => cases h
            | error z =>
              cases h
              rcases checkDecoded_code (hx.wf ha hp) hc with h | h
              · exact .inl h
              · exact .inr ⟨h.1, v, x, hv, hx, h.2⟩
    · rw [hpt] at h
      cases h
      exact .inl (by decide)

/-! ## Signing -/

/-- The codes signing gives of its own. -/
def signCodes : List Err :=
  [.unsupportedSigningAlg, .shortCircuitSigDisabled, .duplicateParameter, .tooSmall, .cborFormatting,
   .cborNotWellFormed, .sigBufferSize, .needAuxiliaryBuffer, .auxiliaryBufferSize]

/-- The causes of an error that lie in the signature. -/
def MadeCause (cfg : Config) (C : Crypto) (me : SignCtx) (y : Err) : Prop :=
  (∃ p a w, createTbsHash cfg C me.alg p a w (maxHashSize cfg) = .error y) ∨
  C.sigSize me.alg me.key = .error y ∨
  (∃ h n, C.sign me.alg me.key h n = .error y) ∨
  ∃ t n, C.signEddsa me.key t n = .error y

theorem map_error {α β : Type} {f : α → β} {e : Except Err α} {y : Err}
    (h : e.map f = .error y) : e = .error y := by
  cases e with
  | error x => cases h; rfl
  | ok a => cases h

theorem signDispatch_code {cfg : Config} {C : Crypto} {me me' : SignCtx} {p a w : UB} {place : Enc.Place}
    {y : Err} {ub : Bool} (hD : ∀ hh n d, C.hashFinish hh n = .ok d → d ≠ [])
    (h : signDispatch cfg C me p a w place = (.error y, me', ub)) :
    y ∈ signCodes ∨ MadeCause cfg C me y := by
  have hne : ∀ p a w d, createTbsHash cfg C me.alg p a w (maxHashSize cfg) = .ok d → d ≠ [] := by
    intro p a w d hd
    unfold createTbsHash at hd
    simp only at hd
    split at hd
    · cases hd
    · split at hd
      · cases hd
      · exact hD _ _ _ hd
  unfold signDispatch at h
  split at h
  · simp only [Prod.mk.injEq] at h
    have h1 := h.1
    unfold signShortCircuit at h1
    split at h1
    · rename_i x hx
      cases h1
      exact .inr (.inl ⟨_, _, _, hx⟩)
    · rename_i d hd
      split at h1
      · have := map_error h1
        unfold scSigSize at this
        cases this
      · have := map_error h1
        unfold scSign at this
        split at this
        · rename_i x hx
          unfold scSigSize at hx
          cases hx
        · split at this
          · cases this; exact .inl (by decide)
          · split at this
            · cases this
            · rename_i k _ _ _ hl
              obtain ⟨b, hb⟩ := scLoop_some (hne _ _ _ _ hd) k k 0 (List.replicate k 0) (Nat.le_refl _)
              rw [hb] at hl
              cases hl
  · split at h
    · unfold signEddsa at h
      split at h
      · cases h; exact .inl (by decide)
      · rename_i x ub' hne hx
        cases h
        unfold createTbs at hx
        simp only at hx
        split at hx
        · cases hx
        · cases hx; exact .inl (by decide)
        · cases hx; exact .inl (by decide)
      · simp only at h
        split at h
        · simp only [Prod.mk.injEq] at h
          exact .inr (.inr (.inl (map_error h.1)))
        · split at h
          · cases h; exact .inl (by decide)
          · simp only [Prod.mk.injEq] at h
            exact .inr (.inr (.inr (.inr ⟨_, _, map_error h.1⟩)))
    · simp only [Prod.mk.injEq] at h
      have h1 := h.1
      unfold signDefault at h1
      split at h1
      · rename_i x hx
        cases h1
        exact .inr (.inl ⟨_, _, _, hx⟩)
      · split at h1
        · exact .inr (.inr (.inl (map_error h1)))
        · exact .inr (.inr (.inr (.inl ⟨_, _, map_error h1⟩)))

theorem encodeParameters_code {cfg : Config} {me : SignCtx} {det : Bool} {e : Enc} :
    (∀ y me' e', encodeParametersInternal cfg me det e = (.error y, me', e') → y ∈ signCodes) ∧
    (∀ r me' e', encodeParametersInternal cfg me det e = (r, me', e') → me'.alg = me.alg ∧ me'.key = me.key) := by
  constructor
  · intro y me' e' h
    unfold encodeParametersInternal at h
    split at h
    · cases h; decide
    · simp only at h
      split at h
      · cases h; decide
      · split at h
        · rename_i x e2 hx
          cases h
          unfold addUnprotected at hx
          simp only at hx
          split at hx
          · cases hx
          · split at hx
            · cases hx; decide
            · cases hx
        · cases h
  · intro r me' e' h
    unfold encodeParametersInternal at h
    split at h
    · cases h; exact ⟨rfl, rfl⟩
    · simp only at h
      split at h
      · cases h; exact ⟨rfl, rfl⟩
      · split at h
        · cases h; exact ⟨rfl, rfl⟩
        · cases h; exact ⟨rfl, rfl⟩

theorem encodeSignature_code {cfg : Config} {C : Crypto} {me me' : SignCtx} {aad dp : UB} {e e' : Enc}
    {y : Err} (hD : ∀ hh n d, C.hashFinish hh n = .ok d → d ≠ [])
    (h : encodeSignatureInternal cfg C me aad dp e = (.error y, me', e')) :
    y ∈ signCodes ∨ MadeCause cfg C me y := by
  unfold encodeSignatureInternal at h
  simp only at h
  split at h
  · cases h; exact .inl (by decide)
  · cases h; exact .inl (by decide)
  · split at h
    · rename_i x m ub hx
      cases h
      exact signDispatch_code hD hx
    · cases h

theorem signAad_code {cfg : Config} {C : Crypto} {me : SignCtx} {det : Bool} {payload aad : UB}
    {out : Mem} {y : Err} (hD : ∀ hh n d, C.hashFinish hh n = .ok d → d ≠ [])
    (h : (signAadInternal cfg C me det payload aad out).1 = .error y) :
    y ∈ signCodes ∨ MadeCause cfg C me y := by
  unfold signAadInternal at h
  split at h
  · rename_i x m e hx
    cases h
    exact .inl (encodeParameters_code.1 _ _ _ hx)
  · rename_i m e hx
    simp only at h
    split at h
    · rename_i z m2 e2 hz
      cases h
      rcases encodeSignature_code hD hz with h | h
      · exact .inl h
      · obtain ⟨h1, h2⟩ := encodeParameters_code.2 _ _ _ hx
        unfold MadeCause at h ⊢
        rw [h1, h2] at h
        exact .inr h
    · split at h
      · cases h; exact .inl (by decide)
      · cases h; exact .inl (by decide)
      · split at h
        · cases h
        · cases h; exact .inl (by decide)

end TCose
