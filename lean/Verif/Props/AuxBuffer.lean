import Verif.Lemmas.SignAux
import Verif.Lemmas.VerifyRun
import Verif.Props.VerifyState
import Verif.Props.DecodeOnly
import Verif.Props.SignSafety

/-!
# C29 (signing), C30, C31: what stays in a context; the auxiliary buffer
-/

namespace TCose.Props
open TCose Spec

/-! ## C29 for signing -/

theorem signDispatch_same {cfg : Config} {C : Crypto} {me : SignCtx} {p a w : UB}
    {place : Enc.Place} (n : Nat) :
    (signDispatch cfg C { me with auxSize := n } p a w place).1 =
      (signDispatch cfg C me p a w place).1 ∧
    (signDispatch cfg C { me with auxSize := n } p a w place).2.2 =
      (signDispatch cfg C me p a w place).2.2 := by
  unfold signDispatch
  simp only
  split
  · exact ⟨rfl, rfl⟩
  · split
    · unfold signEddsa
      simp only
      generalize createTbs p a w me.aux = q
      obtain ⟨r, b⟩ := q
      cases r with
      | error x => cases x <;> exact ⟨rfl, rfl⟩
      | ok t =>
        cases place with
        | null => exact ⟨rfl, rfl⟩
        | room k => exact ⟨rfl, rfl⟩
    · exact ⟨rfl, rfl⟩

theorem encSig_same {cfg : Config} {C : Crypto} {me : SignCtx} {aad pl : UB} {e : Enc} (n : Nat) :
    (encodeSignatureInternal cfg C { me with auxSize := n } aad pl e).1 =
      (encodeSignatureInternal cfg C me aad pl e).1 ∧
    (encodeSignatureInternal cfg C { me with auxSize := n } aad pl e).2.2 =
      (encodeSignatureInternal cfg C me aad pl e).2.2 := by
  unfold encodeSignatureInternal
  simp only
  split
  · exact ⟨rfl, rfl⟩
  · exact ⟨rfl, rfl⟩
  · obtain ⟨h1, h2⟩ := signDispatch_same (cfg := cfg) (C := C) (me := me)
      (p := ((closePayload pl e).1.openBytes).1.deref me.protectedParams) (a := aad)
      (w := (closePayload pl e).2) (place := ((closePayload pl e).1.openBytes).2) n
    generalize signDispatch cfg C { me with auxSize := n } _ aad _ _ = q at h1 h2 ⊢
    generalize signDispatch cfg C me _ aad _ _ = q' at h1 h2 ⊢
    obtain ⟨r, m, b⟩ := q
    obtain ⟨r', m', b'⟩ := q'
    simp only at h1 h2
    subst h1 h2
    cases r <;> exact ⟨rfl, rfl⟩

/-- **C29 (signing).** What a signing call returns and writes does not depend on the
two working fields of the context (the reference to the protected header and the
reported size), whatever an earlier call left there. -/
theorem C29_sign_no_hidden_state (cfg : Config) (C : Crypto) (me : SignCtx) (det : Bool)
    (payload aad : UB) (out : Mem) (pp : Enc.PRef) (n : Nat) :
    (signAadInternal cfg C { me with protectedParams := pp, auxSize := n } det payload aad out).1 =
      (signAadInternal cfg C me det payload aad out).1 ∧
    (signAadInternal cfg C { me with protectedParams := pp, auxSize := n } det payload aad out).2.2 =
      (signAadInternal cfg C me det payload aad out).2.2 := by
  have hp : ∃ m : SignCtx, ∃ m' : SignCtx, ∃ r e,
      encodeParametersInternal cfg { me with protectedParams := pp, auxSize := n } det
        (Enc.init out) = (r, m', e) ∧
      encodeParametersInternal cfg me det (Enc.init out) = (r, m, e) ∧
      (r = .ok () → m' = { m with auxSize := n }) := by
    unfold encodeParametersInternal
    simp only
    split
    · exact ⟨_, _, _, _, rfl, rfl, by simp⟩
    · split
      · exact ⟨_, _, _, _, rfl, rfl, by simp⟩
      · have : ∀ e, addUnprotected cfg { me with
            protectedParams := (encodeProtected me.alg
              (if hasFlag me.flags optOmitTag = true then Enc.init out
                else (Enc.init out).addTag 18).openArray).2, auxSize := n }
            (if hasFlag me.flags optShortCircuit = true ∧ me.kid.isNullOrEmpty = true then
              UB.data shortCircuitKid else me.kid) e = addUnprotected cfg { me with
            protectedParams := (encodeProtected me.alg
              (if hasFlag me.flags optOmitTag = true then Enc.init out
                else (Enc.init out).addTag 18).openArray).2 }
            (if hasFlag me.flags optShortCircuit = true ∧ me.kid.isNullOrEmpty = true then
              UB.data shortCircuitKid else me.kid) e := fun _ => rfl
        rw [this]
        generalize addUnprotected _ _ _ _ = q
        obtain ⟨r, e⟩ := q
        cases r with
        | error x => exact ⟨_, _, _, _, rfl, rfl, by simp⟩
        | ok u => exact ⟨_, _, _, _, rfl, rfl, fun _ => rfl⟩
  obtain ⟨m, m', r, e, h1, h2, h3⟩ := hp
  unfold signAadInternal
  rw [h1, h2]
  cases r with
  | error x => exact ⟨rfl, rfl⟩
  | ok u =>
    have h3 := h3 rfl
    subst h3
    simp only
    obtain ⟨k1, k2⟩ := encSig_same (cfg := cfg) (C := C) (me := m) (aad := aad)
      (pl := if det then payload else .nil)
      (e := if det then e.addNull else e.addEncoded payload) n
    generalize encodeSignatureInternal cfg C { m with auxSize := n } aad _ _ = q at k1 k2 ⊢
    generalize encodeSignatureInternal cfg C m aad _ _ = q' at k1 k2 ⊢
    obtain ⟨r, m2, e2⟩ := q
    obtain ⟨r', m2', e2'⟩ := q'
    simp only at k1 k2
    subst k1 k2
    cases r with
    | error x => exact ⟨rfl, rfl⟩
    | ok u =>
      simp only
      split
      · exact ⟨rfl, rfl⟩
      · exact ⟨rfl, rfl⟩
      · split <;> exact ⟨rfl, rfl⟩

/-- In particular the context left by any other signing call will do. -/
theorem C29_sign_reuse (cfg : Config) (C : Crypto) (me : SignCtx) (det det2 : Bool)
    (payload aad payload2 aad2 : UB) (out out2 : Mem) :
    (signAadInternal cfg C (signAadInternal cfg C me det2 payload2 aad2 out2).2.1 det payload aad
      out).1 = (signAadInternal cfg C me det payload aad out).1 := by
  obtain ⟨pp, n, h⟩ := sign_ctx (cfg := cfg) (C := C) (me := me) (det := det2)
    (payload := payload2) (aad := aad2) (out := out2)
  rw [h]
  exact (C29_sign_no_hidden_state cfg C me det payload aad out pp n).1

example : (signAadInternal Config.full toyCrypto
      ((SignCtx.init 0 algEDDSA).setAux Config.full (.buf (List.replicate 40 0))) false (.data [1]) .nil
      (.buf (List.replicate 100 0))).2.1.auxSize = 19 := by decide +kernel

/-! ## C30 -/

/-- **C30 (signing, EdDSA).** After a successful signing or size calculation with
EdDSA the query returns the length of the Sig_structure.  The payload may be given
by its length only (NULL pointer) when there is no output buffer. -/
theorem C30_sign_exact (cfg : Config) (C : Crypto) (me : SignCtx) (det : Bool) (payload aad : UB)
    (w : Bytes) (out : Mem) (ha : aad.wf)
    (hw : payload = .data w ∨ (det = false ∧ (out.isNull = true ∨ w = []) ∧ payload = .null w.length))
    (halg : me.alg = algEDDSA) (hsc : Spec.Opt.shortCircuit me.flags = false)
    (hx : out.isNull = true → me.aux.isNull = true) (r : UB)
    (h : (signAadInternal cfg C me det payload aad out).1 = .ok r) :
    (signAadInternal cfg C me det payload aad out).2.1.auxiliaryBufferSize cfg =
      (sigStructure (protectedHeader me.alg) aad.bytes w).length := by
  have hsc : hasFlag me.flags optShortCircuit = false := hsc
  have hpay : PayArg det out.isNull payload w := by
    unfold PayArg
    rcases hw with rfl | ⟨rfl, h1, rfl⟩
    · cases det
      · exact .inl rfl
      · rfl
    · exact .inr ⟨h1, rfl⟩
  obtain ⟨hpre, hH, hcap, -⟩ := sign_ok_elim hpay h
  have hcfg : cfg.disableEDDSA = false := by
    have := C32_sign_ok_enabled cfg C me det payload aad out r h
    rw [halg] at this
    simpa [algEnabled, algEDDSA] using this
  obtain ⟨h1, h2⟩ := sign_eddsa_run (C := C) (aad := aad) hpre hpay hH hcap halg hsc ha hx
  rw [protectedHeader_eq]
  unfold SignCtx.auxiliaryBufferSize
  rw [hcfg]
  simp only [Bool.false_eq_true, if_false]
  rcases Nat.lt_or_ge me.aux.cap (sigStructure (protMap me.alg) aad.bytes w).length with hc | hc
  · rw [(h1 hc).1] at h; cases h
  · exact (h2 hc).1

example : (signAadInternal Config.full toyCrypto (SignCtx.init 0 algEDDSA) false (.null 300) .nil
      (.null sizeMax)).1 = .ok (.null 376) ∧
    (signAadInternal Config.full toyCrypto (SignCtx.init 0 algEDDSA) false (.null 300) .nil
      (.null sizeMax)).2.1.auxiliaryBufferSize Config.full = 320 := by decide +kernel

/-- The contexts a caller can have: made by `t_cose_sign1_sign_init` with the given
options and algorithm, then changed by any of the other functions of the API. -/
inductive SignReach (cfg : Config) (flags : Nat) (alg : Int) : SignCtx → Prop
  | init : SignReach cfg flags alg (SignCtx.init flags alg)
  | setKey {me} (k kid) : SignReach cfg flags alg me → SignReach cfg flags alg (me.setKey k kid)
  | setAux {me} (m) : SignReach cfg flags alg me → SignReach cfg flags alg (me.setAux cfg m)
  | setUint {me} (t) : SignReach cfg flags alg me → SignReach cfg flags alg (me.setContentTypeUint t)
  | setTstr {me} (t) : SignReach cfg flags alg me → SignReach cfg flags alg (me.setContentTypeTstr t)
  | sign {me} (C det p a out) : SignReach cfg flags alg me →
      SignReach cfg flags alg (signAadInternal cfg C me det p a out).2.1
  | params {me} (det e) : SignReach cfg flags alg me →
      SignReach cfg flags alg (encodeParametersInternal cfg me det e).2.1
  | signature {me} (C a p e) : SignReach cfg flags alg me →
      SignReach cfg flags alg (encodeSignatureInternal cfg C me a p e).2.1

/-- **C30 (signing, other algorithms).** On a context made for another algorithm
than EdDSA (or for short-circuit signatures) the query returns zero after any
sequence of calls: signing contexts have no stale size. -/
theorem C30_sign_zero (cfg : Config) (flags : Nat) (alg : Int)
    (h : alg ≠ algEDDSA ∨ (Spec.Opt.shortCircuit flags = true ∧ cfg.disableShortCircuit = false))
    (me : SignCtx) (hr : SignReach cfg flags alg me) :
    me.auxiliaryBufferSize cfg = 0 := by
  have key : me.alg = alg ∧ me.flags = flags ∧ me.auxSize = 0 := by
    have hx : ∀ m : SignCtx, m.alg = alg → m.flags = flags → (m.alg ≠ algEDDSA ∨
        cfg.disableEDDSA = true ∨
        (hasFlag m.flags optShortCircuit = true ∧ cfg.disableShortCircuit = false)) := by
      intro m h1 h2
      rw [h1, h2]
      rcases h with h | h
      · exact .inl h
      · exact .inr (.inr h)
    induction hr with
    | init => exact ⟨rfl, rfl, rfl⟩
    | setKey k kid hr ih => exact ih
    | setAux m hr ih =>
      unfold SignCtx.setAux
      split <;> exact ih
    | setUint t hr ih => exact ih
    | setTstr t hr ih => exact ih
    | sign C det p a out hr ih =>
      have h1 := sign_auxSize (C := C) (det := det) (payload := p) (aad := a) (out := out)
        (hx _ ih.1 ih.2.1)
      obtain ⟨pp, n, h2⟩ := sign_ctx (cfg := cfg) (C := C) (det := det) (payload := p) (aad := a)
        (out := out)
      refine ⟨?_, ?_, by rw [h1]; exact ih.2.2⟩
      · rw [h2]; exact ih.1
      · rw [h2]; exact ih.2.1
    | params det e hr ih =>
      obtain ⟨h1, h2, h3⟩ := params_auxSize (cfg := cfg) (det := det) (e0 := e)
      rw [h1, h2, h3]; exact ih
    | signature C a p e hr ih =>
      have h1 := encSig_auxSize (C := C) (aad := a) (pl := p) (e2 := e) (hx _ ih.1 ih.2.1)
      obtain ⟨n, h2⟩ := encSig_ctx (cfg := cfg) (C := C) (aad := a) (pl := p) (e2 := e)
      refine ⟨?_, ?_, by rw [h1]; exact ih.2.2⟩
      · rw [h2]; exact ih.1
      · rw [h2]; exact ih.2.1
  unfold SignCtx.auxiliaryBufferSize
  rw [key.2.2]
  simp

example : SignReach Config.full 0 algES256
    (signAadInternal Config.full toyCrypto (SignCtx.init 0 algES256) false (.data [1]) .nil
      (.buf (List.replicate 100 0))).2.1 := .sign _ _ _ _ _ .init

theorem isShortCircuit_iff {cfg : Config} {P : QParams} {v : MsgView} {pay : VPayload} {x : Decoded}
    (h : DecodesTo cfg P v pay x) : isShortCircuit cfg x ↔
      (cfg.disableShortCircuit = false ∧ v.kid.map (·.bytes) = some scKid) := by
  obtain ⟨p1, hm⟩ := h.headersMean
  unfold isShortCircuit
  rw [hm.kid.1]
  cases v.kid with
  | none => simp [Str.ub, UB.bytes, UB.nil, shortCircuitKid]
  | some s => simp [Str.ub, UB.bytes, shortCircuitKid, scKid]

theorem isEddsa_iff {cfg : Config} {P : QParams} {v : MsgView} {pay : VPayload} {x : Decoded}
    (h : DecodesTo cfg P v pay x) : isEddsa cfg x ↔
      (cfg.disableEDDSA = false ∧ ∃ i, v.alg = some i ∧ Int32Of i (-8)) := by
  obtain ⟨p1, hm⟩ := h.headersMean
  unfold isEddsa
  rcases hm.alg.2 with ⟨h0, h1, -⟩ | ⟨i, hi, -, -, ha⟩
  · rw [h1, h0]
    simp [algEDDSA]
  · rw [ha, hi]
    constructor
    · rintro ⟨h1, h2⟩
      refine ⟨h1, i, rfl, ?_⟩
      have := toInt32_of i
      rw [h2] at this
      exact this
    · rintro ⟨h1, j, hj, h2⟩
      cases hj
      have h3 := toInt32_of i
      unfold Int32Of at h2 h3
      have : toInt32 i = -8 := by omega
      exact ⟨h1, this⟩

theorem tbs_eq {cfg : Config} {P : QParams} {v : MsgView} {pay : VPayload} {x : Decoded}
    (h : DecodesTo cfg P v pay x) {payload : Bytes} (hp : IsPayload pay v payload) (aad : UB) :
    x.tbs aad = sigStructure v.prot.bytes aad.bytes payload := by
  have h2 := isPayload_of h
  have : x.payload.ub.bytes = payload := by
    cases pay with
    | inline w =>
      obtain ⟨s, h1, -, h3⟩ := hp
      obtain ⟨s', h1', -, h3'⟩ := h2
      rw [h1] at h1'; cases h1'
      rw [h3, h3']
    | detached p => rw [hp.2, h2.2]
  unfold Decoded.tbs
  rw [this, h.prot]
  rfl

/-- The message is one that `sign1_verify_eddsa` handles. -/
def ForEddsa (cfg : Config) (v : MsgView) : Prop :=
  (cfg.disableEDDSA = false ∧ ∃ i, v.alg = some i ∧ Int32Of i (-8)) ∧
  ¬ (cfg.disableShortCircuit = false ∧ v.kid.map (·.bytes) = some scKid)

/-- **C30 (verification, EdDSA).** After a successful verification (or decoding)
of an EdDSA message the query returns the length of its Sig_structure. -/
theorem C30_verify_exact (cfg : Config) (P : QParams) (C : Crypto) (junk : Junk) (me : VerifyCtx)
    (msg : Bytes) (aad : UB) (pay : VPayload) (want : Bool) (hP : P.maxTags ≤ 4)
    (hargs : ArgsOk aad pay) (v : MsgView) (hv : IsView P msg v) (he : ForEddsa cfg v)
    (payload : Bytes) (hp : IsPayload pay v payload)
    (h : (verifyInternal cfg P C junk me msg aad pay want).res = .ok ()) :
    (verifyInternal cfg P C junk me msg aad pay want).ctx.auxiliaryBufferSize cfg =
      (sigStructure v.prot.bytes aad.bytes payload).length := by
  obtain ⟨v', x, me', ub, hacc, heq⟩ := verify_ok hP h
  have := hv.unique hacc.view
  subst this
  have h1 : ¬ isShortCircuit cfg x := fun hh => he.2 ((isShortCircuit_iff hacc.decodes).mp hh)
  have h2 : isEddsa cfg x := (isEddsa_iff hacc.decodes).mpr he.1
  obtain ⟨-, -, hsig⟩ := checkDecoded_ok hacc.check
  rcases hsig with ⟨hs, -⟩ | ⟨-, -, ub', hver⟩ | ⟨-, hne, -⟩
  · exact absurd hs h1
  · obtain ⟨-, h3, -⟩ := verifyEddsa_ok (hacc.decodes.wf hargs.1 hargs.2) hver
    rw [heq]
    simp only
    rw [h3, ← tbs_eq hacc.decodes hp]
    unfold VerifyCtx.auxiliaryBufferSize
    rw [he.1.1]
    rfl
  · exact absurd h2 hne

example : (toyVerify 8 (toyMsgEddsa [] [1])).res = .ok () ∧
    (toyVerify 8 (toyMsgEddsa [] [1])).ctx.auxiliaryBufferSize Config.full = 19 ∧
    (sigStructure (Item.map [(.uint 1, .nint 7)]).enc [] [1]).length = 19 := by decide +kernel

/-- **C30 (verification, other algorithms), partial.** A successful verification of
any other message leaves the size alone, so the query returns zero if it did
before.  Missing: a size left by an earlier EdDSA message is not reset, see
`C30_claim_false`. -/
theorem C30_verify_other_partial (cfg : Config) (P : QParams) (C : Crypto) (junk : Junk)
    (me : VerifyCtx) (msg : Bytes) (aad : UB) (pay : VPayload) (want : Bool) (hP : P.maxTags ≤ 4)
    (v : MsgView) (hv : IsView P msg v) (he : ¬ ForEddsa cfg v)
    (h : (verifyInternal cfg P C junk me msg aad pay want).res = .ok ()) :
    (verifyInternal cfg P C junk me msg aad pay want).ctx.auxiliaryBufferSize cfg =
      me.auxiliaryBufferSize cfg := by
  obtain ⟨v', x, me', ub, hacc, heq⟩ := verify_ok hP h
  have := hv.unique hacc.view
  subst this
  obtain ⟨-, -, hsig⟩ := checkDecoded_ok hacc.check
  rw [heq]
  rcases hsig with ⟨-, hm, -⟩ | ⟨h1, h2, -⟩ | ⟨-, -, hm, -⟩
  · rw [hm]; rfl
  · exact absurd ⟨(isEddsa_iff hacc.decodes).mp h2,
      fun hh => h1 ((isShortCircuit_iff hacc.decodes).mpr hh)⟩ he
  · rw [hm]; rfl

/-- **C30, the full claim is false** for verification: after decoding an EdDSA
message and then verifying an ES256 one with the same context, the query still
returns the size for the former. -/
theorem C30_claim_false :
    ¬ ∀ (cfg : Config) (C : Crypto) (junk : Junk) (flags : Nat) (msg1 msg2 : Bytes) (v : MsgView),
      (verifyInternal cfg QParams.std C junk (VerifyCtx.init flags) msg1 .nil (.inline true)
        true).res = .ok () →
      (verifyInternal cfg QParams.std C junk
        (verifyInternal cfg QParams.std C junk (VerifyCtx.init flags) msg1 .nil (.inline true)
          true).ctx msg2 .nil (.inline true) true).res = .ok () →
      IsView QParams.std msg2 v → v.alg = some (-7) →
      (verifyInternal cfg QParams.std C junk
        (verifyInternal cfg QParams.std C junk (VerifyCtx.init flags) msg1 .nil (.inline true)
          true).ctx msg2 .nil (.inline true) true).ctx.auxiliaryBufferSize cfg = 0 := by
  intro h
  have hs : ∃ v, viewOf QParams.std (toyMsg true es256Hdr [] [1]) = some v ∧ v.alg = some (-7) := by
    cases hq : viewOf QParams.std (toyMsg true es256Hdr [] [1]) with
    | none => exact absurd hq (by decide +kernel)
    | some v =>
      refine ⟨v, rfl, ?_⟩
      have : (viewOf QParams.std (toyMsg true es256Hdr [] [1])).map (·.alg) = some (some (-7)) := by
        decide +kernel
      rw [hq] at this
      exact Option.some.inj this
  obtain ⟨v, hv, ha⟩ := hs
  have := h Config.full toyCrypto noJunk 8 (toyMsgEddsa [] [1]) (toyMsg true es256Hdr [] [1]) v
    (by decide +kernel) (by decide +kernel) (viewOf_sound hv) ha
  exact absurd this (by decide +kernel)

/-! ## C31 -/

/-- **C31 (verification).** Suppose decoding an EdDSA message (DECODE_ONLY)
succeeded, reporting `n`.  Then a full verification with the same options
otherwise, and any key and adapter, fails with AUXILIARY_BUFFER_SIZE for every
auxiliary buffer shorter than `n`, fails with NEED_AUXILIARY_BUFFER for none, and
for every buffer of at least `n` octets its outcome is that of the adapter on the
Sig_structure, independent of the buffer.  No memory is accessed out of bounds. -/
theorem C31_verify (cfg : Config) (P : QParams) (C : Crypto) (junk : Junk) (me : VerifyCtx)
    (msg : Bytes) (aad : UB) (pay : VPayload) (want : Bool) (hP : P.maxTags ≤ 4)
    (hargs : ArgsOk aad pay) (v : MsgView) (hv : IsView P msg v) (he : ForEddsa cfg v)
    (payload : Bytes) (hp : IsPayload pay v payload)
    (h : (verifyInternal cfg P C junk me msg aad pay want).res = .ok ()) (n : Nat)
    (hn : (verifyInternal cfg P C junk me msg aad pay want).ctx.auxiliaryBufferSize cfg = n)
    (C' : Crypto) (me' : VerifyCtx) (hf : SameDecoding me.flags me'.flags)
    (hd : Spec.Opt.decodeOnly me'.flags = false) :
    (me'.aux.cap < n →
      (verifyInternal cfg P C' junk me' msg aad pay want).res = .error .auxiliaryBufferSize) ∧
    (n ≤ me'.aux.cap → me'.aux.isNull = true →
      (verifyInternal cfg P C' junk me' msg aad pay want).res = .error .needAuxiliaryBuffer ∧
      (verifyInternal cfg P C' junk me' msg aad pay want).ctx.auxiliaryBufferSize cfg = n) ∧
    (n ≤ me'.aux.cap → me'.aux.isNull = false →
      (verifyInternal cfg P C' junk me' msg aad pay want).res =
        C'.verifyEddsa me'.key (v.kid.map (·.bytes))
          (sigStructure v.prot.bytes aad.bytes payload) v.sig.bytes ∧
      (verifyInternal cfg P C' junk me' msg aad pay want).ctx.auxiliaryBufferSize cfg = n) ∧
    (verifyInternal cfg P C' junk me' msg aad pay want).ub = false := by
  have hd : hasFlag me'.flags optDecodeOnly = false := hd
  have hex := C30_verify_exact cfg P C junk me msg aad pay want hP hargs v hv he payload hp h
  rw [hn] at hex
  subst hex
  obtain ⟨v', x, m1, ub, hacc, heq⟩ := verify_ok hP h
  have := hv.unique hacc.view
  subst this
  have hpre := checkDecoded_pre hacc.check
  have hpre' : PreChecks (me'.withTags v) x :=
    have hq : PreChecks me' x := hf.pre ⟨hpre.kid, hpre.crit⟩
    ⟨hq.kid, hq.crit⟩
  have h1 : ¬ isShortCircuit cfg x := fun hh => he.2 ((isShortCircuit_iff hacc.decodes).mp hh)
  have h2 : isEddsa cfg x := (isEddsa_iff hacc.decodes).mpr he.1
  obtain ⟨-, hrun, -⟩ := checkDecoded_run (cfg := cfg) (C := C') (aad := aad) hpre'
    hacc.decodes.crOk hacc.decodes.unkOk
  have hkid : x.params.kid = v.kid := by
    obtain ⟨p1, hm⟩ := hacc.decodes.headersMean
    exact hm.kid.1
  have hsg : x.sig.ub.bytes = v.sig.bytes := by rw [hacc.decodes.sig]; rfl
  have hdis := he.1.1
  rw [verify_run hP hv (hf.policy hacc.policy) hacc.decodes junk want, hrun h1 h2,
    verifyEddsa_eq (hacc.decodes.wf hargs.1 hargs.2), tbs_eq hacc.decodes hp, hkid, hsg]
  have hfl : hasFlag (me'.withTags v).flags optDecodeOnly = false := hd
  rw [hfl]
  simp only [Bool.false_eq_true, if_false]
  generalize hS : sigStructure v.prot.bytes aad.bytes payload = S
  have haux : (me'.withTags v).aux = me'.aux := rfl
  have hkey : (me'.withTags v).key = me'.key := rfl
  rw [haux, hkey]
  by_cases hc : me'.aux.cap < S.length
  · rw [if_pos hc]
    refine ⟨fun _ => rfl, fun h => absurd h (by omega), fun h => absurd h (by omega), rfl⟩
  · rw [if_neg hc]
    by_cases hnl : me'.aux.isNull = true
    · rw [if_pos hnl]
      refine ⟨fun h => absurd h hc, fun _ _ => ⟨rfl, ?_⟩, fun _ h => absurd h (by simp [hnl]), rfl⟩
      simp [VRes.fail, VerifyCtx.auxiliaryBufferSize, hdis]
    · rw [if_neg hnl]
      generalize C'.verifyEddsa me'.key (v.kid.map (·.bytes)) S v.sig.bytes = q
      refine ⟨fun h => absurd h hc, fun _ h => absurd h hnl, fun _ _ => ?_, ?_⟩
      · cases q with
        | error y => exact ⟨rfl, by simp [VRes.fail, VerifyCtx.auxiliaryBufferSize, hdis]⟩
        | ok u => exact ⟨rfl, by simp [VerifyCtx.auxiliaryBufferSize, hdis]⟩
      · cases q <;> rfl

example : (sign1Verify Config.full QParams.std toyCrypto noJunk
      ((VerifyCtx.init 0).setAux Config.full (.buf (List.replicate 19 0)))
      (toyMsgEddsa [] [1]) true true).res = .ok () ∧
    (sign1Verify Config.full QParams.std toyCrypto noJunk
      ((VerifyCtx.init 0).setAux Config.full (.buf (List.replicate 18 0)))
      (toyMsgEddsa [] [1]) true true).res = .error .auxiliaryBufferSize ∧
    (sign1Verify Config.full QParams.std toyCrypto noJunk (VerifyCtx.init 0)
      (toyMsgEddsa [] [1]) true true).res = .error .needAuxiliaryBuffer := by decide +kernel

/-- **C31 (signing).** Suppose an EdDSA signing succeeded with some auxiliary
buffer, reporting `n`.  Then the same call gives the same result with every buffer
of at least `n` octets, fails with AUXILIARY_BUFFER_SIZE for every shorter one (or
NULL with a shorter length), and with NEED_AUXILIARY_BUFFER for none, reporting
`n`.  (That nothing is written out of bounds is `C43_no_ub_partial`.) -/
theorem C31_sign (cfg : Config) (C : Crypto) (hfit : SignFits C) (me : SignCtx) (det : Bool)
    (payload aad : UB) (m : Bytes) (hpw : payload.wf) (ha : aad.wf) (halg : me.alg = algEDDSA)
    (hsc : Spec.Opt.shortCircuit me.flags = false) (r : UB)
    (h : (signAadInternal cfg C me det payload aad (.buf m)).1 = .ok r) (n : Nat)
    (hn : (signAadInternal cfg C me det payload aad (.buf m)).2.1.auxiliaryBufferSize cfg = n)
    (aux : Mem) :
    (aux.cap < n →
      (signAadInternal cfg C { me with aux := aux } det payload aad (.buf m)).1
        = .error .auxiliaryBufferSize) ∧
    (n ≤ aux.cap → aux.isNull = true →
      (signAadInternal cfg C { me with aux := aux } det payload aad (.buf m)).1
        = .error .needAuxiliaryBuffer) ∧
    (n ≤ aux.cap → aux.isNull = false →
      (signAadInternal cfg C { me with aux := aux } det payload aad (.buf m)).1 = .ok r) ∧
    (n ≤ aux.cap →
      (signAadInternal cfg C { me with aux := aux } det payload aad (.buf m)).2.1.auxiliaryBufferSize
        cfg = n) := by
  have hsc : hasFlag me.flags optShortCircuit = false := hsc
  have hpre := sign_ok_pre h
  have hpay : PayArg det (Mem.buf m).isNull payload payload.bytes := by
    unfold PayArg
    cases det with
    | false => exact UB.wf_src hpw _
    | true =>
      cases payload with
      | data b => rfl
      | null k =>
        obtain ⟨x, hx⟩ := sign_detached_null (C := C) (n := k) (aad := aad) (out := .buf m) hpre
        rw [h] at hx; cases hx
  have hex := C30_sign_exact cfg C me det payload aad payload.bytes (.buf m) ha (by
    cases payload with
    | data b => exact .inl rfl
    | null k =>
      have : k = 0 := by simpa [UB.wf, UB.len, UB.bytes] using hpw
      subst this
      cases det with
      | false => exact .inr ⟨rfl, .inr rfl, rfl⟩
      | true => simp [PayArg, UB.bytes] at hpay) halg hsc (by intro hh; cases hh) r h
  rw [hn] at hex
  obtain ⟨-, hH, hcap, pp, sig, me1, ub, hd, hk⟩ := sign_ok_elim hpay h
  have hcfg : cfg.disableEDDSA = false := by
    have := C32_sign_ok_enabled cfg C me det payload aad _ r h
    rw [halg] at this
    simpa [algEnabled, algEDDSA] using this
  rw [protectedHeader_eq] at hex
  have hpre' : SignPre cfg { me with aux := aux } := ⟨hpre.alg, hpre.sc, hpre.ct⟩
  -- where the signature goes: there is room
  have hroom : ∃ k, placeOf m.length false (preSig cfg me det payload.bytes).length = .room k := by
    unfold placeOf
    simp only [Bool.false_eq_true, if_false]
    split
    · exact ⟨_, rfl⟩
    · rename_i hr
      exfalso
      have hpl : placeOf m.length false (preSig cfg me det payload.bytes).length = .null := by
        unfold placeOf
        simp only [Bool.false_eq_true, if_false, if_neg hr]
      simp only [Mem.isNull, Mem.cap, hpl] at hd hk hcap
      rw [signDispatch_eddsa (me := { me with protectedParams := pp }) hcfg halg hsc ha
        (by intro hh; cases hh)] at hd
      split at hd
      · cases hd
      · simp only [Prod.mk.injEq] at hd
        obtain ⟨hd1, -, hd3⟩ := hd
        cases hsz : C.sigSize me.alg me.key with
        | error x => rw [hsz] at hd1; cases hd1
        | ok q =>
          rw [hsz] at hd1
          injection hd1 with hd1
          subst hd1
          have := hk (List.replicate q 0) (.inr ⟨by simp, .inr (by omega)⟩) hd3.symm
          have h2 := preSig_lt_msg cfg me det payload.bytes (List.replicate q 0)
          omega
  obtain ⟨h1, h2⟩ := sign_eddsa_run (C := C) (me := { me with aux := aux }) (aad := aad) hpre' hpay
    hH hcap halg hsc ha (by intro hh; cases hh)
  have hS : ∀ q : SignCtx, q.alg = me.alg → (sigStructure (protMap q.alg) aad.bytes payload.bytes).length = n := by
    intro q hq; rw [hq]; exact hex.symm
  have hS' := hS { me with aux := aux } rfl
  rw [hS'] at h1 h2
  refine ⟨fun hh => (h1 hh).1, fun hh hnul => ?_, fun hh hnul => ?_, fun hh => ?_⟩
  · obtain ⟨k, hk'⟩ := hroom
    exact (h2 hh).2 k hk' hnul
  · obtain ⟨k, hk'⟩ := hroom
    have hdisp : ∀ pp', signDispatch cfg C { me with aux := aux, protectedParams := pp' }
        (seen false (protMap me.alg)) aad (paySeen det false payload.bytes)
        (placeOf m.length false (preSig cfg me det payload.bytes).length) =
        ((C.signEddsa me.key (sigStructure (protMap me.alg) aad.bytes payload.bytes) k).map UB.data,
          { me with aux := aux, protectedParams := pp', auxSize := n }, false) := by
      intro pp'
      rw [signDispatch_eddsa (me := { me with aux := aux, protectedParams := pp' }) hcfg halg hsc ha
        (by intro hh; cases hh), hk']
      have : ¬ aux.cap < (sigStructure (protMap me.alg) aad.bytes payload.bytes).length := by
        rw [← hex]; omega
      simp only [if_neg this, hnul, Bool.false_eq_true, if_false, hex]
    simp only [Mem.isNull, Mem.cap] at hd hk
    rw [hk', signDispatch_eddsa (me := { me with protectedParams := pp }) hcfg halg hsc ha
      (by intro hh; cases hh)] at hd
    split at hd
    · cases hd
    · simp only [Prod.mk.injEq] at hd
      obtain ⟨hd1, -, hd3⟩ := hd
      split at hd1
      · cases hd1
      · cases hsz : C.signEddsa me.key (sigStructure (protMap me.alg) aad.bytes payload.bytes) k with
        | error x => rw [hsz] at hd1; cases hd1
        | ok s =>
          rw [hsz] at hd1
          injection hd1 with hd1
          have hsr : Rel.SigSrc m.length false (preSig cfg me det payload.bytes).length sig s := by
            refine .inl ⟨hd1.symm, rfl, ?_⟩
            have hle := hfit.eddsa _ _ _ _ hsz
            unfold placeOf at hk'
            simp only [Bool.false_eq_true, if_false] at hk'
            split at hk'
            · cases hk'; exact hle
            · cases hk'
          obtain ⟨g1, g2, g3⟩ := hk s hsr hd3.symm
          rw [g3]
          exact sign_ok_intro (me := { me with aux := aux }) (out := .buf m) (sig := .data s)
            (s := s) (me' := fun pp' => { me with aux := aux, protectedParams := pp', auxSize := n })
            hpre' hpay hH g1 g2 (fun pp' => by rw [← hd1] at *; exact (hdisp pp').trans (by rw [hsz]; rfl))
            (by rw [← hd1] at hsr; exact hsr)
  · unfold SignCtx.auxiliaryBufferSize
    rw [hcfg]
    exact (h2 hh).1

example : (signAadInternal Config.full toyCrypto
      ((SignCtx.init 0 algEDDSA).setAux Config.full (.buf (List.replicate 19 0))) false (.data [1]) .nil
      (.buf (List.replicate 100 0))).1 = .ok (.data (toyMsgEddsa [] [1])) ∧
    (signAadInternal Config.full toyCrypto
      ((SignCtx.init 0 algEDDSA).setAux Config.full (.buf (List.replicate 18 0))) false (.data [1]) .nil
      (.buf (List.replicate 100 0))).1 = .error .auxiliaryBufferSize ∧
    (signAadInternal Config.full toyCrypto (SignCtx.init 0 algEDDSA) false (.data [1]) .nil
      (.buf (List.replicate 100 0))).1 = .error .needAuxiliaryBuffer := by decide +kernel

end TCose.Props
