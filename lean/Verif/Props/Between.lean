import Verif.Lemmas.Between
import Verif.Props.History

/-!
# C92: the signing context between the two steps

Between `t_cose_sign1_encode_parameters` and `t_cose_sign1_encode_signature` the caller has the
context in hand.  Settings made then come too late for the headers; a key set then signs.  But the
context also holds a pointer to the protected header in the output buffer, and everything that moves
it – a message made or sized in one call, a new initialisation – makes the second step sign other
octets than those of the message, and succeed.
-/

namespace TCose.Props
open TCose Spec

/-- Calls that set something. -/
def isSetting : MidCall → Bool
  | .setKey .. | .setAux _ | .setContentTypeUint _ | .setContentTypeTstr _ => true
  | _ => false

/-- Calls that are no initialisation. -/
def noInitMid : MidCall → Bool
  | .init .. => false
  | _ => true

/-- The key that a call sets. -/
def midKey : MidCall → Option Key
  | .setKey k _ => some k
  | _ => none

/-- The octets of the protected header as the second step finds them after another message was made:
the head of the byte string comes first, and the last octet is missing. -/
def slidHeader (alg : Int) : Bytes :=
  (Spec.head 2 (protectedHeader alg).length ++ protectedHeader alg).take (protectedHeader alg).length

/-- The Sig_structure with the octets of the protected header left out, but not its length. -/
def hollowStructure (n : Nat) (aad payload : Bytes) : Bytes :=
  Spec.head 4 4 ++ (Item.tstr (ascii "Signature1")).enc ++ Spec.head 2 n ++ (Item.bstr aad).enc ++
    (Item.bstr payload).enc

theorem slid_header (alg : Int) : slid (protMap alg) = slidHeader alg := by
  unfold slid slidHeader bstrBytes
  rw [protectedHeader_eq, encodeHead_eq_head]

theorem lastOr_cons {κ α : Type} (f : κ → Option α) (d : α) (c : κ) (calls : List κ) :
    lastOr f d (c :: calls) = lastOr f ((f c).getD d) calls := by
  unfold lastOr
  rw [List.reverse_cons, List.findSome?_append, List.findSome?_singleton]
  cases calls.reverse.findSome? f <;> rfl

theorem midRun_append (cfg : Config) (C : Crypto) (s : Midway) (a b : List MidCall) :
    midRun cfg C s (a ++ b) = midRun cfg C (midRun cfg C s a) b := by
  simp [midRun]

theorem params_me {cfg : Config} {me me1 : SignCtx} {e e1 : Enc}
    (h : sign1EncodeParameters cfg me e = (.ok (), me1, e1)) :
    ∃ pp, me1 = { me with protectedParams := pp } := by
  unfold sign1EncodeParameters encodeParametersInternal at h
  split at h
  · cases h
  · simp only at h
    split at h
    · cases h
    · split at h
      · cases h
      · cases h
        exact ⟨_, rfl⟩

theorem params_ctx {cfg : Config} {me : SignCtx} {e : Enc} :
    ∃ pp, (sign1EncodeParameters cfg me e).2.1 = { me with protectedParams := pp } := by
  unfold sign1EncodeParameters encodeParametersInternal
  split
  · exact ⟨_, rfl⟩
  · simp only
    split
    · exact ⟨_, rfl⟩
    · split <;> exact ⟨_, rfl⟩

theorem midRun_noInit (cfg : Config) (C : Crypto) (s : Midway) (mid : List MidCall)
    (h : mid.all noInitMid = true) :
    (midRun cfg C s mid).ctx.flags = s.ctx.flags ∧ (midRun cfg C s mid).ctx.alg = s.ctx.alg ∧
      (midRun cfg C s mid).ctx.key = lastOr midKey s.ctx.key mid := by
  induction mid generalizing s with
  | nil => exact ⟨rfl, rfl, rfl⟩
  | cons c mid ih =>
    rw [List.all_cons, Bool.and_eq_true] at h
    obtain ⟨i1, i2, i3⟩ := ih (c.run cfg C s) h.2
    rw [show midRun cfg C s (c :: mid) = midRun cfg C (c.run cfg C s) mid from rfl, lastOr_cons, i1, i2, i3]
    cases c with
    | init f a => cases h.1
    | setAux m =>
      refine ⟨?_, ?_, ?_⟩ <;> simp only [MidCall.run, SignCtx.setAux, midKey] <;> split <;> rfl
    | sign det p a out =>
      obtain ⟨pp, n, hc⟩ := sign_ctx (cfg := cfg) (C := C) (me := s.ctx) (det := det) (payload := p)
        (aad := a) (out := out)
      simp only [MidCall.run]
      rw [hc]
      exact ⟨rfl, rfl, rfl⟩
    | start out =>
      obtain ⟨pp, hc⟩ := params_ctx (cfg := cfg) (me := s.ctx) (e := Enc.init out)
      simp only [MidCall.run]
      rw [hc]
      exact ⟨rfl, rfl, rfl⟩
    | _ => exact ⟨rfl, rfl, rfl⟩

theorem midRun_settings (cfg : Config) (C : Crypto) (s : Midway) (mid : List MidCall)
    (h : mid.all isSetting = true) : (midRun cfg C s mid).prot = s.prot := by
  induction mid generalizing s with
  | nil => rfl
  | cons c mid ih =>
    rw [List.all_cons, Bool.and_eq_true] at h
    rw [show midRun cfg C s (c :: mid) = midRun cfg C (c.run cfg C s) mid from rfl, ih _ h.2]
    cases c with
    | init f a => cases h.1
    | sign det p a out => cases h.1
    | start out => cases h.1
    | _ => rfl

theorem settings_noInit {mid : List MidCall} (h : mid.all isSetting = true) :
    mid.all noInitMid = true := by
  rw [List.all_eq_true] at h ⊢
  intro c hc
  have := h c hc
  cases c <;> first | rfl | cases this

/-! ## What the second step makes of what it sees -/

theorem noEddsa_disabled {cfg : Config} {alg : Int} (h : sigAlgSupported cfg alg = true) :
    alg = algEDDSA → cfg.disableEDDSA = false := by
  intro hed
  unfold sigAlgSupported at h
  rw [hed] at h
  cases hq : cfg.disableEDDSA with
  | false => rfl
  | true =>
    rw [hq] at h
    simp [algEDDSA, algES256, algES384, algES512, algPS256, algPS384, algPS512] at h

/-- Taking the documented sequence with calls in between apart. -/
theorem around_elim {cfg : Config} {C : Crypto} {me : SignCtx} {aad : UB} {cs : List Content}
    {mid : List MidCall} {out : Mem} {r : UB} (h : aroundSign cfg C me aad cs mid out = .ok r) :
    ∃ me1 e1 me2 e2, sign1EncodeParameters cfg me (Enc.init out) = (.ok (), me1, e1) ∧
      encodeSignatureSeeing cfg C (midRun cfg C ⟨me1, fun e => e.deref me1.protectedParams⟩ mid).ctx
        (midRun cfg C ⟨me1, fun e => e.deref me1.protectedParams⟩ mid).prot aad .nil (runAll cs e1)
        = (.ok (), me2, e2) ∧ callerFinish e2 = .ok r := by
  unfold aroundSign at h
  cases hp : sign1EncodeParameters cfg me (Enc.init out) with
  | mk a b =>
    obtain ⟨me1, e1⟩ := b
    rw [hp] at h
    cases a with
    | error x => cases h
    | ok u =>
      simp only at h
      cases hs : encodeSignatureSeeing cfg C (midRun cfg C ⟨me1, fun e => e.deref me1.protectedParams⟩ mid).ctx
        (midRun cfg C ⟨me1, fun e => e.deref me1.protectedParams⟩ mid).prot aad .nil (runAll cs e1) with
      | mk a b =>
        obtain ⟨me2, e2⟩ := b
        rw [hs] at h
        cases a with
        | error x => cases h
        | ok u' => exact ⟨me1, e1, me2, e2, rfl, hs, h⟩

section
variable {cfg : Config} {C : Crypto} {D : Int → Bytes → Bytes} {me : SignCtx} {aad : UB}
  {cs : List Content} {m : Bytes} {r : UB}

/-- The message of the first step with a given signature. -/
def messageWith (cfg : Config) (me : SignCtx) (cs : List Content) (sig : Bytes) : Bytes :=
  (Spec.coseSign1 (!Spec.Opt.omitTag me.flags) me.alg (specKid me) (specCt cfg me)
    (some (encAll cs)) sig).enc

/-- If what is seen is real memory: a signature over the Sig_structure with that. -/
theorem around_seen (hD : StreamHash C D) (hfit : SignFits C) {mid : List MidCall} {b : Bytes}
    (ha : aad.wf) (hd : fitsAll cs 13 = true) (hn : cs.length ≤ 65534)
    (hlt : me.kid.bytes.length + (me.contentTypeTstr.getD []).length + (encAll cs).length + 128 < 2 ^ 32)
    (h : aroundSign cfg C me aad cs mid (.buf m) = .ok r)
    (hsee : ∀ me1 e1, sign1EncodeParameters cfg me (Enc.init (.buf m)) = (.ok (), me1, e1) →
      SignPre cfg me → ((closePayload .nil (runAll cs e1)).1.openLevel .openB).deref me1.protectedParams =
        .data (protectedHeader me.alg) →
      sigAlgSupported cfg (midRun cfg C ⟨me1, fun e => e.deref me1.protectedParams⟩ mid).ctx.alg = true ∧
      ¬ (hasFlag (midRun cfg C ⟨me1, fun e => e.deref me1.protectedParams⟩ mid).ctx.flags optShortCircuit = true
        ∧ cfg.disableShortCircuit = true) ∧
      ((midRun cfg C ⟨me1, fun e => e.deref me1.protectedParams⟩ mid).prot
        ((closePayload .nil (runAll cs e1)).1.openLevel .openB)).wf ∧
      ((midRun cfg C ⟨me1, fun e => e.deref me1.protectedParams⟩ mid).prot
        ((closePayload .nil (runAll cs e1)).1.openLevel .openB)).bytes = b) :
    ∃ me1 e1 sig, sign1EncodeParameters cfg me (Enc.init (.buf m)) = (.ok (), me1, e1) ∧
      r = .data (messageWith cfg me cs sig) ∧
      SignedBy C D (midRun cfg C ⟨me1, fun e => e.deref me1.protectedParams⟩ mid).ctx.flags
        (midRun cfg C ⟨me1, fun e => e.deref me1.protectedParams⟩ mid).ctx.alg
        (midRun cfg C ⟨me1, fun e => e.deref me1.protectedParams⟩ mid).ctx.key
        (sigStructure b aad.bytes (encAll cs)) sig := by
  obtain ⟨me1, e1, me2, e2, hp, hs, hf⟩ := around_elim h
  obtain ⟨hpre, hprot⟩ := between_pre hp hd hn hlt hs
  obtain ⟨ok1, ok2, ok3, ok4⟩ := hsee me1 e1 hp hpre hprot
  obtain ⟨-, -, sig, n, hr, hdis⟩ := between_run hfit hp hd hn hlt
    (fun p place hq => signDispatch_ub' ok2 (fun _ => ⟨hq ▸ ok3, ha, UB.wf_data _⟩) place) hs hf
  obtain ⟨s, e, -, -, hrun⟩ := signDispatch_room hfit ok3 ha (UB.wf_data _) ok2 (noEddsa_disabled ok1) hdis
  injection e with e
  subst e
  refine ⟨me1, e1, sig, hp, hr, ?_⟩
  have := SigFor.signedBy (hrun.sigFor hD ok3 ha (UB.wf_data _))
  rw [ok4] at this
  exact this

/-- **C92 (settings).** If nothing but settings is made between the two steps, a message that comes
out has the headers as set before the first step, and a signature over exactly these and the payload;
only the key is the one set last. -/
theorem C92_settings_partial (hD : StreamHash C D) (hfit : SignFits C) {mid : List MidCall}
    (hmid : mid.all isSetting = true)
    (ha : aad.wf) (hd : fitsAll cs 13 = true) (hn : cs.length ≤ 65534)
    (hlt : me.kid.bytes.length + (me.contentTypeTstr.getD []).length + (encAll cs).length + 128 < 2 ^ 32)
    (h : aroundSign cfg C me aad cs mid (.buf m) = .ok r) :
    ∃ sig, r = .data (messageWith cfg me cs sig) ∧
      SignedBy C D me.flags me.alg (lastOr midKey me.key mid)
        (sigStructure (protectedHeader me.alg) aad.bytes (encAll cs)) sig := by
  have key := fun me1 => midRun_noInit cfg C ⟨me1, fun e => e.deref me1.protectedParams⟩ mid
    (settings_noInit hmid)
  obtain ⟨me1, e1, sig, hp, hr, hsg⟩ := around_seen (b := protectedHeader me.alg) hD hfit ha hd hn hlt h (by
    intro me1 e1 hp hpre hprot
    obtain ⟨k1, k2, k3⟩ := key me1
    obtain ⟨pp, hme⟩ := params_me hp
    have k4 := midRun_settings cfg C ⟨me1, fun e => e.deref me1.protectedParams⟩ mid hmid
    rw [k1, k2, k4]
    simp only [hprot]
    rw [hme]
    exact ⟨hpre.alg, hpre.sc, UB.wf_data _, rfl⟩)
  obtain ⟨pp, hme⟩ := params_me hp
  obtain ⟨k1, k2, k3⟩ := key me1
  rw [k1, k2, k3, hme] at hsg
  exact ⟨sig, hr, hsg⟩

/-- **C92 (another message).** If another message was made in one call with the context, into any
buffer, the second step succeeds all the same, and the message comes out with a signature over other
octets: the protected header is replaced by `slidHeader`, which is not the protected header. -/
theorem C92_after_sign (hD : StreamHash C D) (hfit : SignFits C) {mid1 mid2 : List MidCall}
    {det : Bool} {payload aad' : UB} {m' : Bytes}
    (h1 : mid1.all noInitMid = true) (h2 : mid2.all isSetting = true)
    (hpw : payload.wf) (hdet : det = true → payload.isNull = false) (ha' : aad'.wf)
    (ha : aad.wf) (hd : fitsAll cs 13 = true) (hn : cs.length ≤ 65534)
    (hlt : me.kid.bytes.length + (me.contentTypeTstr.getD []).length + (encAll cs).length + 128 < 2 ^ 32)
    (hok : ∀ me1 e1, sign1EncodeParameters cfg me (Enc.init (.buf m)) = (.ok (), me1, e1) →
      ∃ r', (signAadInternal cfg C (midRun cfg C ⟨me1, fun e => e.deref me1.protectedParams⟩ mid1).ctx
        det payload aad' (.buf m')).1 = .ok r')
    (h : aroundSign cfg C me aad cs (mid1 ++ .sign det payload aad' (.buf m') :: mid2) (.buf m) = .ok r) :
    ∃ sig, r = .data (messageWith cfg me cs sig) ∧
      SignedBy C D me.flags me.alg (lastOr midKey me.key (mid1 ++ mid2))
        (sigStructure (slidHeader me.alg) aad.bytes (encAll cs)) sig := by
  have hall : (mid1 ++ .sign det payload aad' (.buf m') :: mid2).all noInitMid = true := by
    rw [List.all_append, List.all_cons, h1, settings_noInit h2]; rfl
  have key := fun me1 => midRun_noInit cfg C ⟨me1, fun e => e.deref me1.protectedParams⟩ _ hall
  obtain ⟨me1, e1, sig, hp, hr, hsg⟩ := around_seen (b := slidHeader me.alg) hD hfit ha hd hn hlt h (by
    intro me1 e1 hp hpre hprot
    obtain ⟨k1, k2, k3⟩ := key me1
    obtain ⟨pp, hme⟩ := params_me hp
    obtain ⟨j1, j2, j3⟩ := midRun_noInit cfg C ⟨me1, fun e => e.deref me1.protectedParams⟩ _ h1
    obtain ⟨r', hr'⟩ := hok me1 e1 hp
    rw [k1, k2]
    refine ⟨by rw [hme]; exact hpre.alg, by rw [hme]; exact hpre.sc, ?_⟩
    rw [midRun_append]
    generalize midRun cfg C ⟨me1, fun e => e.deref me1.protectedParams⟩ mid1 = t at j1 j2 j3 hr'
    rw [show midRun cfg C t (.sign det payload aad' (.buf m') :: mid2) =
      midRun cfg C (MidCall.run cfg C t (.sign det payload aad' (.buf m'))) mid2 from rfl,
      midRun_settings _ _ _ _ h2]
    have halg : t.ctx.alg = me.alg := by rw [j2, hme]
    cases hq : signAadInternal cfg C t.ctx det payload aad' (.buf m') with
    | mk a b =>
      obtain ⟨me', e'⟩ := b
      rw [hq] at hr'
      simp only at hr'
      subst hr'
      have hl := sign_left_buf hfit (w := payload.bytes) (payArg_wf hpw hdet) ha' hq
      rw [halg] at hl
      simp only [MidCall.run, hq, halg, hpre.alg, if_true, hl, slid_header]
      exact ⟨UB.wf_data _, rfl⟩)
  obtain ⟨pp, hme⟩ := params_me hp
  obtain ⟨k1, k2, k3⟩ := key me1
  rw [k1, k2, k3, hme] at hsg
  refine ⟨sig, hr, ?_⟩
  have : lastOr midKey me.key (mid1 ++ .sign det payload aad' (.buf m') :: mid2) =
      lastOr midKey me.key (mid1 ++ mid2) := by
    unfold lastOr
    simp [List.findSome?_append, List.findSome?_cons, midKey]
  rw [← this]
  exact hsg

/-- **C92 (two messages at a time).** If after all the rest another message was begun with the context, and
its buffer is big enough for the headers, the second step sees the protected header in that buffer, which
is the same; so the message is right, whatever was done before (save an initialisation). -/
theorem C92_after_start_partial (hD : StreamHash C D) (hfit : SignFits C) {mid1 mid2 : List MidCall}
    {m' : Bytes} (h1 : mid1.all noInitMid = true) (h2 : mid2.all isSetting = true)
    (ha : aad.wf) (hd : fitsAll cs 13 = true) (hn : cs.length ≤ 65534)
    (hlt : me.kid.bytes.length + (me.contentTypeTstr.getD []).length + (encAll cs).length + 128 < 2 ^ 32)
    (hok : ∀ me1 e1, sign1EncodeParameters cfg me (Enc.init (.buf m)) = (.ok (), me1, e1) →
      ∃ me' e', sign1EncodeParameters cfg (midRun cfg C ⟨me1, fun e => e.deref me1.protectedParams⟩ mid1).ctx
        (Enc.init (.buf m')) = (.ok (), me', e') ∧ e'.small = false)
    (h : aroundSign cfg C me aad cs (mid1 ++ .start (.buf m') :: mid2) (.buf m) = .ok r) :
    ∃ sig, r = .data (messageWith cfg me cs sig) ∧
      SignedBy C D me.flags me.alg (lastOr midKey me.key (mid1 ++ mid2))
        (sigStructure (protectedHeader me.alg) aad.bytes (encAll cs)) sig := by
  have hall : (mid1 ++ .start (.buf m') :: mid2).all noInitMid = true := by
    rw [List.all_append, List.all_cons, h1, settings_noInit h2]; rfl
  have key := fun me1 => midRun_noInit cfg C ⟨me1, fun e => e.deref me1.protectedParams⟩ _ hall
  obtain ⟨me1, e1, sig, hp, hr, hsg⟩ := around_seen (b := protectedHeader me.alg) hD hfit ha hd hn hlt h (by
    intro me1 e1 hp hpre hprot
    obtain ⟨k1, k2, k3⟩ := key me1
    obtain ⟨pp, hme⟩ := params_me hp
    obtain ⟨j1, j2, j3⟩ := midRun_noInit cfg C ⟨me1, fun e => e.deref me1.protectedParams⟩ _ h1
    obtain ⟨me', e', hq, hsm⟩ := hok me1 e1 hp
    rw [k1, k2]
    refine ⟨by rw [hme]; exact hpre.alg, by rw [hme]; exact hpre.sc, ?_⟩
    rw [midRun_append]
    generalize midRun cfg C ⟨me1, fun e => e.deref me1.protectedParams⟩ mid1 = t at j1 j2 j3 hq
    rw [show midRun cfg C t (.start (.buf m') :: mid2) =
      midRun cfg C (MidCall.run cfg C t (.start (.buf m'))) mid2 from rfl,
      midRun_settings _ _ _ _ h2]
    have halg : t.ctx.alg = me.alg := by rw [j2, hme]
    have hl := start_left hq hsm
    rw [halg] at hl
    simp only [MidCall.run, hq, halg, hpre.alg, if_true, hl, protectedHeader_eq]
    exact ⟨UB.wf_data _, rfl⟩)
  obtain ⟨pp, hme⟩ := params_me hp
  obtain ⟨k1, k2, k3⟩ := key me1
  rw [k1, k2, k3, hme] at hsg
  refine ⟨sig, hr, ?_⟩
  have : lastOr midKey me.key (mid1 ++ .start (.buf m') :: mid2) = lastOr midKey me.key (mid1 ++ mid2) := by
    unfold lastOr
    simp [List.findSome?_append, List.findSome?_cons, midKey]
  rw [← this]
  exact hsg

/-- The octets differ, so what is signed differs, for all algorithms, external data and payloads. -/
theorem C92_slid_differs (alg : Int) (a w a' w' : Bytes) (h1 : a.length < 2 ^ 64) (h2 : w.length < 2 ^ 64)
    (h1' : a'.length < 2 ^ 64) (h2' : w'.length < 2 ^ 64) :
    sigStructure (slidHeader alg) a w ≠ sigStructure (protectedHeader alg) a' w' := by
  intro h
  have hl := Ideal.protMap_length_le alg
  obtain ⟨h, -, -⟩ := sigStructure_inj (by
      rw [← slid_header]; unfold slid; rw [List.length_take]; omega) h1 h2 (by
      rw [protectedHeader_eq]; omega) h1' h2' h
  rw [← slid_header, protectedHeader_eq] at h
  have hh := congrArg List.head? h
  have hp : (protMap alg).head? = some 0xa1 := by rfl
  have hne : protMap alg ≠ [] := by intro e; rw [e] at hp; cases hp
  rw [hp] at hh
  unfold slid bstrBytes encodeHead at hh
  rw [if_pos (by omega), List.head?_take, if_neg (by simpa using hne)] at hh
  simp only [List.cons_append, List.head?_cons, Option.some.injEq] at hh
  revert hh
  generalize (protMap alg).length = n at hl
  have : ∀ n, n ≤ 11 → initialByte 2 n ≠ 0xa1 := by decide
  exact this n hl

/-- **C92 (a new initialisation).** After an initialisation between the steps the second step signs,
as it asks for, the Sig_structure with an empty protected header, whereas the message has the protected
header of the first step. -/
theorem C92_after_init (hD : StreamHash C D) (hfit : SignFits C) {mid1 mid2 : List MidCall}
    {flags : Nat} {alg : Int} (halg : sigAlgSupported cfg alg = true)
    (hsc : flags.testBit 0 = true → cfg.disableShortCircuit = false)
    (h2 : mid2.all isSetting = true)
    (ha : aad.wf) (hd : fitsAll cs 13 = true) (hn : cs.length ≤ 65534)
    (hlt : me.kid.bytes.length + (me.contentTypeTstr.getD []).length + (encAll cs).length + 128 < 2 ^ 32)
    (h : aroundSign cfg C me aad cs (mid1 ++ .init flags alg :: mid2) (.buf m) = .ok r) :
    ∃ sig, r = .data (messageWith cfg me cs sig) ∧
      SignedBy C D flags alg (lastOr midKey Key.null mid2) (sigStructure [] aad.bytes (encAll cs)) sig := by
  have hrun : ∀ me1, midRun cfg C ⟨me1, fun e => e.deref me1.protectedParams⟩ (mid1 ++ .init flags alg :: mid2)
      = midRun cfg C ⟨SignCtx.init flags alg, fun _ => .nil⟩ mid2 := by
    intro me1; rw [midRun_append]; rfl
  obtain ⟨k1, k2, k3⟩ := midRun_noInit cfg C ⟨SignCtx.init flags alg, fun _ => .nil⟩ mid2 (settings_noInit h2)
  obtain ⟨me1, e1, sig, hp, hr, hsg⟩ := around_seen (b := []) hD hfit ha hd hn hlt h (by
    intro me1 e1 hp hpre hprot
    rw [hrun, k1, k2, midRun_settings _ _ _ _ h2]
    refine ⟨halg, ?_, rfl, rfl⟩
    rintro ⟨x1, x2⟩
    rw [hsc (by rw [← opt_shortCircuit] at x1; exact x1)] at x2
    cases x2)
  rw [hrun, k1, k2, k3] at hsg
  exact ⟨sig, hr, hsg⟩

/-- Success of signing over a digest, whatever the buffers are. -/
theorem dispatch_plain (hD : StreamHash C D) {ctx ctx' : SignCtx} {p a w : UB} {n : Nat} {sig : Bytes}
    {ub : Bool} (hne : ctx.alg ≠ algEDDSA)
    (hsc : ¬ (hasFlag ctx.flags optShortCircuit = true ∧ cfg.disableShortCircuit = true))
    (h : signDispatch cfg C ctx p a w (.room n) = (.ok (.data sig), ctx', ub)) :
    SigFor C D ctx ((tbsChunks p a w).map UB.bytes).flatten sig := by
  have hash : ∀ {x}, createTbsHash cfg C ctx.alg p a w (maxHashSize cfg) = .ok x →
      ∃ hal, Spec.hashOf ctx.alg = some hal ∧ x = D hal ((tbsChunks p a w).map UB.bytes).flatten := by
    intro x hh
    rw [createTbsHash_eq] at hh
    split at hh
    · cases hh
    · rename_i hn
      cases hs : C.hashStart (hashAlgOfSigAlg cfg ctx.alg) with
      | error x => rw [hs] at hh; cases hh
      | ok h0 =>
        rw [hs] at hh
        simp only [] at hh
        obtain ⟨Abs, k1, k2, k3, k4⟩ := hD
        have := streamHash_foldl k2 k3 (tbsChunks p a w) h0 _ [] (k1 _ _ hs)
        have := k4 _ _ _ _ _ this hh
        rw [List.nil_append] at this
        exact ⟨_, hashAlg_hashOf hn, this⟩
  unfold signDispatch at h
  unfold SigFor
  rw [opt_shortCircuit]
  by_cases hf : hasFlag ctx.flags optShortCircuit = true
  · have hd : cfg.disableShortCircuit = false := by
      cases hc : cfg.disableShortCircuit with
      | false => rfl
      | true => exact absurd ⟨hf, hc⟩ hsc
    rw [if_pos hf]
    simp only [hd, hf, Bool.not_false, Bool.and_self, if_true, Prod.mk.injEq] at h
    obtain ⟨h, -, -⟩ := h
    unfold signShortCircuit at h
    cases hh : createTbsHash cfg C ctx.alg p a w (maxHashSize cfg) with
    | error x => rw [hh] at h; cases h
    | ok x =>
      rw [hh] at h
      simp only [] at h
      obtain ⟨hal, q1, q2⟩ := hash hh
      cases hs : scSign ctx.alg x n with
      | error y => rw [hs] at h; cases h
      | ok s =>
        rw [hs] at h
        simp only [Except.map, Except.ok.injEq, UB.data.injEq] at h
        subst h
        exact ⟨hal, n, q1, q2 ▸ hs⟩
  · have hf' : hasFlag ctx.flags optShortCircuit = false := by simpa using hf
    have hb : (ctx.alg == algEDDSA) = false := by simpa using hne
    rw [if_neg hf, if_neg hne]
    simp only [hf', hb, Bool.and_false, Bool.false_eq_true, if_false, Prod.mk.injEq] at h
    obtain ⟨h, -, -⟩ := h
    unfold signDefault at h
    cases hh : createTbsHash cfg C ctx.alg p a w (maxHashSize cfg) with
    | error x => rw [hh] at h; cases h
    | ok x =>
      rw [hh] at h
      simp only [] at h
      obtain ⟨hal, q1, q2⟩ := hash hh
      cases hs : C.sign ctx.alg ctx.key x n with
      | error y => rw [hs] at h; cases h
      | ok s =>
        rw [hs] at h
        simp only [Except.map, Except.ok.injEq, UB.data.injEq] at h
        subst h
        exact ⟨hal, n, q1, q2 ▸ hs⟩

theorem hollow_chunks {a w : UB} (n : Nat) (ha : a.wf) (hw : w.wf) :
    ((tbsChunks (.null n) a w).map UB.bytes).flatten = hollowStructure n a.bytes w.bytes := by
  have ha : a.len = a.bytes.length := ha
  have hw : w.len = w.bytes.length := hw
  have : (0x84 : UInt8) :: 0x6a :: contextString
      = Spec.head 4 4 ++ (Item.tstr (ascii "Signature1")).enc := by decide +kernel
  have hb : ∀ b : Bytes, (UB.data b).bytes = b := fun _ => rfl
  have hn : (UB.null n).bytes = [] ∧ (UB.null n).len = n := ⟨rfl, rfl⟩
  simp [tbsChunks, hb, hn, this, ha, hw, hollowStructure, encodeHead_eq_head, Item.enc]

/-- **C92 (a size calculation).** If the size of another message was calculated with the context, the
second step succeeds all the same, unless the algorithm is EdDSA; the octets of the protected header
are left out of what is signed. -/
theorem C92_after_size (hD : StreamHash C D) (hfit : SignFits C) {mid1 mid2 : List MidCall}
    {det : Bool} {payload aad' : UB} {n' : Nat}
    (h1 : mid1.all noInitMid = true) (h2 : mid2.all isSetting = true)
    (hdet : det = true → payload.isNull = false) (hne : me.alg ≠ -8)
    (ha : aad.wf) (hd : fitsAll cs 13 = true) (hn : cs.length ≤ 65534)
    (hlt : me.kid.bytes.length + (me.contentTypeTstr.getD []).length + (encAll cs).length + 128 < 2 ^ 32)
    (hok : ∀ me1 e1, sign1EncodeParameters cfg me (Enc.init (.buf m)) = (.ok (), me1, e1) →
      ∃ r', (signAadInternal cfg C (midRun cfg C ⟨me1, fun e => e.deref me1.protectedParams⟩ mid1).ctx
        det payload aad' (.null n')).1 = .ok r')
    (h : aroundSign cfg C me aad cs (mid1 ++ .sign det payload aad' (.null n') :: mid2) (.buf m) = .ok r) :
    ∃ sig, r = .data (messageWith cfg me cs sig) ∧
      SignedBy C D me.flags me.alg (lastOr midKey me.key (mid1 ++ mid2))
        (hollowStructure (protectedHeader me.alg).length aad.bytes (encAll cs)) sig := by
  have hall : (mid1 ++ .sign det payload aad' (.null n') :: mid2).all noInitMid = true := by
    rw [List.all_append, List.all_cons, h1, settings_noInit h2]; rfl
  obtain ⟨me1, e1, me2, e2, hp, hs, hf⟩ := around_elim h
  obtain ⟨hpre, -⟩ := between_pre hp hd hn hlt hs
  obtain ⟨k1, k2, k3⟩ := midRun_noInit cfg C ⟨me1, fun e => e.deref me1.protectedParams⟩ _ hall
  obtain ⟨pp, hme⟩ := params_me hp
  obtain ⟨j1, j2, j3⟩ := midRun_noInit cfg C ⟨me1, fun e => e.deref me1.protectedParams⟩ _ h1
  obtain ⟨r', hr'⟩ := hok me1 e1 hp
  have hk : lastOr midKey me.key (mid1 ++ .sign det payload aad' (.null n') :: mid2) =
      lastOr midKey me.key (mid1 ++ mid2) := by
    unfold lastOr
    simp [List.findSome?_append, List.findSome?_cons, midKey]
  have hprot : (midRun cfg C ⟨me1, fun e => e.deref me1.protectedParams⟩
      (mid1 ++ .sign det payload aad' (.null n') :: mid2)).prot = fun _ => .null (protMap me.alg).length := by
    rw [midRun_append]
    generalize midRun cfg C ⟨me1, fun e => e.deref me1.protectedParams⟩ mid1 = t at j1 j2 j3 hr'
    rw [show midRun cfg C t (.sign det payload aad' (.null n') :: mid2) =
      midRun cfg C (MidCall.run cfg C t (.sign det payload aad' (.null n'))) mid2 from rfl,
      midRun_settings _ _ _ _ h2]
    have halg : t.ctx.alg = me.alg := by rw [j2, hme]
    have hpay : ∃ w, PayArg det true payload w := by
      unfold PayArg
      cases det with
      | false => exact SrcOk.src (.inl rfl)
      | true =>
        cases payload with
        | null n => cases hdet rfl
        | data b => exact ⟨b, rfl⟩
    obtain ⟨w, hpay⟩ := hpay
    cases hq : signAadInternal cfg C t.ctx det payload aad' (.null n') with
    | mk a b =>
      obtain ⟨me', e'⟩ := b
      rw [hq] at hr'
      simp only at hr'
      subst hr'
      have hl := sign_left_null hpay hq
      rw [halg] at hl
      simp only [MidCall.run, hq, halg, hpre.alg, if_true, hl]
  have k1 : _ = me.flags := k1.trans (by rw [hme])
  have k2 : _ = me.alg := k2.trans (by rw [hme])
  have k3 : _ = lastOr midKey me.key (mid1 ++ mid2) := k3.trans (by rw [hme]; exact hk)
  rw [hprot] at hs
  generalize (midRun cfg C ⟨me1, fun e => e.deref me1.protectedParams⟩
    (mid1 ++ .sign det payload aad' (.null n') :: mid2)).ctx = ctx at hs k1 k2 k3
  have hsc : ¬ (hasFlag ctx.flags optShortCircuit = true ∧ cfg.disableShortCircuit = true) := by
    rw [k1]; exact hpre.sc
  have hne' : ctx.alg ≠ algEDDSA := by rw [k2]; exact hne
  obtain ⟨-, -, sig, n, hr, hdis⟩ := between_run hfit hp hd hn hlt
    (fun p place hq => signDispatch_ub' hsc (fun hc => absurd hc.1 hne') place) hs hf
  have := SigFor.signedBy (dispatch_plain hD hne' hsc hdis)
  rw [hollow_chunks _ ha (UB.wf_data _), k1, k2, k3, ← protectedHeader_eq] at this
  exact ⟨sig, hr, this⟩

end

/-! ## Settings that come too late -/

/-- Content types and key identifiers: settings that leave the key `k` and the auxiliary buffer. -/
def onlyHeaders (k : Key) : MidCall → Prop
  | .setKey k' _ => k' = k
  | .setContentTypeUint _ | .setContentTypeTstr _ => True
  | _ => False

theorem dispatch_headers (cfg : Config) (C : Crypto) (ctx : SignCtx) (kid : UB) (n : Nat)
    (t : Option Bytes) (p a w : UB) (place : Enc.Place) :
    signDispatch cfg C { ctx with kid := kid, contentTypeUint := n, contentTypeTstr := t } p a w place =
      ((signDispatch cfg C ctx p a w place).1,
        { (signDispatch cfg C ctx p a w place).2.1 with kid := kid, contentTypeUint := n, contentTypeTstr := t },
        (signDispatch cfg C ctx p a w place).2.2) := by
  unfold signDispatch
  split
  · rfl
  · split
    · unfold signEddsa
      simp only
      repeat' split
      all_goals first | rfl | simp_all
    · rfl

theorem encSee_headers (cfg : Config) (C : Crypto) (ctx : SignCtx) (kid : UB) (n : Nat)
    (t : Option Bytes) (prot : Enc → UB) (aad dp : UB) (e : Enc) :
    (encodeSignatureSeeing cfg C { ctx with kid := kid, contentTypeUint := n, contentTypeTstr := t } prot aad dp e).1 =
        (encodeSignatureSeeing cfg C ctx prot aad dp e).1 ∧
      (encodeSignatureSeeing cfg C { ctx with kid := kid, contentTypeUint := n, contentTypeTstr := t } prot aad dp e).2.2 =
        (encodeSignatureSeeing cfg C ctx prot aad dp e).2.2 := by
  unfold encodeSignatureSeeing
  simp only [dispatch_headers]
  split
  · exact ⟨rfl, rfl⟩
  · exact ⟨rfl, rfl⟩
  · generalize signDispatch cfg C ctx _ aad _ _ = q
    obtain ⟨a, b, c⟩ := q
    cases a <;> exact ⟨rfl, rfl⟩

theorem midRun_headers (cfg : Config) (C : Crypto) (s : Midway) (mid : List MidCall)
    (h : ∀ c ∈ mid, onlyHeaders s.ctx.key c) :
    ∃ kid n t, midRun cfg C s mid =
      ⟨{ s.ctx with kid := kid, contentTypeUint := n, contentTypeTstr := t }, s.prot⟩ := by
  induction mid generalizing s with
  | nil => exact ⟨_, _, _, rfl⟩
  | cons c mid ih =>
    have hc := h c (by simp)
    have hk : (c.run cfg C s).ctx.key = s.ctx.key := by
      cases c <;> first | rfl | exact hc | exact hc.elim
    obtain ⟨kid, n, t, hr⟩ := ih (c.run cfg C s) (fun c' hc' => by rw [hk]; exact h c' (by simp [hc']))
    refine ⟨kid, n, t, ?_⟩
    rw [show midRun cfg C s (c :: mid) = midRun cfg C (c.run cfg C s) mid from rfl, hr]
    cases c with
    | setKey k kid' =>
      have hc : k = s.ctx.key := hc
      subst hc
      rfl
    | setContentTypeUint _ => rfl
    | setContentTypeTstr _ => rfl
    | _ => exact hc.elim

/-- **C92 (too late).** Content types and key identifiers set between the steps have no effect at all:
the outcome, refusals included, is that of the two steps without them, for every buffer and payload. -/
theorem C92_too_late (cfg : Config) (C : Crypto) (me : SignCtx) (aad : UB) (cs : List Content)
    (mid : List MidCall) (out : Mem) (h : ∀ c ∈ mid, onlyHeaders me.key c) :
    aroundSign cfg C me aad cs mid out = twoStepSign cfg C me aad cs out := by
  unfold aroundSign twoStepSign
  cases hp : sign1EncodeParameters cfg me (Enc.init out) with
  | mk a b =>
    obtain ⟨me1, e1⟩ := b
    cases a with
    | error x => rfl
    | ok u =>
      simp only
      obtain ⟨pp, hme⟩ := params_me hp
      have hk : me1.key = me.key := by rw [hme]
      obtain ⟨kid, n, t, hr⟩ := midRun_headers cfg C ⟨me1, fun e => e.deref me1.protectedParams⟩ mid
        (by rw [hk]; exact h)
      rw [hr]
      obtain ⟨h1, h2⟩ := encSee_headers cfg C me1 kid n t (fun e => e.deref me1.protectedParams) aad .nil (runAll cs e1)
      rw [show sign1EncodeSignatureAad cfg C me1 aad (runAll cs e1) =
        encodeSignatureSeeing cfg C me1 (fun e => e.deref me1.protectedParams) aad .nil (runAll cs e1) from rfl]
      generalize encodeSignatureSeeing cfg C me1 (fun e => e.deref me1.protectedParams) aad .nil (runAll cs e1) = q
        at h1 h2
      generalize encodeSignatureSeeing cfg C _ (fun e => e.deref me1.protectedParams) aad .nil (runAll cs e1) = q'
        at h1 h2
      obtain ⟨a, b, c⟩ := q
      obtain ⟨a', b', c'⟩ := q'
      simp only at h1 h2
      subst h1 h2
      cases a' <;> rfl

/-! ## Cases -/

/-- Settings between the steps: the key of the message is the one set last. -/
def exMid : List MidCall :=
  [.setContentTypeUint 50, .setKey ⟨.openssl, 7⟩ (.data [1, 2]), .setAux (.buf (List.replicate 300 0))]

/-- Another message in between. -/
def exOther : MidCall := .sign false (.data [1, 2, 3]) .nil (.buf (List.replicate 200 0))

def exBetweenCtx : SignCtx := SignCtx.init 0 algES256

example : exMid.all isSetting = true ∧ (aroundSign Config.full toyCrypto exBetweenCtx .nil exContent exMid
    (.buf (List.replicate 300 0))).toOption.isSome = true := by decide +kernel

example : ∀ c ∈ [MidCall.setContentTypeUint 50, .setKey Key.null (.data [1, 2])], onlyHeaders exBetweenCtx.key c := by
  intro c hc
  simp only [List.mem_cons, List.not_mem_nil, or_false] at hc
  rcases hc with rfl | rfl <;> first | exact trivial | rfl

example : slidHeader (-7) = [0x43, 0xa1, 0x01] ∧ protectedHeader (-7) = [0xa1, 0x01, 0x26] := by
  decide +kernel

/-- Accepted by verification with the same key. -/
def exAccepted (mid : List MidCall) : Option Bool :=
  (aroundSign Config.full toyCrypto exBetweenCtx .nil exContent mid (.buf (List.replicate 300 0))).toOption.map
    fun b => (sign1Verify Config.full QParams.std toyCrypto noJunk (VerifyCtx.init 0) b.bytes true true).res
      == .ok ()

/-- **C92 is false of the code**: the two steps succeed, the other message is made too, and the message
of the two steps is not accepted; likewise after a size calculation and after an initialisation with the
same arguments. Without that, or with settings, it is. -/
theorem C92_claim_false :
    exAccepted [] = some true ∧ exAccepted exMid = some true ∧
    exAccepted [exOther] = some false ∧
    exAccepted [.sign false (.data [1, 2, 3]) .nil (.null 1000)] = some false ∧
    exAccepted [.init 0 algES256] = some false ∧
    exAccepted [exOther, .start (.buf (List.replicate 50 0))] = some true ∧
    exAccepted [.start (.buf [])] = some false := by
  decide +kernel

/-- The hypothesis on the other message in `C92_after_sign`. -/
example : ((signAadInternal Config.full toyCrypto
    (sign1EncodeParameters Config.full exBetweenCtx (Enc.init (.buf (List.replicate 300 0)))).2.1
    false (.data [1, 2, 3]) .nil (.buf (List.replicate 200 0))).1.toOption.isSome) = true := by
  decide +kernel

end TCose.Props
