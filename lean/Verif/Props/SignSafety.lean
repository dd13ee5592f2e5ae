import Verif.Lemmas.TwoStep
import Verif.Crypto.Toy
import Verif.Props.Sign

/-!
# Signing: C09, C32, C33, C34, C35, C43, C44
-/

namespace TCose.Props
open TCose Spec

/-- Success is `QCBOREncode_Finish` succeeding on an encoder without error. -/
theorem sign_finish {cfg : Config} {C : Crypto} {me : SignCtx} {det : Bool} {payload aad : UB}
    {out : Mem} {r : UB} (h : (signAadInternal cfg C me det payload aad out).1 = .ok r) :
    (signAadInternal cfg C me det payload aad out).2.2.finish = .ok r ∧
    (signAadInternal cfg C me det payload aad out).2.2.errState = .ok := by
  revert h
  unfold signAadInternal
  cases encodeParametersInternal cfg me det (Enc.init out) with
  | mk r1 q =>
    obtain ⟨me1, e1⟩ := q
    cases r1 with
    | error x => intro h; cases h
    | ok _ =>
      simp only []
      generalize (if det then e1.addNull else e1.addEncoded payload) = e2
      generalize (if det then payload else .nil) = pl
      cases encodeSignatureInternal cfg C me1 aad pl e2 with
      | mk r2 q =>
        obtain ⟨me2, e⟩ := q
        cases r2 with
        | error x => intro h; cases h
        | ok _ =>
          simp only []
          cases he : e.errState with
          | tooSmall => intro h; cases h
          | other x => intro h; cases h
          | ok =>
            simp only []
            cases hf : e.finish with
            | ok r' => intro h; cases h; exact ⟨hf, he⟩
            | error x => intro h; cases h

theorem finish_len {e : Enc} {r : UB} {m : Bytes} (hm : e.mem = .buf m) (h : e.finish = .ok r) :
    r.len ≤ m.length := by
  unfold Enc.finish at h
  cases he : e.errState with
  | ok =>
    rw [he] at h
    simp only [hm] at h
    split at h
    · cases h; simp only [UB.len, List.length_take]; omega
    · cases h
  | tooSmall => rw [he] at h; cases h
  | other x => rw [he] at h; cases h

/-! ## C09, C43 -/

/-- **C09 (bounds).** Whatever happens, a signing call only touches octets inside
the caller's buffer, whose size never changes, and a result never exceeds it. The
ghost flag `ub` would record a write past the end. (That a sufficient buffer does
not fail for lack of space and a smaller one always fails is
`C08_size_then_sign`.) -/
theorem C09_in_bounds (cfg : Config) (C : Crypto) (hfit : Spec.SignFits C) (me : SignCtx)
    (det : Bool) (payload aad : UB) (hp : payload.wf) (ha : aad.wf) (m : Bytes) :
    (signAadInternal cfg C me det payload aad (.buf m)).2.2.ub = false ∧
    (∃ m', (signAadInternal cfg C me det payload aad (.buf m)).2.2.mem = .buf m' ∧
      m'.length = m.length) ∧
    ∀ r, (signAadInternal cfg C me det payload aad (.buf m)).1 = .ok r → r.len ≤ m.length := by
  have hs := sign_safe (cfg := cfg) (me := me) (det := det) (payload := payload) (aad := aad)
    (out := .buf m) hfit (.inr hp) (fun _ => ⟨rfl, ha⟩)
  have hm : ∃ m', (signAadInternal cfg C me det payload aad (.buf m)).2.2.mem = .buf m' ∧
      m'.length = m.length := by
    have h1 := hs.cap_eq
    have h2 := hs.nul_eq
    cases hm : (signAadInternal cfg C me det payload aad (.buf m)).2.2.mem with
    | null c => rw [hm] at h2; cases h2
    | buf m' => rw [hm] at h1; exact ⟨m', rfl, h1⟩
  refine ⟨hs.ub, hm, fun r hr => ?_⟩
  obtain ⟨m', h1, h2⟩ := hm
  rw [← h2]
  exact finish_len h1 (sign_finish hr).1

/-- Too small by one octet, in a build that would otherwise succeed. -/
example : (sign1Sign Config.full toyCrypto exCtx (.data [1, 2, 3])
      (.buf (List.replicate 86 7))).2.2.ub = false ∧
    (sign1Sign Config.full toyCrypto exCtx (.data [1, 2, 3])
      (.buf (List.replicate 86 7))).2.2.mem.cap = 86 := by
  decide +kernel

/-- The adapter contract is needed: one that ignores its buffer size overruns. -/
example : (sign1Sign Config.full { toyCrypto with sign := fun _ _ h _ => .ok (toySig h) } exCtx
    (.data [1, 2, 3]) (.buf (List.replicate 60 7))).2.2.ub = true := by
  decide +kernel

/-- The full claim of C43: for all combinations of real and NULL buffers. -/
def C43_claim : Prop :=
  ∀ (cfg : Config) (C : Crypto), Spec.SignFits C → ∀ (me : SignCtx) (det : Bool) (payload aad : UB),
    payload.wf → aad.wf → ∀ out : Mem,
      (signAadInternal cfg C me det payload aad out).2.2.ub = false

/-- **C43_partial.** No undefined memory access, for every combination except
one: EdDSA with a registered auxiliary buffer and a NULL output buffer.
Missing: that combination, for which the claim is false, see
`C43_violated_size_query_with_aux`. -/
theorem C43_no_ub_partial (cfg : Config) (C : Crypto) (hfit : Spec.SignFits C) (me : SignCtx)
    (det : Bool) (payload aad : UB) (hp : payload.wf) (ha : aad.wf) (out : Mem)
    (h : ¬ (me.alg = algEDDSA ∧ Spec.Opt.shortCircuit me.flags = false ∧
      me.aux.isNull = false ∧ out.isNull = true)) :
    (signAadInternal cfg C me det payload aad out).2.2.ub = false := by
  refine (sign_safe (cfg := cfg) (me := me) (det := det) (payload := payload) (aad := aad)
    (out := out) hfit (.inr hp) ?_).ub
  rintro ⟨h1, h2, h3⟩
  refine ⟨?_, ha⟩
  cases ho : out.isNull with
  | false => rfl
  | true => exact absurd ⟨h1, h2, h3, ho⟩ h

example : (sign1Sign Config.full toyCrypto { SignCtx.init 0 algEDDSA with aux := .buf (List.replicate 60 0) }
    (.data [1]) (.buf (List.replicate 100 0))).2.2.ub = false := by decide +kernel

/-- **C43 is false of the code.** Size calculation for EdDSA with a real
auxiliary buffer copies the protected header from the NULL output buffer into
it (src/t_cose_sign1_sign.c:318-345 with the reference taken at line 96-103). -/
theorem C43_violated_size_query_with_aux :
    (sign1Sign Config.full toyCrypto { SignCtx.init 0 algEDDSA with aux := .buf (List.replicate 60 0) }
      (.data [1]) (.null 100)).2.2.ub = true := by
  decide +kernel

theorem C43_claim_false : ¬ C43_claim := by
  intro h
  have := h Config.full toyCrypto toy_signFits
    { SignCtx.init 0 algEDDSA with aux := .buf (List.replicate 60 0) } false (.data [1]) .nil rfl rfl
    (.null 100)
  have h2 := C43_violated_size_query_with_aux
  unfold sign1Sign at h2
  rw [h2] at this
  cases this

/-! ## C32 -/

/-- `signature_algorithm_id_is_supported` accepts exactly the enabled
algorithms. -/
theorem C32_supported_iff (cfg : Config) (alg : Int) :
    sigAlgSupported cfg alg = true ↔ algEnabled cfg alg := by
  unfold sigAlgSupported algEnabled
  simp only [algES256, algES384, algES512, algPS256, algPS384, algPS512, algEDDSA, Bool.or_eq_true,
    Bool.and_eq_true, Bool.not_eq_true', beq_iff_eq]
  grind

/-- **C32 (signing).** With an algorithm the build does not support, every
signing function fails with UNSUPPORTED_SIGNING_ALG, leaves the output buffer and
the context as they were and runs no crypto (the outcome is the same for all
adapters). -/
theorem C32_sign_refused (cfg : Config) (C : Crypto) (me : SignCtx) (det : Bool) (payload aad : UB)
    (out : Mem) (h : ¬ algEnabled cfg me.alg) :
    signAadInternal cfg C me det payload aad out
      = (.error .unsupportedSigningAlg, me, Enc.init out) ∧
    ∀ e, sign1EncodeParameters cfg me e = (.error .unsupportedSigningAlg, me, e) := by
  have hs : sigAlgSupported cfg me.alg = false := by
    cases hq : sigAlgSupported cfg me.alg with
    | false => rfl
    | true => exact absurd ((C32_supported_iff _ _).mp hq) h
  refine ⟨?_, fun e => params_unsupported hs⟩
  unfold signAadInternal
  rw [params_unsupported hs]

/-- **C32 (converse).** Success means the algorithm is enabled. -/
theorem C32_sign_ok_enabled (cfg : Config) (C : Crypto) (me : SignCtx) (det : Bool) (payload aad : UB)
    (out : Mem) (r : UB) (h : (signAadInternal cfg C me det payload aad out).1 = .ok r) :
    algEnabled cfg me.alg :=
  (C32_supported_iff _ _).mp (sign_ok_pre h).alg

example : ¬ algEnabled Config.full (-47) ∧ ¬ algEnabled { Config.full with disableES384 := true } (-35) := by
  decide +kernel

/-! ## C44 -/

/-- **C44.** With both content types configured, signing fails with
DUPLICATE_PARAMETER and there is no result (an unsupported algorithm or a disabled
short-circuit request is reported first). -/
theorem C44_both_content_types (cfg : Config) (C : Crypto) (me : SignCtx) (det : Bool)
    (payload aad : UB) (out : Mem) (hc : cfg.disableContentType = false)
    (halg : algEnabled cfg me.alg)
    (hsc : Spec.Opt.shortCircuit me.flags = true → cfg.disableShortCircuit = false)
    (t : Bytes) (u : Nat) :
    (signAadInternal cfg C ((me.setContentTypeTstr (some t)).setContentTypeUint u) det payload aad
      out).1 = .error .duplicateParameter ∧
    (signAadInternal cfg C ((me.setContentTypeUint u).setContentTypeTstr (some t)) det payload aad
      out).1 = .error .duplicateParameter := by
  have key : ∀ m2 : SignCtx, m2.alg = me.alg → m2.flags = me.flags → m2.contentTypeTstr = some t →
      m2.contentTypeUint = u % 65536 →
      (signAadInternal cfg C m2 det payload aad out).1 = .error .duplicateParameter := by
    intro m2 h1 h2 h3 h4
    have hp := params_bothCt (cfg := cfg) (me := m2) (det := det) (e := Enc.init out)
      (by rw [h1]; exact (C32_supported_iff _ _).mpr halg)
      (by rw [h2]; rintro ⟨a, b⟩; rw [hsc a] at b; cases b) hc
      (by rw [h4, emptyContentType]; omega) (by rw [h3]; simp)
    unfold signAadInternal
    cases hq : encodeParametersInternal cfg m2 det (Enc.init out) with
    | mk r rest =>
      obtain ⟨a, b⟩ := rest
      rw [hq] at hp
      simp only [] at hp
      subst hp
      rfl
  exact ⟨key _ rfl rfl rfl rfl, key _ rfl rfl rfl rfl⟩

example : (sign1Sign Config.full toyCrypto (exCtx.setContentTypeUint 0) (.data [1])
    (.buf (List.replicate 100 0))).1 = .error .duplicateParameter := by decide +kernel

/-! ## C35 -/

/-- Digest lengths of the SHA-2 functions (FIPS 180-4). -/
def digestLen (hashAlg : Int) : Option Nat :=
  if hashAlg = -16 then some 32 else if hashAlg = -43 then some 48 else if hashAlg = -44 then some 64
  else none

/-- **C35.** In every build configuration and for every algorithm it supports
(EdDSA does not hash), the digest fits in the stack buffer. -/
theorem C35_hash_fits (cfg : Config) (alg : Int) (h : algEnabled cfg alg) (hne : alg ≠ -8) :
    ∃ n, digestLen (hashAlgOfSigAlg cfg alg) = some n ∧ n ≤ maxHashSize cfg := by
  obtain ⟨d1, d2, d3, d4, d5, d6, d7, d8⟩ := cfg
  unfold algEnabled at h
  simp only [] at h
  rcases h with h | ⟨h, h'⟩ | ⟨h, h'⟩ | ⟨h, h'⟩ | ⟨h, h'⟩ | ⟨h, h'⟩ | ⟨h, h'⟩
  · subst h; revert d1 d2 d3 d4 d5 d6 d7 d8; decide
  · subst h h'; revert d2 d3 d4 d5 d6 d7 d8; decide
  · subst h h'; revert d1 d3 d4 d5 d6 d7 d8; decide
  · subst h h'; revert d1 d2 d4 d5 d6 d7 d8; decide
  · subst h h'; revert d1 d2 d3 d5 d6 d7 d8; decide
  · subst h h'; revert d1 d2 d3 d4 d6 d7 d8; decide
  · exact absurd h hne

/-- **C35 (use).** An adapter that fails for lack of room only when the buffer is
shorter than the digest never does so when signing or verifying: `create_tbs_hash`
does not return HASH_BUFFER_SIZE. -/
theorem C35_no_hash_buffer_size (cfg : Config) (C : Crypto) (alg : Int) (prot aad payload : UB)
    (h : algEnabled cfg alg) (hne : alg ≠ -8)
    (hst : ∀ a, C.hashStart a ≠ .error .hashBufferSize)
    (hfin : ∀ a h0 (us : List UB) n k, C.hashStart a = .ok h0 → digestLen a = some k → k ≤ n →
      C.hashFinish (us.foldl C.hashUpdate h0) n ≠ .error .hashBufferSize) :
    createTbsHash cfg C alg prot aad payload (maxHashSize cfg) ≠ .error .hashBufferSize := by
  obtain ⟨k, hk, hle⟩ := C35_hash_fits cfg alg h hne
  rw [createTbsHash_eq]
  split
  · simp
  · cases hs : C.hashStart (hashAlgOfSigAlg cfg alg) with
    | error x =>
      simp only []
      intro hc; injection hc with hc; subst hc
      exact hst _ hs
    | ok h0 => exact hfin _ h0 _ _ k hs hk hle

example : algEnabled { Config.full with disableES512 := true, disablePS512 := true } algES384 ∧
    maxHashSize { Config.full with disableES512 := true, disablePS512 := true } = 48 := by
  decide +kernel

/-! ## C33 (signing) -/

theorem append_empty (e : Enc) : e.append (.data []) = e.append .nil := by
  unfold Enc.append Enc.insert
  cases hs : e.small with
  | true => simp
  | false =>
    have h0 : ¬ e.mem.cap - e.len < (UB.data ([] : Bytes)).len := by simp [UB.len]
    have h1 : ¬ e.mem.cap - e.len < UB.nil.len := by simp [UB.len]
    simp only [Bool.false_eq_true, if_false, if_neg h0, if_neg h1, Nat.lt_irrefl]
    obtain ⟨mem, len, small, err, nest, ub⟩ := e
    cases mem with
    | null c => rfl
    | buf m => simp only [] at hs; subst hs; simp [Enc.insertMem]

theorem createTbs_empty (p w : UB) (m : Mem) :
    createTbs p (.data []) w m = createTbs p .nil w m := by
  have : ∀ e : Enc, e.addBytes (.data []) = e.addBytes .nil := by
    intro e
    unfold Enc.addBytes Enc.addItem
    rw [append_empty]; rfl
  unfold createTbs tbsEnc
  rw [this]

theorem createTbsHash_empty (cfg : Config) (C : Crypto)
    (hC : ∀ h, C.hashUpdate h (.data []) = C.hashUpdate h .nil) (alg : Int) (p w : UB) (n : Nat) :
    createTbsHash cfg C alg p (.data []) w n = createTbsHash cfg C alg p .nil w n := by
  rw [createTbsHash_eq, createTbsHash_eq]
  have : ∀ h0, (tbsChunks p (.data []) w).foldl C.hashUpdate h0
      = (tbsChunks p .nil w).foldl C.hashUpdate h0 := by
    intro h0
    unfold tbsChunks
    simp only [List.foldl, hC]
    rfl
  simp only [this]

/-- **C33 (signing).** A NULL aad and an empty one give the same outcome in every
respect. The hypothesis on the adapter: hashing no octets is the same with a NULL
pointer and with a valid pointer. -/
theorem C33_sign_aad (cfg : Config) (C : Crypto)
    (hC : ∀ h, C.hashUpdate h (.data []) = C.hashUpdate h .nil) (me : SignCtx) (det : Bool)
    (payload : UB) (out : Mem) :
    signAadInternal cfg C me det payload (.data []) out
      = signAadInternal cfg C me det payload .nil out := by
  have hd : ∀ me p w pl, signDispatch cfg C me p (.data []) w pl
      = signDispatch cfg C me p .nil w pl := by
    intro me p w pl
    unfold signDispatch signShortCircuit signDefault signEddsa
    rw [createTbsHash_empty cfg C hC, createTbs_empty]
  have he : ∀ me dp e, encodeSignatureInternal cfg C me (.data []) dp e
      = encodeSignatureInternal cfg C me .nil dp e := by
    intro me dp e
    unfold encodeSignatureInternal
    simp only [hd]
  unfold signAadInternal
  simp only [he]

/-- **C33 (two-step signing).** `t_cose_sign1_encode_signature` is
`t_cose_sign1_encode_signature_aad` with an absent aad, and so with an empty one. -/
theorem C33_encode_signature (cfg : Config) (C : Crypto)
    (hC : ∀ h, C.hashUpdate h (.data []) = C.hashUpdate h .nil) (me : SignCtx) (e : Enc) :
    sign1EncodeSignatureAad cfg C me (.data []) e = sign1EncodeSignature cfg C me e := by
  have hd : ∀ me p w pl, signDispatch cfg C me p (.data []) w pl
      = signDispatch cfg C me p .nil w pl := by
    intro me p w pl
    unfold signDispatch signShortCircuit signDefault signEddsa
    rw [createTbsHash_empty cfg C hC, createTbs_empty]
  unfold sign1EncodeSignatureAad sign1EncodeSignature encodeSignatureInternal
  simp only [hd]

example : ∀ h, toyCrypto.hashUpdate h (.data []) = toyCrypto.hashUpdate h .nil := fun _ => rfl

/-! ## C34 (signing) -/

theorem hashSteps_of {cfg : Config} {C : Crypto} {alg : Int} {p a w : UB} {h : Bytes}
    (hh : createTbsHash cfg C alg p a w (maxHashSize cfg) = .ok h) : HashGives cfg C alg h := by
  rw [createTbsHash_eq] at hh
  split at hh
  · cases hh
  · cases hs : C.hashStart (hashAlgOfSigAlg cfg alg) with
    | error x => rw [hs] at hh; cases hh
    | ok h0 =>
      rw [hs] at hh
      refine ⟨_, h0, tbsChunks p a w, hashFor_of_ne ‹_›, hs, ?_⟩
      rw [← maxHashSize_eq]
      exact hh

/-- **C34 (signing).** If a signing call reports success, then every step below
it did: the encoder is not in an error state, the hash calls (or the
serialisation for EdDSA) succeeded and the signing call (or, for the size query,
the size call) succeeded. So an error of any of them is never turned into success. -/
theorem C34_sign (cfg : Config) (C : Crypto) (me : SignCtx) (det : Bool) (payload aad : UB)
    (hp : payload.wf) (out : Mem) (r : UB)
    (h : (signAadInternal cfg C me det payload aad out).1 = .ok r) :
    (signAadInternal cfg C me det payload aad out).2.2.errState = .ok ∧
    (if Spec.Opt.shortCircuit me.flags then
      ∃ d, HashGives cfg C me.alg d ∧
        ((∃ n s, scSign me.alg d n = .ok s) ∨ (∃ n, scSigSize me.alg = .ok n))
     else if me.alg = algEDDSA then
      ∃ prot w t, (createTbs prot aad w me.aux).1 = .ok t ∧
        ((∃ n s, C.signEddsa me.key t.bytes n = .ok s) ∨ (∃ n, C.sigSize me.alg me.key = .ok n))
     else
      ∃ d, HashGives cfg C me.alg d ∧
        ((∃ n s, C.sign me.alg me.key d n = .ok s) ∨ (∃ n, C.sigSize me.alg me.key = .ok n))) := by
  refine ⟨(sign_finish h).2, ?_⟩
  have hpre := sign_ok_pre h
  have hpa : ∃ w, PayArg det out.isNull payload w := by
    unfold PayArg
    cases det
    · exact ⟨_, UB.wf_src hp _⟩
    · cases payload with
      | data b => exact ⟨b, rfl⟩
      | null n =>
        obtain ⟨x, hx⟩ := sign_detached_null (C := C) (n := n) (aad := aad) (out := out) hpre
        rw [hx] at h; cases h
  obtain ⟨w, hpa⟩ := hpa
  obtain ⟨_, _, _, pp, sig, me', ub, hd, _⟩ := sign_ok_elim hpa h
  generalize seen out.isNull (protMap me.alg) = prot at hd
  generalize paySeen det out.isNull w = pay at hd
  generalize placeOf out.cap out.isNull (preSig cfg me det w).length = pl at hd
  unfold signDispatch at hd
  have hmap : ∀ {α : Type} {x : Except Err α} {f : α → UB} {y : UB}, x.map f = .ok y →
      ∃ z, x = .ok z := by
    intro α x f y hx
    cases x with
    | ok z => exact ⟨z, rfl⟩
    | error e => cases hx
  rw [opt_shortCircuit]
  by_cases hsc : hasFlag me.flags optShortCircuit = true
  · rw [if_pos hsc]
    have hdis : cfg.disableShortCircuit = false := by
      cases hq : cfg.disableShortCircuit with
      | false => rfl
      | true => exact absurd ⟨hsc, hq⟩ hpre.sc
    rw [if_pos (by simp [hdis, hsc])] at hd
    have hd := congrArg Prod.fst hd
    simp only [] at hd
    unfold signShortCircuit at hd
    cases hh : createTbsHash cfg C me.alg prot aad pay (maxHashSize cfg) with
    | error x => simp only [hh] at hd; cases hd
    | ok d =>
      refine ⟨d, hashSteps_of hh, ?_⟩
      simp only [hh] at hd
      cases pl with
      | null => exact .inr (hmap hd)
      | room n => exact .inl ⟨n, hmap hd⟩
  · rw [if_neg hsc]
    rw [if_neg (by simp [hsc])] at hd
    by_cases he : me.alg = algEDDSA
    · rw [if_pos he]
      have hdis : cfg.disableEDDSA = false := by
        rcases (C32_supported_iff _ _).mp hpre.alg with q | q | q | q | q | q | q <;>
          first | exact q.2 | (rw [he] at q; exfalso; revert q; simp [algEDDSA])
      rw [if_pos (by simp [hdis, he])] at hd
      unfold signEddsa at hd
      refine ⟨prot, pay, ?_⟩
      simp only [] at hd
      cases ht : createTbs prot aad pay me.aux with
      | mk a b =>
        rw [ht] at hd
        cases a with
        | error x => cases x <;> cases hd
        | ok t =>
          refine ⟨t, rfl, ?_⟩
          simp only [] at hd
          cases pl with
          | null =>
            have hd := congrArg Prod.fst hd
            simp only [] at hd
            exact .inr (hmap hd)
          | room n =>
            simp only [] at hd
            split at hd
            · cases hd
            · have hd := congrArg Prod.fst hd
              simp only [] at hd
              exact .inl ⟨n, hmap hd⟩
    · rw [if_neg he]
      rw [if_neg (by simp [he])] at hd
      have hd := congrArg Prod.fst hd
      simp only [] at hd
      unfold signDefault at hd
      cases hh : createTbsHash cfg C me.alg prot aad pay (maxHashSize cfg) with
      | error x => simp only [hh] at hd; cases hd
      | ok d =>
        refine ⟨d, hashSteps_of hh, ?_⟩
        simp only [hh] at hd
        cases pl with
        | null => exact .inr (hmap hd)
        | room n => exact .inl ⟨n, hmap hd⟩

/-- A failing signer makes the call fail. -/
example : (sign1Sign Config.full { toyCrypto with sign := fun _ _ _ _ => .error .sigFail } exCtx
    (.data [1, 2, 3]) (.buf (List.replicate 200 0))).1 = .error .sigFail := by decide +kernel

end TCose.Props
