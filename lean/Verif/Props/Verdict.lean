import Verif.Lemmas.Verdict
import Verif.Props.Complete

/-!
# C65: the outcome of verification, for every message

C48 says how verification ends for messages that follow the rules.  Here the
same is said of every COSE_Sign1 message that QCBOR can take apart, with good or
bad header parameters, error codes included, in any encoding.
-/

namespace TCose.Props
open TCose Spec

variable (cfg : Config) (P : QParams) (C : Crypto) (D : Int → Bytes → Bytes) (junk junk' : Junk)
  (me : VerifyCtx) (m : Message) (pb msg msg' : Bytes) (aad : UB) (pay : VPayload)
  (want want' : Bool)

/-- The outcome once the headers are read: key-id requirement, critical
parameters, then the signature.  `digest` is the hash of what was signed for an
algorithm (or an error), `tbs` what was signed. -/
def settle (k : Known) (digest : Int → Except Err Bytes) (tbs sig : Bytes) : Except Err Unit :=
  if Spec.Opt.requireKid me.flags = true ∧ k.kid = none then .error .noKid
  else if Spec.Opt.unknownCritAllowed me.flags = false ∧ k.blocked then
    .error .unknownCriticalParameter
  else if cfg.disableShortCircuit = false ∧ k.kid = some scKid then
    if Spec.Opt.decodeOnly me.flags = true then .ok ()
    else if Spec.Opt.allowShortCircuit me.flags = false then .error .shortCircuitSig
    else match digest k.alg with
      | .error e => .error e
      | .ok d => if d <+: sig then .ok () else .error .sigVerify
  else if cfg.disableEDDSA = false ∧ k.alg = algEDDSA then
    if me.aux.cap < tbs.length then .error .auxiliaryBufferSize
    else if Spec.Opt.decodeOnly me.flags = true then .ok ()
    else if me.aux.isNull = true then .error .needAuxiliaryBuffer
    else C.verifyEddsa me.key k.kid tbs sig
  else
    if Spec.Opt.decodeOnly me.flags = true then .ok ()
    else match digest k.alg with
      | .error e => .error e
      | .ok d => C.verify k.alg me.key k.kid d sig

open Classical in
/-- The outcome of verification of any message: tag policy, headers in order,
payload, and then `settle`. -/
noncomputable def verdict (payload : Bytes) (digest : Int → Except Err Bytes) : Except Err Unit :=
  if ¬ TagPolicy me.flags m.tags.reverse then .error .incorrectlyTagged
  else match m.read cfg.disableContentType with
    | .error e => .error e
    | .ok k =>
      match m.payloadFault pay.isDetached with
      | some e => .error e
      | none => settle cfg C me k digest (sigStructure pb aad.bytes payload) m.sig

/-- The hash of `tbs` for a signature algorithm, if it has one. -/
def digestOf (tbs : Bytes) (alg : Int) : Except Err Bytes :=
  match hashFor cfg alg with
  | none => .error .unsupportedSigningAlg
  | some ha => .ok (D ha tbs)

theorem checkDecoded_settle {cfg : Config} {C : Crypto} {me : VerifyCtx} {aad : UB} {x : Decoded}
    {k : Known} (hk : KnownIs k x.params x.crit x.unk) (hcr : CrOk x.crit) (hunk : UnkOk x.unk)
    (hw : x.Wf aad) :
    (checkDecoded cfg C me aad x).1 = settle cfg C me k
      (fun alg => createTbsHash cfg C alg x.prot.ub aad x.payload.ub (maxHashSize cfg))
      (x.tbs aad) x.sig.ub.bytes := by
  have hb := hk.blocked
  have hkid : x.params.kid = none ↔ k.kid = none := by
    rw [← hk.kid]; cases x.params.kid <;> simp
  unfold settle
  by_cases h1 : Opt.requireKid me.flags = true ∧ k.kid = none
  · rw [if_pos h1, checkDecoded_nokid (by rw [hkid]; exact h1)]
  rw [if_neg h1]
  by_cases hc : Opt.unknownCritAllowed me.flags = false ∧ k.blocked
  · rw [if_pos hc, checkDecoded_crit (by rw [hkid]; exact h1) hc.1 (fun h => hb.mp h hc.2)]
  rw [if_neg hc]
  have hpre : PreChecks me x := by
    constructor
    · intro h2 h3
      exact h1 ⟨h2, hkid.mp h3⟩
    · cases hf : Opt.unknownCritAllowed me.flags with
      | true => exact .inl rfl
      | false =>
        right
        rw [hb]
        exact fun hn => hc ⟨hf, hn⟩
  obtain ⟨r1, r2, r3⟩ := checkDecoded_run (cfg := cfg) (C := C) (aad := aad) hpre hcr hunk
  have hsc : isShortCircuit cfg x ↔ cfg.disableShortCircuit = false ∧ k.kid = some scKid := by
    rw [← hk.kid]
    unfold isShortCircuit
    cases x.params.kid with
    | none =>
      simp only [Option.map_none, reduceCtorEq, and_false, iff_false, not_and]
      intro _ h
      exact absurd h (by decide)
    | some s => simp [Str.ub, UB.bytes, shortCircuitKid, scKid]
  have hed : isEddsa cfg x ↔ cfg.disableEDDSA = false ∧ k.alg = algEDDSA := by
    unfold isEddsa
    rw [hk.alg]
  by_cases h2 : cfg.disableShortCircuit = false ∧ k.kid = some scKid
  · rw [if_pos h2, r1 (hsc.mpr h2)]
    simp only
    unfold verifyShortCircuit
    by_cases hdo : Opt.decodeOnly me.flags = true
    · rw [if_pos (show hasFlag me.flags optDecodeOnly = true from hdo), if_pos hdo]
    rw [if_neg (show ¬ hasFlag me.flags optDecodeOnly = true from hdo), if_neg hdo]
    rw [opt_allowShortCircuit]
    cases hal : hasFlag me.flags optAllowShortCircuit with
    | false => rfl
    | true =>
      simp only [Bool.not_true, Bool.false_eq_true, if_false, Bool.true_eq_false]
      rw [hk.alg]
      cases createTbsHash cfg C k.alg x.prot.ub aad x.payload.ub (maxHashSize cfg) with
      | error e => rfl
      | ok d =>
        simp only
        obtain ⟨s1, s2⟩ := C12_verify_iff d x.sig.ub.bytes
        by_cases hp : d <+: x.sig.ub.bytes
        · rw [if_pos hp]; exact s1.mpr hp
        · rw [if_neg hp]; exact s2 hp
  rw [if_neg h2]
  by_cases h3 : cfg.disableEDDSA = false ∧ k.alg = algEDDSA
  · rw [if_pos h3, r2 (fun h => h2 (hsc.mp h)) (hed.mpr h3), verifyEddsa_eq hw]
    split
    · rfl
    · simp only
      rw [opt_decodeOnly]
      split
      · rfl
      · split
        · rfl
        · rw [hk.kid]
  · rw [if_neg h3, r3 (fun h => h2 (hsc.mp h)) (fun h => h3 (hed.mp h))]
    simp only
    unfold verifyDefault
    by_cases hdo : Opt.decodeOnly me.flags = true
    · rw [if_pos (show hasFlag me.flags optDecodeOnly = true from hdo), if_pos hdo]
    rw [if_neg (show ¬ hasFlag me.flags optDecodeOnly = true from hdo), if_neg hdo, hk.alg]
    cases createTbsHash cfg C k.alg x.prot.ub aad x.payload.ub (maxHashSize cfg) with
    | error e => rfl
    | ok d => simp only; rw [hk.kid]

/-- The buffer of the payload that is authenticated. -/
def payloadUb (m : Message) : VPayload → UB
  | .inline _ => .data (m.payload.getD [])
  | .detached p => p

/-- The message `m'` is `m` with headers for which those of `m` are taken. -/
structure ShownMsg (P : QParams) (m m' : Message) : Prop where
  same : m' = { m with prot := m'.prot, unprot := m'.unprot }
  prot : Shown P m.prot m'.prot
  unprot : Shown P m.unprot m'.unprot

/-- What verification of any message does, with the hashing left as it is.  The headers are taken
for those of `m'`. -/
theorem verdict_shown {cfg : Config} {P : QParams} {m m' : Message} {pb msg : Bytes}
    {pay : VPayload} {aad : UB} (C : Crypto) (junk : Junk) (me : VerifyCtx) (want : Bool)
    (hP : P.maxTags ≤ 4) (he : m.Encoded pb msg) (hf : m.Fits P msg)
    (hs : ShownMsg P m m') (hargs : ArgsOk aad pay) :
    (¬ TagPolicy me.flags m.tags.reverse →
      (verifyInternal cfg P C junk me msg aad pay want).res = .error .incorrectlyTagged) ∧
    (TagPolicy me.flags m.tags.reverse →
      match m'.read cfg.disableContentType with
      | .error e => (verifyInternal cfg P C junk me msg aad pay want).res = .error e
      | .ok k =>
        match m'.payloadFault pay.isDetached with
        | some e => (verifyInternal cfg P C junk me msg aad pay want).res = .error e
        | none => ∃ x : Decoded, KnownIs k x.params x.crit x.unk ∧
            x.payload.ub.bytes = payloadOf m pay ∧
            (verifyInternal cfg P C junk me msg aad pay want).res =
              settle cfg C me k (fun alg => createTbsHash cfg C alg (.data pb) aad
                (payloadUb m pay) (maxHashSize cfg))
                (sigStructure pb aad.bytes (payloadOf m pay)) m.sig ∧
            ((verifyInternal cfg P C junk me msg aad pay want).res = .ok () →
              (verifyInternal cfg P C junk me msg aad pay want).params =
                (if want then some x.params else none) ∧
              (verifyInternal cfg P C junk me msg aad pay want).payload =
                if pay = .inline true then some x.payload else none)) := by
  obtain ⟨hm', hp, hu⟩ := hs
  obtain ⟨v, hview, htags, hprot, hpe, hue, hpay, hpt, hsig, -⟩ := message_view he hf
  have hmp : m'.payload = m.payload := by rw [hm']
  have hms : m'.sig = m.sig := by rw [hm']
  have hread := read_exact (m := m') (cfg := cfg) hprot (hp _ _ hpe) (hu _ _ hue)
    (by unfold Message.payItem at hpay ⊢; rw [hmp]; exact hpay) hpt (by rw [hms]; exact hsig) pay
  rw [hms, hmp] at hread
  obtain ⟨hlen, n, c1, e0, e1, e2, e3, cEnd, mm, cE1, hen, hrest⟩ := id hview
  have henter := enterArray_intro_msg hlen hen
  have herr : ((Dec.init msg).enterArray P).err = none := by rw [henter]
  have hvt : ((Dec.init msg).enterArray P).tags = v.tags := by rw [henter]
  have htl : ((Dec.init msg).enterArray P).tags.length ≤ P.maxTags := by
    rw [hvt]; exact hview.tags_le
  rw [← htags]
  refine ⟨fun hpol => ?_, fun hpol => ?_⟩
  · unfold verifyInternal
    simp only
    rw [decodeErr_ok.mpr herr]
    simp only
    rcases processTags_eq (me := me) herr htl hP with ⟨hnp, -⟩ | ⟨-, hptg⟩
    · rw [hvt] at hnp; exact absurd hnp hpol
    · rw [hptg]; rfl
  · -- a refusal for the form
    have hrefuse : ∀ y, bodyFn cfg P v pay = .error y →
        (verifyInternal cfg P C junk me msg aad pay want).res = .error y := by
      intro y hy
      rcases bodyFn_exact (cfg := cfg) (pay := pay) junk hview with ⟨x, hx, -⟩ | ⟨y', st, hy', hb⟩
      · rw [hx] at hy; cases hy
      · rw [hy'] at hy
        cases hy
        unfold verifyInternal
        simp only
        rw [decodeErr_ok.mpr herr]
        simp only
        rcases processTags_eq (me := me) herr htl hP with ⟨-, hptg⟩ | ⟨hnp, -⟩
        · rw [hptg]
          simp only
          rw [hb]
          rfl
        · rw [hvt] at hnp; exact absurd hpol hnp
    cases hr : m'.read cfg.disableContentType with
    | error y => rw [hr] at hread; exact hrefuse y hread
    | ok k =>
      rw [hr] at hread
      simp only at hread ⊢
      cases hpf : m'.payloadFault pay.isDetached with
      | some y => rw [hpf] at hread; exact hrefuse y hread
      | none =>
        rw [hpf] at hread
        obtain ⟨x, hx, hk, hxp, hxs, hxb⟩ := hread
        simp only
        have hxb' : x.payload.ub = payloadUb m pay := by rw [hxb]; cases pay <;> rfl
        have hpb : (payloadUb m pay).bytes = payloadOf m pay := by cases pay <;> rfl
        have hpw : (payloadUb m pay).wf := by
          cases pay with
          | inline w => rfl
          | detached p => exact hargs.2 p rfl
        rcases bodyFn_exact (cfg := cfg) (pay := pay) junk hview with ⟨x', hx', hdec⟩ | ⟨y', st, hy', -⟩
        rotate_left
        · rw [hy'] at hx; cases hx
        rw [hx'] at hx
        cases hx
        have hw : x.Wf aad := ⟨by rw [hxp]; rfl, hargs.1, by rw [hxb']; exact hpw⟩
        have htbs : x.tbs aad = sigStructure pb aad.bytes (payloadOf m pay) := by
          unfold Decoded.tbs
          rw [hxp, hxb', hpb]; rfl
        have hset := checkDecoded_settle (cfg := cfg) (C := C) (me := me.withTags v) hk hdec.crOk
          hdec.unkOk hw
        refine ⟨x, hk, by rw [hxb', hpb], ?_, ?_⟩
        · rw [verify_run_res hP hview hpol hdec, hset, htbs, hxp, hxs, hxb']
          rfl
        · rw [verify_run hP hview hpol hdec]
          generalize checkDecoded cfg C (me.withTags v) aad x = z
          obtain ⟨r, b, c⟩ := z
          cases r with
          | error e => intro h; cases h
          | ok u => intro _; exact ⟨rfl, rfl⟩

theorem settle_digest {k : Known} {d d' : Int → Except Err Bytes} (h : d k.alg = d' k.alg)
    (tbs sig : Bytes) : settle cfg C me k d tbs sig = settle cfg C me k d' tbs sig := by
  unfold settle
  simp only [h]

variable {m' : Message}

/-- The verdict, with the hashing left as it is. -/
theorem shown_hash (hP : P.maxTags ≤ 4) (he : m.Encoded pb msg) (hf : m.Fits P msg)
    (hs : ShownMsg P m m') (hargs : ArgsOk aad pay)
    (digest : Int → Except Err Bytes)
    (hd : ∀ k, m'.read cfg.disableContentType = .ok k →
      createTbsHash cfg C k.alg (.data pb) aad (payloadUb m pay) (maxHashSize cfg) = digest k.alg) :
    (verifyInternal cfg P C junk me msg aad pay want).res =
      verdict cfg C me m' pb aad pay (payloadOf m pay) digest := by
  obtain ⟨h1, h2⟩ := verdict_shown (cfg := cfg) C junk me want hP he hf hs hargs
  have htags : m'.tags = m.tags := by rw [hs.same]
  have hsig : m'.sig = m.sig := by rw [hs.same]
  unfold verdict
  rw [htags, hsig]
  by_cases hpol : TagPolicy me.flags m.tags.reverse
  rotate_left
  · rw [if_pos hpol]; exact h1 hpol
  rw [if_neg (by simpa using hpol)]
  have h2 := h2 hpol
  cases hr : m'.read cfg.disableContentType with
  | error e => rw [hr] at h2; exact h2
  | ok k =>
    rw [hr] at h2
    simp only at h2 ⊢
    cases hpf : m'.payloadFault pay.isDetached with
    | some y => rw [hpf] at h2; exact h2
    | none =>
      rw [hpf] at h2
      obtain ⟨x, -, -, hres, -⟩ := h2
      rw [hres]
      exact settle_digest cfg C me (hd k hr) _ _

theorem payloadUb_bytes : (payloadUb m pay).bytes = payloadOf m pay := by cases pay <;> rfl

variable {m pay aad} in
theorem payloadUb_wf (hargs : ArgsOk aad pay) : (payloadUb m pay).wf := by
  cases pay with
  | inline w => rfl
  | detached p => exact hargs.2 p rfl

theorem shown_verdict (hP : P.maxTags ≤ 4) (he : m.Encoded pb msg) (hf : m.Fits P msg)
    (hs : ShownMsg P m m') (hargs : ArgsOk aad pay)
    {N : Nat} (hN : PiecesUpTo N pb aad.bytes (payloadOf m pay))
    (hD : ∀ k ha, m'.read cfg.disableContentType = .ok k → hashFor cfg k.alg = some ha →
      HashesUpTo N C ha (digestRoom cfg) (D ha)) :
    (verifyInternal cfg P C junk me msg aad pay want).res =
      verdict cfg C me m' pb aad pay (payloadOf m pay)
        (digestOf cfg D (sigStructure pb aad.bytes (payloadOf m pay))) := by
  refine shown_hash cfg P C junk me m pb msg aad pay want hP he hf hs hargs _ ?_
  intro k hr
  unfold digestOf
  cases hh : hashFor cfg k.alg with
  | none => rw [createTbsHash_eq, if_pos (hashFor_none.mp hh)]
  | some h =>
    obtain ⟨g1, g2⟩ := hashFor_some hh
    have hd : HashesUpTo N C (hashAlgOfSigAlg cfg k.alg) (maxHashSize cfg) (D h) := by
      rw [g1, maxHashSize_eq]; exact hD k h hr hh
    rw [createTbsHash_works (p := .data pb) g2 hd rfl hargs.1 (payloadUb_wf hargs)
      (by rw [payloadUb_bytes]; exact hN), payloadUb_bytes]
    rfl

theorem shown_encoding (hP : P.maxTags ≤ 4) (he : m.Encoded pb msg) (hf : m.Fits P msg)
    (he' : m.Encoded pb msg') (hf' : m.Fits P msg')
    (hs : ShownMsg P m m') (hargs : ArgsOk aad pay) :
    (verifyInternal cfg P C junk me msg aad pay want).res =
      (verifyInternal cfg P C junk' me msg' aad pay want').res := by
  obtain ⟨h1, h2⟩ := verdict_shown (cfg := cfg) C junk me want hP he hf hs hargs
  obtain ⟨k1, k2⟩ := verdict_shown (cfg := cfg) C junk' me want' hP he' hf' hs hargs
  by_cases hpol : TagPolicy me.flags m.tags.reverse
  rotate_left
  · rw [h1 hpol, k1 hpol]
  have h2 := h2 hpol
  have k2 := k2 hpol
  cases hr : m'.read cfg.disableContentType with
  | error e =>
    rw [hr] at h2 k2
    simp only at h2 k2
    rw [h2, k2]
  | ok k =>
    rw [hr] at h2 k2
    simp only at h2 k2
    cases hpf : m'.payloadFault pay.isDetached with
    | some y =>
      rw [hpf] at h2 k2
      simp only at h2 k2
      rw [h2, k2]
    | none =>
      rw [hpf] at h2 k2
      obtain ⟨x, -, -, hres, -⟩ := h2
      obtain ⟨x', -, -, hres', -⟩ := k2
      rw [hres, hres']

theorem shown_form (hP : P.maxTags ≤ 4) (he : m.Encoded pb msg) (hf : m.Fits P msg)
    (hs : ShownMsg P m m') (hargs : ArgsOk aad pay)
    (hpol : TagPolicy me.flags m.tags.reverse) {e : Err}
    (hr : m'.read cfg.disableContentType = .error e) :
    (verifyInternal cfg P C junk me msg aad pay want).res = .error e := by
  obtain ⟨-, h2⟩ := verdict_shown (cfg := cfg) C junk me want hP he hf hs hargs
  have h2 := h2 hpol
  rw [hr] at h2
  exact h2

theorem shown_returned (hP : P.maxTags ≤ 4) (he : m.Encoded pb msg) (hf : m.Fits P msg)
    (hs : ShownMsg P m m') (hargs : ArgsOk aad pay)
    (h : (verifyInternal cfg P C junk me msg aad pay want).res = .ok ()) :
    ∃ k, m'.read cfg.disableContentType = .ok k ∧
      (want = true → ∃ p, (verifyInternal cfg P C junk me msg aad pay want).params = some p ∧
        p.alg = k.alg ∧ p.kid.map (·.bytes) = k.kid ∧ p.iv.map (·.bytes) = k.iv ∧
        p.partialIv.map (·.bytes) = k.partialIv ∧ p.ctTstr.map (·.bytes) = k.ctText ∧
        p.ctUint = k.ctNum.getD 65536) ∧
      (pay = .inline true → ∃ b, (verifyInternal cfg P C junk me msg aad pay want).payload = some b ∧
        m.payload = some b.ub.bytes) := by
  obtain ⟨h1, h2⟩ := verdict_shown (cfg := cfg) C junk me want hP he hf hs hargs
  have hpol : TagPolicy me.flags m.tags.reverse := by
    refine Classical.byContradiction fun hpol => ?_
    rw [h1 hpol] at h
    cases h
  have h2 := h2 hpol
  cases hr : m'.read cfg.disableContentType with
  | error e => rw [hr] at h2; simp only at h2; rw [h2] at h; cases h
  | ok k =>
    rw [hr] at h2
    simp only at h2
    cases hpf : m'.payloadFault pay.isDetached with
    | some y => rw [hpf] at h2; simp only at h2; rw [h2] at h; cases h
    | none =>
      rw [hpf] at h2
      obtain ⟨x, hk, hxb, -, hret⟩ := h2
      obtain ⟨r1, r2⟩ := hret h
      refine ⟨k, rfl, ?_, ?_⟩
      · rintro rfl
        exact ⟨x.params, by rw [r1]; rfl, hk.alg, hk.kid, hk.iv, hk.partialIv, hk.ctText, hk.ctNum⟩
      · rintro rfl
        refine ⟨x.payload, by rw [r2]; rfl, ?_⟩
        rw [hxb]
        have hpay : m'.payload = m.payload := by rw [hs.same]
        unfold Message.payloadFault at hpf
        rw [hpay] at hpf
        unfold payloadOf
        cases hm : m.payload with
        | none => rw [hm] at hpf; cases hpf
        | some b => rfl

theorem plain_msg {P : QParams} {m : Message} {pb msg : Bytes} (he : m.Encoded pb msg)
    (hf : m.Fits P msg) (hp : Header.Plain m.prot) (hu : Header.Plain m.unprot) : ShownMsg P m m :=
  ⟨rfl, shown_plain hp (he.prot_good hf), shown_plain hu (he.unprot_good hf)⟩

/-- What verification of any message without tags on its parameters does, with the hashing left as it
is. -/
theorem verdict_run {cfg : Config} {P : QParams} {m : Message} {pb msg : Bytes}
    {pay : VPayload} {aad : UB} (C : Crypto) (junk : Junk) (me : VerifyCtx) (want : Bool)
    (hP : P.maxTags ≤ 4) (he : m.Encoded pb msg) (hf : m.Fits P msg)
    (hp : Header.Plain m.prot) (hu : Header.Plain m.unprot) (hargs : ArgsOk aad pay) :
    (¬ TagPolicy me.flags m.tags.reverse →
      (verifyInternal cfg P C junk me msg aad pay want).res = .error .incorrectlyTagged) ∧
    (TagPolicy me.flags m.tags.reverse →
      match m.read cfg.disableContentType with
      | .error e => (verifyInternal cfg P C junk me msg aad pay want).res = .error e
      | .ok k =>
        match m.payloadFault pay.isDetached with
        | some e => (verifyInternal cfg P C junk me msg aad pay want).res = .error e
        | none => ∃ x : Decoded, KnownIs k x.params x.crit x.unk ∧
            x.payload.ub.bytes = payloadOf m pay ∧
            (verifyInternal cfg P C junk me msg aad pay want).res =
              settle cfg C me k (fun alg => createTbsHash cfg C alg (.data pb) aad
                (payloadUb m pay) (maxHashSize cfg))
                (sigStructure pb aad.bytes (payloadOf m pay)) m.sig ∧
            ((verifyInternal cfg P C junk me msg aad pay want).res = .ok () →
              (verifyInternal cfg P C junk me msg aad pay want).params =
                (if want then some x.params else none) ∧
              (verifyInternal cfg P C junk me msg aad pay want).payload =
                if pay = .inline true then some x.payload else none)) :=
  verdict_shown C junk me want hP he hf (plain_msg he hf hp hu) hargs

/-- The verdict of a message without tags on its parameters, with the hashing left as it is. -/
theorem verdict_hash (hP : P.maxTags ≤ 4) (he : m.Encoded pb msg) (hf : m.Fits P msg)
    (hp : Header.Plain m.prot) (hu : Header.Plain m.unprot) (hargs : ArgsOk aad pay)
    (digest : Int → Except Err Bytes)
    (hd : ∀ k, m.read cfg.disableContentType = .ok k →
      createTbsHash cfg C k.alg (.data pb) aad (payloadUb m pay) (maxHashSize cfg) = digest k.alg) :
    (verifyInternal cfg P C junk me msg aad pay want).res =
      verdict cfg C me m pb aad pay (payloadOf m pay) digest :=
  shown_hash cfg P C junk me m pb msg aad pay want hP he hf (plain_msg he hf hp hu) hargs digest hd

/-- **C65.** Every message without tags on its known parameters that is within the
limits of QCBOR, in every encoding, is verified as `verdict` says: the error of
the first fault of its headers, or the decision on its signature.  The adapter
need only hash pieces as long as those of this message. -/
theorem C65_verdict (hP : P.maxTags ≤ 4) (he : m.Encoded pb msg) (hf : m.Fits P msg)
    (hp : Header.Plain m.prot) (hu : Header.Plain m.unprot) (hargs : ArgsOk aad pay)
    {N : Nat} (hN : PiecesUpTo N pb aad.bytes (payloadOf m pay))
    (hD : ∀ k ha, m.read cfg.disableContentType = .ok k → hashFor cfg k.alg = some ha →
      HashesUpTo N C ha (digestRoom cfg) (D ha)) :
    (verifyInternal cfg P C junk me msg aad pay want).res =
      verdict cfg C me m pb aad pay (payloadOf m pay)
        (digestOf cfg D (sigStructure pb aad.bytes (payloadOf m pay))) :=
  shown_verdict cfg P C D junk me m pb msg aad pay want hP he hf (plain_msg he hf hp hu) hargs hN hD

/-- **C65 (encoding).** Two encodings of a message that agree in the octets of the
protected header are verified alike, errors included, whatever the adapters do. -/
theorem C65_encoding (hP : P.maxTags ≤ 4) (he : m.Encoded pb msg) (hf : m.Fits P msg)
    (he' : m.Encoded pb msg') (hf' : m.Fits P msg')
    (hp : Header.Plain m.prot) (hu : Header.Plain m.unprot) (hargs : ArgsOk aad pay) :
    (verifyInternal cfg P C junk me msg aad pay want).res =
      (verifyInternal cfg P C junk' me msg' aad pay want').res :=
  shown_encoding cfg P C junk junk' me m pb msg msg' aad pay want want' hP he hf he' hf' (plain_msg he hf hp hu) hargs

/-- **C65 (form).** A fault of the headers is the outcome whatever the octets of
the protected header, the key, the signature, the payload, the adapters and the
remaining options are. -/
theorem C65_form (hP : P.maxTags ≤ 4) (he : m.Encoded pb msg) (hf : m.Fits P msg)
    (hp : Header.Plain m.prot) (hu : Header.Plain m.unprot) (hargs : ArgsOk aad pay)
    (hpol : TagPolicy me.flags m.tags.reverse) {e : Err}
    (hr : m.read cfg.disableContentType = .error e) :
    (verifyInternal cfg P C junk me msg aad pay want).res = .error e :=
  shown_form cfg P C junk me m pb msg aad pay want hP he hf (plain_msg he hf hp hu) hargs hpol hr

/-- **C65 (what is returned).** When a message is accepted, its headers could be
read, and the parameters and the payload returned are those of the message. -/
theorem C65_returned (hP : P.maxTags ≤ 4) (he : m.Encoded pb msg) (hf : m.Fits P msg)
    (hp : Header.Plain m.prot) (hu : Header.Plain m.unprot) (hargs : ArgsOk aad pay)
    (h : (verifyInternal cfg P C junk me msg aad pay want).res = .ok ()) :
    ∃ k, m.read cfg.disableContentType = .ok k ∧
      (want = true → ∃ p, (verifyInternal cfg P C junk me msg aad pay want).params = some p ∧
        p.alg = k.alg ∧ p.kid.map (·.bytes) = k.kid ∧ p.iv.map (·.bytes) = k.iv ∧
        p.partialIv.map (·.bytes) = k.partialIv ∧ p.ctTstr.map (·.bytes) = k.ctText ∧
        p.ctUint = k.ctNum.getD 65536) ∧
      (pay = .inline true → ∃ b, (verifyInternal cfg P C junk me msg aad pay want).payload = some b ∧
        m.payload = some b.ub.bytes) :=
  shown_returned cfg P C junk me m pb msg aad pay want hP he hf (plain_msg he hf hp hu) hargs h

/-- A message that breaks a rule of each kind, one after the other: kid in both
headers, alg not protected, and (in the unprotected header, read last) an integer
label twice among the unknown ones, which is no fault. -/
def badMsg : Message where
  tags := []
  prot := [(.int 4, .bstr [1]), (.int 2, .arr [Spec.int 70, .tstr [0x61]])]
  unprot := [(.int 70, .null), (.int 70, .null), (.int 4, .bstr [2]), (.int 1, Spec.int (-7))]
  payload := some []
  sig := []

/-- The octets of its protected header. -/
def badPb : Bytes := [0xa2, 0x04, 0x41, 0x01, 0x02, 0x82, 0x18, 0x46, 0x61, 0x61]

/-- An encoding with short heads. -/
def badEnc : Bytes := [0x84, 0x4a] ++ badPb ++
  [0xa4, 0x18, 0x46, 0xf6, 0x18, 0x46, 0xf6, 0x04, 0x41, 0x02, 0x01, 0x26] ++ [0x40] ++ [0x40]

/-- An encoding with long heads and indefinite lengths. -/
def badEnc' : Bytes := [0x9f, 0x58, 0x0a] ++ badPb ++
  [0xbf, 0x19, 0x00, 0x46, 0xf6, 0x18, 0x46, 0xf6, 0x04, 0x41, 0x02, 0x18, 0x01, 0x38, 0x06, 0xff] ++
  [0x58, 0x00] ++ [0x59, 0x00, 0x00] ++ [0xff]

theorem bad_prot : Encodes (Header.item badMsg.prot) badPb := by
  refine .map (h := [0xa2]) (bss := [[0x04, 0x41, 0x01], [0x02, 0x82, 0x18, 0x46, 0x61, 0x61]])
    (.direct (by decide)) ?_
  refine .cons (a := [4]) (b := [0x41, 1]) (.uint (.direct (by decide)))
    (.bstr (h := [0x41]) (.direct (by decide))) ?_
  refine .cons (a := [2]) (b := [0x82, 0x18, 0x46, 0x61, 0x61]) (.uint (.direct (by decide))) ?_ .nil
  exact .arr (h := [0x82]) (bss := [[0x18, 0x46], [0x61, 0x61]]) (.direct (by decide))
    (.cons (.uint (.wide 0 (by decide) (by decide)))
      (.cons (.tstr (h := [0x61]) (.direct (by decide))) .nil))

theorem bad_encoded : badMsg.Encoded badPb badEnc := by
  refine ⟨.inr bad_prot, ?_⟩
  refine .arr (h := [0x84]) (bss := [0x4a :: badPb,
    [0xa4, 0x18, 0x46, 0xf6, 0x18, 0x46, 0xf6, 0x04, 0x41, 0x02, 0x01, 0x26], [0x40], [0x40]])
    (.direct (by decide)) ?_
  refine .cons (.bstr (h := [0x4a]) (.direct (by decide))) (.cons ?_
    (.cons (.bstr (h := [0x40]) (.direct (by decide)))
      (.cons (.bstr (h := [0x40]) (.direct (by decide))) .nil)))
  refine .map (h := [0xa4]) (bss := [[0x18, 0x46, 0xf6], [0x18, 0x46, 0xf6], [0x04, 0x41, 0x02],
    [0x01, 0x26]]) (.direct (by decide)) ?_
  refine .cons (a := [0x18, 0x46]) (b := [0xf6]) (.uint (.wide 0 (by decide) (by decide))) .null ?_
  refine .cons (a := [0x18, 0x46]) (b := [0xf6]) (.uint (.wide 0 (by decide) (by decide))) .null ?_
  refine .cons (a := [4]) (b := [0x41, 2]) (.uint (.direct (by decide)))
    (.bstr (h := [0x41]) (.direct (by decide))) ?_
  exact .cons (a := [1]) (b := [0x26]) (.uint (.direct (by decide))) (.nint (.direct (by decide))) .nil

theorem bad_encoded' : badMsg.Encoded badPb badEnc' := by
  refine ⟨.inr bad_prot, ?_⟩
  refine .arrIndef (bss := [[0x58, 0x0a] ++ badPb,
    [0xbf, 0x19, 0x00, 0x46, 0xf6, 0x18, 0x46, 0xf6, 0x04, 0x41, 0x02, 0x18, 0x01, 0x38, 0x06, 0xff],
    [0x58, 0x00], [0x59, 0x00, 0x00]]) ?_
  refine .cons (.bstr (h := [0x58, 0x0a]) (.wide 0 (by decide) (by decide))) (.cons ?_
    (.cons (.bstr (h := [0x58, 0]) (.wide 0 (by decide) (by decide)))
      (.cons (.bstr (h := [0x59, 0, 0]) (.wide 1 (by decide) (by decide))) .nil)))
  refine .mapIndef (bss := [[0x19, 0x00, 0x46, 0xf6], [0x18, 0x46, 0xf6], [0x04, 0x41, 0x02],
    [0x18, 0x01, 0x38, 0x06]]) ?_
  refine .cons (a := [0x19, 0x00, 0x46]) (b := [0xf6]) (.uint (.wide 1 (by decide) (by decide))) .null ?_
  refine .cons (a := [0x18, 0x46]) (b := [0xf6]) (.uint (.wide 0 (by decide) (by decide))) .null ?_
  refine .cons (a := [4]) (b := [0x41, 2]) (.uint (.direct (by decide)))
    (.bstr (h := [0x41]) (.direct (by decide))) ?_
  exact .cons (a := [0x18, 1]) (b := [0x38, 6]) (.uint (.wide 0 (by decide) (by decide)))
    (.nint (.wide 0 (by decide) (by decide))) .nil

theorem bad_plain : Header.Plain badMsg.prot ∧ Header.Plain badMsg.unprot := by
  constructor
  · intro i x h _ _
    simp only [badMsg, List.mem_cons, Prod.mk.injEq, Label.int.injEq, List.not_mem_nil, or_false] at h
    rcases h with ⟨-, rfl⟩ | ⟨-, rfl⟩
    · exact ⟨rfl, by intro xs h; cases h⟩
    · refine ⟨rfl, ?_⟩
      rintro xs ⟨⟩ y hy
      simp only [List.mem_cons, List.not_mem_nil, or_false] at hy
      rcases hy with rfl | rfl <;> rfl
  · intro i x h _ _
    simp only [badMsg, List.mem_cons, Prod.mk.injEq, Label.int.injEq, List.not_mem_nil, or_false] at h
    rcases h with ⟨-, rfl⟩ | ⟨-, rfl⟩ | ⟨-, rfl⟩ | ⟨-, rfl⟩ <;>
      exact ⟨rfl, by intro xs h; cases h⟩

/-- The hypotheses of C65 hold of both encodings; the unprotected algorithm is
found before the duplicate kid. -/
example : badMsg.Encoded badPb badEnc ∧ badMsg.Fits QParams.std badEnc ∧
    badMsg.Encoded badPb badEnc' ∧ badMsg.Fits QParams.std badEnc' ∧
    Header.Plain badMsg.prot ∧ Header.Plain badMsg.unprot ∧
    badMsg.read false = .error .parameterNotProtected ∧
    (toyVerify 0 badEnc).res = .error .parameterNotProtected ∧
    (toyVerify 0 badEnc').res = .error .parameterNotProtected :=
  ⟨bad_encoded, ⟨by decide, by decide, by decide, by decide⟩, bad_encoded',
    ⟨by decide, by decide, by decide, by decide⟩, bad_plain.1, bad_plain.2, by decide +kernel,
    by decide +kernel, by decide +kernel⟩

/-- Without the algorithm it is the duplicate kid; without that, the headers can be
read, and the critical parameter 70 is there and unknown. -/
example : Message.read false { badMsg with unprot := [(.int 70, .null), (.int 4, .bstr [2])] } =
      .error .duplicateParameter ∧
    Message.read false { badMsg with unprot := [(.int 70, .null), (.int 70, .null)] } =
      .ok ⟨0, some [1], none, none, none, none, [70], [[0x61]], [70, 70], []⟩ ∧
    Known.blocked ⟨0, some [1], none, none, none, none, [70], [[0x61]], [70, 70], []⟩ := by
  decide +kernel

end TCose.Props
