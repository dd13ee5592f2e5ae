import Verif.Lemmas.Expected
import Verif.Lemmas.Limits
import Verif.Props.Verify

/-!
# C48: the outcome of verification, for every valid message

A message that follows RFC 8152 within the limits of t_cose and QCBOR, in any
CBOR encoding (any head widths, definite or indefinite arrays and maps), is never
refused for its form.  The outcome is a decision on its parameters, its
signature and the options of the caller, written out in `expected`.
-/

namespace TCose.Props
open TCose Spec

/-- The call asks for what the message has: an inline payload, or a detached one
passed by the caller. -/
def PayMatches (m : Message) : VPayload → Prop
  | .inline _ => m.payload ≠ none
  | .detached p => m.payload = none ∧ p.wf

/-- The payload to be authenticated. -/
def payloadOf (m : Message) : VPayload → Bytes
  | .inline _ => m.payload.getD []
  | .detached p => p.bytes

open Classical in
/-- The outcome of verification: tag policy, key-id requirement, critical
parameters, then the signature.  `pb` is the octets of the protected header and
`D` the digest functions. -/
noncomputable def expected (cfg : Config) (C : Crypto) (D : Int → Bytes → Bytes) (me : VerifyCtx)
    (m : Message) (pb aad payload : Bytes) : Except Err Unit :=
  let tbs := sigStructure pb aad payload
  let alg := m.alg.getD 0
  let kid := m.bstrParam 4
  let decodeOnly := Spec.Opt.decodeOnly me.flags = true
  if ¬ TagPolicy me.flags m.tags.reverse then .error .incorrectlyTagged
  else if Spec.Opt.requireKid me.flags = true ∧ kid = none then .error .noKid
  else if Spec.Opt.unknownCritAllowed me.flags = false ∧ ¬ m.NoUnknownCrit then
    .error .unknownCriticalParameter
  else if cfg.disableShortCircuit = false ∧ kid = some scKid then
    if decodeOnly then .ok ()
    else if Spec.Opt.allowShortCircuit me.flags = false then .error .shortCircuitSig
    else match hashFor cfg alg with
      | none => .error .unsupportedSigningAlg
      | some ha => if D ha tbs <+: m.sig then .ok () else .error .sigVerify
  else if cfg.disableEDDSA = false ∧ alg = algEDDSA then
    if me.aux.cap < tbs.length then .error .auxiliaryBufferSize
    else if decodeOnly then .ok ()
    else if me.aux.isNull = true then .error .needAuxiliaryBuffer
    else C.verifyEddsa me.key kid tbs m.sig
  else
    if decodeOnly then .ok ()
    else match hashFor cfg alg with
      | none => .error .unsupportedSigningAlg
      | some ha => C.verify alg me.key kid (D ha tbs) m.sig

theorem message_run (cfg : Config) {P : QParams} {m : Message} {pb msg : Bytes}
    (he : m.Encoded pb msg) (hf : m.Fits P msg) (hv : m.Valid) {pay : VPayload}
    (hp : PayMatches m pay) :
    ∃ v x, IsView P msg v ∧ v.tags = m.tags.reverse ∧ DecodesTo cfg P v pay x ∧
      ParamsAre cfg m x.params ∧ ((checkCritical x.crit x.unk).1 = .ok () ↔ m.NoUnknownCrit) ∧
      x.prot.ub = .data pb ∧ x.sig.ub = .data m.sig ∧ x.payload.ub.wf ∧
      x.payload.ub.bytes = payloadOf m pay ∧
      (∀ w, pay = .inline w → x.payload.ub = .data (payloadOf m pay)) ∧
      (∀ p, pay = .detached p → x.payload.ub = p) := by
  obtain ⟨v, hview, htags, hprot, hpe, hue, hpay, hpt, hsig, -⟩ := message_view he hf
  have hp1 := hdr_label hv (fun p h => List.mem_append_left _ h) hpe
  have hu1 := hdr_label hv (fun p h => List.mem_append_right _ h) hue
  have key : ∃ b : Buf, PayRel pay v.payload v.payloadTags b ∧ b.ub.wf ∧
      b.ub.bytes = payloadOf m pay ∧ (∀ w, pay = .inline w → b.ub = .data (payloadOf m pay)) ∧
      (∀ p, pay = .detached p → b.ub = p) := by
    cases pay with
    | inline w =>
      cases hm : m.payload with
      | none => exact absurd hm hp
      | some w' =>
        unfold Message.payItem at hpay
        rw [hm] at hpay
        obtain ⟨off, h1⟩ := hpay
        refine ⟨.slice ⟨off, w'⟩, ⟨_, h1, hpt, rfl⟩, rfl, ?_, ?_, by intro p h; cases h⟩
        · simp [payloadOf, hm, Buf.ub, UB.bytes]
        · intro _ _; simp [payloadOf, hm, Buf.ub]
    | detached p =>
      unfold Message.payItem at hpay
      rw [hp.1] at hpay
      exact ⟨.ext p, ⟨hpay, rfl⟩, hp.2, rfl, (fun w h => by cases h),
        (fun q h => by cases h; rfl)⟩
  obtain ⟨b, hb, hbw, hbb, hbi, hbd⟩ := key
  obtain ⟨x, hd, hxb, hpar, hcr⟩ := message_decodes cfg hv hp1 hu1 hb
  refine ⟨v, x, hview, htags, hd, hpar, hcr, ?_, ?_, by rw [hxb]; exact hbw,
    by rw [hxb]; exact hbb, fun w hw => by rw [hxb]; exact hbi w hw,
    fun p hp => by rw [hxb]; exact hbd p hp⟩
  · rw [hd.prot]; simp [Buf.ub, hprot]
  · rw [hd.sig]; simp [Buf.ub, hsig]

theorem verify_run_res {cfg : Config} {P : QParams} {C : Crypto} {me : VerifyCtx}
    {msg : Bytes} {aad : UB} {pay : VPayload} {v : MsgView} {x : Decoded}
    (hP : P.maxTags ≤ maxTagsToReturn) (hv : IsView P msg v) (hpol : TagPolicy me.flags v.tags)
    (hdec : DecodesTo cfg P v pay x) (junk : Junk) (want : Bool) :
    (verifyInternal cfg P C junk me msg aad pay want).res =
      (checkDecoded cfg C (me.withTags v) aad x).1 := by
  rw [verify_run hP hv hpol hdec]
  generalize checkDecoded cfg C (me.withTags v) aad x = z
  obtain ⟨r, b, c⟩ := z
  cases r <;> rfl

theorem verify_untagged {cfg : Config} {P : QParams} {C : Crypto} {me : VerifyCtx}
    {msg : Bytes} {aad : UB} {pay : VPayload} {v : MsgView} {x : Decoded}
    (hP : P.maxTags ≤ maxTagsToReturn) (hv : IsView P msg v) (hpol : ¬ TagPolicy me.flags v.tags)
    (hdec : DecodesTo cfg P v pay x) (junk : Junk) (want : Bool) :
    verifyInternal cfg P C junk me msg aad pay want = .fail .incorrectlyTagged me false := by
  obtain ⟨he, hvt, st, hb⟩ := decodeBody_intro (junk := junk) hv hdec
  have htl : ((Dec.init msg).enterArray P).tags.length ≤ P.maxTags := by
    rw [hvt]; exact hv.tags_le
  unfold verifyInternal
  simp only
  rw [decodeErr_ok.mpr he]
  simp only
  rcases processTags_eq (me := me) he htl hP with ⟨hnp, -⟩ | ⟨-, hpt⟩
  · rw [hvt] at hnp
    exact absurd hnp hpol
  · rw [hpt]

theorem checkDecoded_nokid {cfg : Config} {C : Crypto} {me : VerifyCtx} {aad : UB} {x : Decoded}
    (h : Spec.Opt.requireKid me.flags = true ∧ x.params.kid = none) :
    (checkDecoded cfg C me aad x).1 = .error .noKid := by
  unfold checkDecoded
  rw [if_pos (by rw [← opt_requireKid]; simp [h.1, h.2])]

theorem checkDecoded_crit {cfg : Config} {C : Crypto} {me : VerifyCtx} {aad : UB} {x : Decoded}
    (hk : ¬ (Spec.Opt.requireKid me.flags = true ∧ x.params.kid = none))
    (hf : Spec.Opt.unknownCritAllowed me.flags = false)
    (h : (checkCritical x.crit x.unk).1 ≠ .ok ()) :
    (checkDecoded cfg C me aad x).1 = .error .unknownCriticalParameter := by
  have hf : hasFlag me.flags optUnknownCritAllowed = false := hf
  have hc : (checkCritical x.crit x.unk).1 = .error .unknownCriticalParameter := by
    revert h
    unfold checkCritical
    simp only
    split
    · intro _; rfl
    · split
      · intro _; rfl
      · intro h; exact absurd rfl h
  unfold checkDecoded
  rw [if_neg (by rw [← opt_requireKid]; simpa using hk)]
  simp only [hf, Bool.false_eq_true, if_false]
  generalize checkCritical x.crit x.unk = z at hc
  obtain ⟨r, b⟩ := z
  simp only at hc
  subst hc
  rfl

variable (cfg : Config) (P : QParams) (C : Crypto) (D : Int → Bytes → Bytes) (junk : Junk)
  (me : VerifyCtx) (m : Message) (pb msg : Bytes) (aad : UB) (pay : VPayload) (want : Bool)

/-- **C48.** For every message valid under RFC 8152 and within the limits, in
every encoding, verification ends as `expected` says.  The adapter need only hash
pieces as long as those of this message. -/
theorem C48_outcome (hP : P.maxTags ≤ 4) (he : m.Encoded pb msg) (hf : m.Fits P msg)
    (hv : m.Valid) (hp : PayMatches m pay) (ha : aad.wf)
    {N : Nat} (hN : PiecesUpTo N pb aad.bytes (payloadOf m pay))
    (hD : ∀ ha, hashFor cfg (m.alg.getD 0) = some ha → HashesUpTo N C ha (digestRoom cfg) (D ha)) :
    (verifyInternal cfg P C junk me msg aad pay want).res =
      expected cfg C D me m pb aad.bytes (payloadOf m pay) := by
  obtain ⟨v, x, hview, htags, hdec, hpar, hcr, hxp, hxs, hxw, hxb, -, -⟩ :=
    message_run cfg he hf hv hp
  unfold expected
  simp only
  by_cases hpol : TagPolicy me.flags m.tags.reverse
  rotate_left
  · rw [if_pos hpol, verify_untagged hP hview (by rw [htags]; exact hpol) hdec]; rfl
  rw [if_neg (by simpa using hpol)]
  rw [verify_run_res hP hview (by rw [htags]; exact hpol) hdec]
  have hfl : (me.withTags v).flags = me.flags := rfl
  have hkid : x.params.kid = none ↔ m.bstrParam 4 = none := by
    rw [← hpar.kid]; cases x.params.kid <;> simp
  by_cases hk : Opt.requireKid me.flags = true ∧ m.bstrParam 4 = none
  · rw [if_pos hk, checkDecoded_nokid (by rw [hfl, hkid]; exact hk)]
  rw [if_neg hk]
  by_cases hc : Opt.unknownCritAllowed me.flags = false ∧ ¬ m.NoUnknownCrit
  · rw [if_pos hc, checkDecoded_crit (me := me.withTags v) (by rw [hfl, hkid]; exact hk) hc.1 (fun h => hc.2 (hcr.mp h))]
  rw [if_neg hc]
  have hpre : PreChecks (me.withTags v) x := by
    constructor
    · intro h1 h2
      exact hk ⟨h1, hkid.mp h2⟩
    · rw [hfl]
      cases hf : Opt.unknownCritAllowed me.flags with
      | true => exact .inl rfl
      | false =>
        right
        rw [hcr]
        exact Classical.byContradiction fun hn => hc ⟨hf, hn⟩
  obtain ⟨r1, r2, r3⟩ := checkDecoded_run (cfg := cfg) (C := C) (aad := aad) hpre hdec.crOk hdec.unkOk
  have hsc : isShortCircuit cfg x ↔ cfg.disableShortCircuit = false ∧
      m.bstrParam 4 = some scKid := by
    rw [← hpar.kid]
    unfold isShortCircuit
    cases x.params.kid with
    | none =>
      simp only [Option.map_none, reduceCtorEq, and_false, iff_false, not_and]
      intro _ h
      exact absurd h (by decide)
    | some s => simp [Str.ub, UB.bytes, shortCircuitKid, scKid]
  have hed : isEddsa cfg x ↔ cfg.disableEDDSA = false ∧ m.alg.getD 0 = algEDDSA := by
    unfold isEddsa
    rw [hpar.alg]
  have hw : x.Wf aad := ⟨by rw [hxp]; rfl, ha, hxw⟩
  have htbs : x.tbs aad = sigStructure pb aad.bytes (payloadOf m pay) := by
    unfold Decoded.tbs
    rw [hxp, hxb]; rfl
  have hhash : createTbsHash cfg C x.params.alg x.prot.ub aad x.payload.ub (maxHashSize cfg) =
      match hashFor cfg (m.alg.getD 0) with
      | none => .error .unsupportedSigningAlg
      | some ha => .ok (D ha (sigStructure pb aad.bytes (payloadOf m pay))) := by
    rw [hpar.alg]
    cases hh : hashFor cfg (m.alg.getD 0) with
    | none => rw [createTbsHash_eq, if_pos (hashFor_none.mp hh)]
    | some h =>
      obtain ⟨h1, h2⟩ := hashFor_some hh
      rw [createTbsHash_works h2 (by rw [h1, maxHashSize_eq]; exact hD h hh) hw.prot ha hxw
        (by rw [hxp, hxb]; exact hN), ← htbs]
      rfl
  by_cases h1 : cfg.disableShortCircuit = false ∧ m.bstrParam 4 = some scKid
  · rw [if_pos h1, r1 (hsc.mpr h1)]
    simp only
    unfold verifyShortCircuit
    rw [hfl]
    by_cases hdo : Opt.decodeOnly me.flags = true
    · rw [if_pos (show hasFlag me.flags optDecodeOnly = true from hdo), if_pos hdo]
    rw [if_neg (show ¬ hasFlag me.flags optDecodeOnly = true from hdo), if_neg hdo]
    rw [opt_allowShortCircuit]
    cases hal : hasFlag me.flags optAllowShortCircuit with
    | false => rfl
    | true =>
      simp only [Bool.not_true, Bool.false_eq_true, if_false, Bool.true_eq_false]
      rw [hhash]
      cases hashFor cfg (m.alg.getD 0) with
      | none => rfl
      | some h =>
        simp only
        rw [hxs]
        obtain ⟨s1, s2⟩ := C12_verify_iff (D h (sigStructure pb aad.bytes (payloadOf m pay))) m.sig
        by_cases hpre : D h (sigStructure pb aad.bytes (payloadOf m pay)) <+: m.sig
        · rw [if_pos hpre]; exact s1.mpr hpre
        · rw [if_neg hpre]; exact s2 hpre
  rw [if_neg h1]
  by_cases h2 : cfg.disableEDDSA = false ∧ m.alg.getD 0 = algEDDSA
  · rw [if_pos h2, r2 (fun h => h1 (hsc.mp h)) (hed.mpr h2), verifyEddsa_eq hw, htbs]
    rw [show (me.withTags v).aux = me.aux from rfl, hfl]
    split
    · rfl
    · simp only
      rw [opt_decodeOnly]
      split
      · rfl
      · split
        · rfl
        · rw [hpar.kid, hxs]; rfl
  · rw [if_neg h2, r3 (fun h => h1 (hsc.mp h)) (fun h => h2 (hed.mp h))]
    simp only
    unfold verifyDefault
    rw [hfl, hhash]
    by_cases hdo : Opt.decodeOnly me.flags = true
    · rw [if_pos (show hasFlag me.flags optDecodeOnly = true from hdo), if_pos hdo]
    rw [if_neg (show ¬ hasFlag me.flags optDecodeOnly = true from hdo), if_neg hdo]
    cases hashFor cfg (m.alg.getD 0) with
    | none => rfl
    | some h =>
      simp only
      rw [hpar.alg, hpar.kid, hxs]; rfl

/-- **C48 (what is returned).** When such a message is accepted, the parameters
and the payload returned are those of the message. -/
theorem C48_returned (hP : P.maxTags ≤ 4) (he : m.Encoded pb msg) (hf : m.Fits P msg)
    (hv : m.Valid) (hp : PayMatches m pay)
    (h : (verifyInternal cfg P C junk me msg aad pay want).res = .ok ()) :
    (want = true → ∃ p, (verifyInternal cfg P C junk me msg aad pay want).params = some p ∧
      ParamsAre cfg m p) ∧
    (pay = .inline true → ∃ b, (verifyInternal cfg P C junk me msg aad pay want).payload = some b ∧
      m.payload = some b.ub.bytes) := by
  obtain ⟨v, x, hview, htags, hdec, hpar, -, -, -, -, hxb, -, -⟩ := message_run cfg he hf hv hp
  have hpol : TagPolicy me.flags v.tags := by
    refine Classical.byContradiction fun hpol => ?_
    rw [verify_untagged hP hview hpol hdec] at h
    cases h
  rw [verify_run hP hview hpol hdec] at h ⊢
  generalize checkDecoded cfg C (me.withTags v) aad x = z at h ⊢
  obtain ⟨r, b, c⟩ := z
  cases r with
  | error e => cases h
  | ok u =>
    refine ⟨fun hw => ⟨x.params, by simp [hw], hpar⟩, fun hw => ⟨x.payload, by simp [hw], ?_⟩⟩
    rw [hxb, hw]
    rw [hw] at hp
    unfold PayMatches at hp
    unfold payloadOf
    cases hm : m.payload with
    | none => exact absurd hm hp
    | some w => rfl

/-- A message of each kind for the examples: non-minimal heads, an indefinite
map, an unknown critical parameter. -/
def sampleMsg : Message where
  tags := [18]
  prot := [(.int 1, Spec.int (-7)), (.int 2, .arr [Spec.int 70]), (.int 70, .arr [.uint 1, .float [0, 0]])]
  unprot := [(.int 4, .bstr [1, 2]), (.text [0x61], .map [(.tstr [], .simple 20)])]
  payload := some [0x68, 0x69]
  sig := [1, 2, 3]

/-- Its protected header with crit. -/
def samplePb : Bytes := [0xbf, 0x01, 0x38, 0x06, 0x02, 0x81, 0x18, 0x46, 0x18, 0x46,
  0x9f, 0x18, 0x01, 0xf9, 0, 0, 0xff, 0xff]

/-- An encoding of it. -/
def sampleEnc : Bytes := [0xd8, 0x12, 0x98, 0x04, 0x52] ++ samplePb ++
  [0xa2, 0x04, 0x42, 1, 2, 0x61, 0x61, 0xa1, 0x60, 0xf4] ++ [0x42, 0x68, 0x69] ++ [0x58, 3, 1, 2, 3]

theorem sample_encoded : sampleMsg.Encoded samplePb sampleEnc := by
  constructor
  · right
    refine .mapIndef (bss := [[0x01, 0x38, 0x06], [0x02, 0x81, 0x18, 0x46],
      [0x18, 0x46, 0x9f, 0x18, 0x01, 0xf9, 0, 0, 0xff]]) ?_
    refine .cons (a := [1]) (b := [0x38, 6]) (.uint (.direct (by decide)))
      (.nint (.wide 0 (by decide) (by decide))) ?_
    refine .cons (a := [2]) (b := [0x81, 0x18, 0x46]) (.uint (.direct (by decide)))
      (.arr (h := [0x81]) (bss := [[0x18, 0x46]]) (.direct (by decide))
        (.cons (.uint (.wide 0 (by decide) (by decide))) .nil)) ?_
    refine .cons (a := [0x18, 0x46]) (b := [0x9f, 0x18, 0x01, 0xf9, 0, 0, 0xff])
      (.uint (.wide 0 (by decide) (by decide)))
      (.arrIndef (bss := [[0x18, 1], [0xf9, 0, 0]])
        (.cons (.uint (.wide 0 (by decide) (by decide)))
          (.cons (.float 1 (by decide) (by decide) (by decide)) .nil))) .nil
  · refine .tag (h := [0xd8, 0x12]) (.wide 0 (by decide) (by decide)) ?_
    refine .arr (h := [0x98, 4]) (bss := [0x52 :: samplePb,
      [0xa2, 0x04, 0x42, 1, 2, 0x61, 0x61, 0xa1, 0x60, 0xf4], [0x42, 0x68, 0x69], [0x58, 3, 1, 2, 3]])
      (.wide 0 (by decide) (by decide)) ?_
    refine .cons (.bstr (h := [0x52]) (.direct (by decide))) (.cons ?_
      (.cons (.bstr (h := [0x42]) (.direct (by decide)))
        (.cons (.bstr (h := [0x58, 3]) (.wide 0 (by decide) (by decide))) .nil)))
    refine .map (h := [0xa2]) (bss := [[0x04, 0x42, 1, 2], [0x61, 0x61, 0xa1, 0x60, 0xf4]])
      (.direct (by decide)) ?_
    refine .cons (a := [4]) (b := [0x42, 1, 2]) (.uint (.direct (by decide)))
      (.bstr (h := [0x42]) (.direct (by decide))) ?_
    refine .cons (a := [0x61, 0x61]) (b := [0xa1, 0x60, 0xf4])
      (.tstr (h := [0x61]) (.direct (by decide))) ?_ .nil
    exact .map (h := [0xa1]) (bss := [[0x60, 0xf4]]) (.direct (by decide))
      (.cons (a := [0x60]) (b := [0xf4]) (.tstr (h := [0x60]) (.direct (by decide)))
        (.simple (by decide) (by decide)) .nil)

theorem sample_fits : sampleMsg.Fits QParams.std sampleEnc :=
  ⟨by decide, by decide, by decide, by decide⟩

theorem sample_valid : sampleMsg.Valid where
  unique := by decide
  range := by
    intro i x h
    simp [sampleMsg, Message.headers] at h
    unfold InInt64
    omega
  alg := by
    intro x h
    simp [sampleMsg] at h
    exact ⟨-7, h, by omega, by omega, by omega⟩
  crit := by
    intro x h
    simp [sampleMsg] at h
    refine ⟨[.int 70], h, by simp, by decide, by decide, by decide, by decide, ?_⟩
    intro i hi
    simp at hi
    unfold InInt64; omega
  ct := by intro x h; simp [sampleMsg, Message.headers] at h
  bstrs := by
    intro i hi x h
    simp [sampleMsg, Message.headers] at h
    rcases h with h | h | h | h
    · omega
    · omega
    · omega
    · exact ⟨_, h.2⟩
  protectedOnly := by intro x; simp [sampleMsg]
  fewInts := by decide
  fewTexts := by decide

/-- The hypotheses of C48 hold of this message; the critical parameter 70 is not
known, so the outcome is that error, unless the option allows it, when the
signature decides. -/
example : sampleMsg.Encoded samplePb sampleEnc ∧ sampleMsg.Fits QParams.std sampleEnc ∧
    sampleMsg.Valid ∧ PayMatches sampleMsg (.inline true) :=
  ⟨sample_encoded, sample_fits, sample_valid, by simp [PayMatches, sampleMsg]⟩

example : (toyVerify 0 sampleEnc).res = .error .unknownCriticalParameter ∧
    (toyVerify 32 sampleEnc).res = .error .sigVerify ∧ (toyVerify 40 sampleEnc).res = .ok () := by
  decide +kernel

end TCose.Props
