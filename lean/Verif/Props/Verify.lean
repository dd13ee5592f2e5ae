import Verif.Lemmas.Returned
import Verif.Lemmas.ShiftVerify
import Verif.Crypto.ToyMsg
import Verif.Props.ShortCircuit

/-!
# C10, C11, C15–C19, C27, C28, C32 (verification): what success means

All theorems are about `verifyInternal`, of which the three verification
functions of the API are instances.  `P.maxTags ≤ 4` is QCBOR's
`QCBOR_MAX_TAGS_PER_ITEM`.
-/

namespace TCose.Props
open TCose Spec

variable (cfg : Config) (P : QParams) (C : Crypto) (junk : Junk) (me : VerifyCtx)
  (msg : Bytes) (aad : UB) (pay : VPayload) (want : Bool)

/-- The caller passed no NULL pointer with a non-zero length. -/
def ArgsOk (aad : UB) (pay : VPayload) : Prop :=
  aad.wf ∧ ∀ p, pay = .detached p → p.wf

/-- The payload that was authenticated: the byte string in the message, or, when
the message has null there, what the caller passed. -/
def IsPayload (pay : VPayload) (v : MsgView) (payload : Bytes) : Prop :=
  match pay with
  | .inline _ => ∃ s, v.payload = .bstr s ∧ v.payloadTags = [] ∧ payload = s.bytes
  | .detached p => v.payload = .null ∧ payload = p.bytes

/-- The crypto adapter accepted the signature over `tbs` for algorithm `alg`:
directly for EdDSA, else over the digest under the algorithm's hash. -/
def CryptoAccepted (cfg : Config) (C : Crypto) (D : Int → Bytes → Bytes) (key : Key)
    (alg : Int) (kid : Option Bytes) (tbs sig : Bytes) : Prop :=
  (alg = algEDDSA ∧ cfg.disableEDDSA = false ∧ C.verifyEddsa key kid tbs sig = .ok ()) ∨
  (alg ≠ algEDDSA ∧ ∃ hal, hashOf alg = some hal ∧ C.verify alg key kid (D hal tbs) sig = .ok ())

theorem isPayload_of {cfg : Config} {P : QParams} {pay : VPayload} {v : MsgView} {x : Decoded}
    (h : DecodesTo cfg P v pay x) : IsPayload pay v x.payload.ub.bytes := by
  have := h.payload
  cases pay with
  | inline w =>
    obtain ⟨s, h1, h2, h3⟩ := this
    exact ⟨s, h1, h2, by rw [h3]; rfl⟩
  | detached p => exact ⟨this.1, by rw [this.2]; rfl⟩

/-- **C10.** Acceptance (not decode-only) of a message whose kid is not the
short-circuit kid, or in a build without short-circuit signing: the message
carries in its protected header the algorithm `i` (as a 32-bit number `a`), and
the crypto adapter accepted, under the configured key, the message's signature
over the Sig_structure of the message's protected header octets, the caller's
external data and the payload, which is the one returned. -/
theorem C10_acceptance (D : Int → Bytes → Bytes) (hD : StreamHash C D)
    (hP : P.maxTags ≤ 4) (hargs : ArgsOk aad pay)
    (hdec : Spec.Opt.decodeOnly me.flags = false)
    (h : (verifyInternal cfg P C junk me msg aad pay want).res = .ok ()) :
    ∃ v, IsView P msg v ∧ ∃ payload, IsPayload pay v payload ∧
      (pay = .inline true → ∃ b, (verifyInternal cfg P C junk me msg aad pay want).payload = some b
        ∧ b.ub = .data payload) ∧
      ((cfg.disableShortCircuit = true ∨ v.kid.map (·.bytes) ≠ some scKid) →
        ∃ i a, v.alg = some i ∧ Int32Of i a ∧
          CryptoAccepted cfg C D me.key a (v.kid.map (·.bytes))
            (sigStructure v.prot.bytes aad.bytes payload) v.sig.bytes) := by
  have hdec : hasFlag me.flags optDecodeOnly = false := hdec
  obtain ⟨v, x, me', ub, hacc, heq⟩ := verify_ok hP h
  obtain ⟨p1, hm⟩ := hacc.decodes.headersMean
  have hw := hacc.decodes.wf hargs.1 hargs.2
  refine ⟨v, hacc.view, x.payload.ub.bytes, isPayload_of hacc.decodes, ?_, ?_⟩
  · intro hpay
    rw [heq]
    refine ⟨x.payload, by simp [hpay], ?_⟩
    have := hacc.decodes.payload
    rw [hpay] at this
    obtain ⟨s, -, -, h3⟩ := this
    rw [h3]; rfl
  · intro hns
    obtain ⟨-, -, hsig⟩ := checkDecoded_ok hacc.check
    have hkid := hm.kid.1
    have hnsc : ¬ isShortCircuit cfg x := by
      rintro ⟨h1, h2⟩
      rcases hns with h3 | h3
      · rw [h1] at h3; cases h3
      · rw [hkid] at h2
        apply h3
        cases hk : v.kid with
        | none => rw [hk] at h2; exact absurd h2 (by decide)
        | some s => rw [hk] at h2; exact congrArg some h2
    have htbs : x.tbs aad = sigStructure v.prot.bytes aad.bytes x.payload.ub.bytes := by
      unfold Decoded.tbs
      rw [hacc.decodes.prot]; rfl
    have hsg : x.sig.ub.bytes = v.sig.bytes := by rw [hacc.decodes.sig]; rfl
    have halg : x.params.alg ≠ 0 → ∃ i, v.alg = some i ∧ x.params.alg = toInt32 i := by
      intro hne
      rcases hm.alg.2 with ⟨-, h0, -⟩ | ⟨i, h1, -, -, h2⟩
      · exact absurd h0 hne
      · exact ⟨i, h1, h2⟩
    rcases hsig with ⟨hs, -⟩ | ⟨-, hed, ub', hv⟩ | ⟨-, hned, -, hv⟩
    · exact absurd hs hnsc
    · obtain ⟨-, -, hcase⟩ := verifyEddsa_ok hw hv
      rcases hcase with hd | ⟨-, hver⟩
      · rw [show (me.withTags v).flags = me.flags from rfl, hdec] at hd; cases hd
      · obtain ⟨i, hi, ha⟩ := halg (by rw [hed.2]; decide)
        refine ⟨i, x.params.alg, hi, by rw [ha]; exact toInt32_of i, .inl ⟨hed.2, hed.1, ?_⟩⟩
        rw [← htbs, ← hsg, ← hkid]
        exact hver
    · rcases verifyDefault_ok hv with hd | ⟨hash, hh, hver⟩
      · rw [show (me.withTags v).flags = me.flags from rfl, hdec] at hd; cases hd
      · obtain ⟨hsup, hne, hnee⟩ := createTbsHash_supported hh
        obtain ⟨i, hi, ha⟩ := halg hne
        obtain ⟨hal, hhal, hdig⟩ := createTbsHash_ok hD hw.prot hw.aad hw.payload hh
        refine ⟨i, x.params.alg, hi, by rw [ha]; exact toInt32_of i, .inr ⟨hnee, hal, hhal, ?_⟩⟩
        rw [← htbs, ← hsg, ← hkid]
        unfold Decoded.tbs
        rw [← hdig]
        exact hver

example : (toyVerify 0 (toyMsg true es256Hdr [(.uint 4, .bstr [1, 2])] [0x68, 0x69])).res = .ok ()
    ∧ Spec.Opt.decodeOnly 0 = false ∧ ArgsOk .nil (.inline true) :=
  ⟨by decide +kernel, by decide, rfl, by intro p h; cases h⟩

/-- **C10, contrapositive at the adapter.** If the adapter refuses the signature
of the message over the Sig_structure, for every algorithm, verification is not
successful. -/
theorem C10_refused (D : Int → Bytes → Bytes) (hD : StreamHash C D)
    (hP : P.maxTags ≤ 4) (hargs : ArgsOk aad pay)
    (hdec : Spec.Opt.decodeOnly me.flags = false) (v : MsgView) (hv : IsView P msg v)
    (payload : Bytes) (hpl : IsPayload pay v payload)
    (hns : cfg.disableShortCircuit = true ∨ v.kid.map (·.bytes) ≠ some scKid)
    (href : ∀ a, ¬ CryptoAccepted cfg C D me.key a (v.kid.map (·.bytes))
      (sigStructure v.prot.bytes aad.bytes payload) v.sig.bytes) :
    (verifyInternal cfg P C junk me msg aad pay want).res ≠ .ok () := by
  have hdec : hasFlag me.flags optDecodeOnly = false := hdec
  intro h
  obtain ⟨v', hv', payload', hpl', -, himp⟩ :=
    C10_acceptance cfg P C junk me msg aad pay want D hD hP hargs hdec h
  have := hv.unique hv'
  subst this
  have hpp : payload = payload' := by
    cases pay with
    | inline w =>
      obtain ⟨s, h1, -, h3⟩ := hpl
      obtain ⟨s', h1', -, h3'⟩ := hpl'
      rw [h1] at h1'; cases h1'
      rw [h3, h3']
    | detached p => rw [hpl.2, hpl'.2]
  subst hpp
  obtain ⟨i, a, -, -, hc⟩ := himp hns
  exact href a hc

example : (toyVerify 0 ((toyMsg true es256Hdr [] [0x68, 0x69]).set 8 0x6a)).res = .error .sigVerify :=
  by decide +kernel

/-- **C11.** A message with the short-circuit kid is accepted only if the caller
allowed it (or only decodes), and then only with a signature starting with the
digest of the Sig_structure. -/
theorem C11_short_circuit (D : Int → Bytes → Bytes) (hD : StreamHash C D)
    (hP : P.maxTags ≤ 4) (hargs : ArgsOk aad pay) (v : MsgView) (hv : IsView P msg v)
    (hsc : cfg.disableShortCircuit = false) (hkid : v.kid.map (·.bytes) = some scKid)
    (hdec : Spec.Opt.decodeOnly me.flags = false)
    (h : (verifyInternal cfg P C junk me msg aad pay want).res = .ok ()) :
    Spec.Opt.allowShortCircuit me.flags = true ∧
    ∃ payload i a hal, IsPayload pay v payload ∧ v.alg = some i ∧ Int32Of i a ∧
      hashOf a = some hal ∧
      D hal (sigStructure v.prot.bytes aad.bytes payload) <+: v.sig.bytes := by
  have hdec : hasFlag me.flags optDecodeOnly = false := hdec
  obtain ⟨v', x, me', ub, hacc, heq⟩ := verify_ok hP h
  have := hv.unique hacc.view
  subst this
  obtain ⟨p1, hm⟩ := hacc.decodes.headersMean
  have hw := hacc.decodes.wf hargs.1 hargs.2
  have hs : isShortCircuit cfg x := by
    refine ⟨hsc, ?_⟩
    rw [hm.kid.1]
    cases hk : v.kid with
    | none => rw [hk] at hkid; cases hkid
    | some s => rw [hk] at hkid; exact Option.some.inj hkid
  obtain ⟨-, -, hsig⟩ := checkDecoded_ok hacc.check
  rcases hsig with ⟨-, -, hv⟩ | ⟨hn, -⟩ | ⟨hn, -⟩
  · rcases verifyShortCircuit_ok hv with hd | ⟨hal, hash, hh, hver⟩
    · rw [show (me.withTags v).flags = me.flags from rfl, hdec] at hd; cases hd
    · obtain ⟨hsup, hne, hnee⟩ := createTbsHash_supported hh
      obtain ⟨hal', hhal, hdig⟩ := createTbsHash_ok hD hw.prot hw.aad hw.payload hh
      rcases hm.alg.2 with ⟨-, h0, -⟩ | ⟨i, hi, -, -, ha⟩
      · exact absurd h0 hne
      · refine ⟨hal, x.payload.ub.bytes, i, x.params.alg, hal', isPayload_of hacc.decodes, hi,
          by rw [ha]; exact toInt32_of i, hhal, ?_⟩
        have h1 : x.prot.ub.bytes = v.prot.bytes := by rw [hacc.decodes.prot]; rfl
        have h2 : x.sig.ub.bytes = v.sig.bytes := by rw [hacc.decodes.sig]; rfl
        rw [← h1, ← h2, ← hdig]
        exact (C12_verify_iff hash x.sig.ub.bytes).1.mp hver
  · exact absurd hs hn
  · exact absurd hs hn

/-- The short-circuit kid as header. -/
def scHdr : List (Item × Item) := [(.uint 4, .bstr scKid)]

example : (toyVerify 1 (toyMsg true es256Hdr scHdr [0x68, 0x69])).res = .ok () ∧
    (toyVerify 0 (toyMsg true es256Hdr scHdr [0x68, 0x69])).res = .error .shortCircuitSig := by
  decide +kernel

/-- **C15.** Success implies the tag policy: with TAG_REQUIRED the innermost tag
is 18, with TAG_PROHIBITED it is not. -/
theorem C15_policy (hP : P.maxTags ≤ 4)
    (h : (verifyInternal cfg P C junk me msg aad pay want).res = .ok ()) :
    ∃ v, IsView P msg v ∧
      (Spec.Opt.tagRequired me.flags = true → v.tags.head? = some 18) ∧
      (Spec.Opt.tagProhibited me.flags = true → v.tags.head? ≠ some 18) := by
  obtain ⟨v, x, me', ub, hacc, -⟩ := verify_ok hP h
  exact ⟨v, hacc.view, hacc.policy.1, hacc.policy.2⟩

example : (toyVerify 4 (toyMsg true es256Hdr [] [1])).res = .ok () ∧
    (toyVerify 4 (toyMsg false es256Hdr [] [1])).res = .error .incorrectlyTagged ∧
    (toyVerify 16 (toyMsg true es256Hdr [] [1])).res = .error .incorrectlyTagged ∧
    (toyVerify 16 (toyMsg false es256Hdr [] [1])).res = .ok () := by decide +kernel

/-- **C15 (both).** With both options nothing succeeds. -/
theorem C15_both (hP : P.maxTags ≤ 4) (h1 : Spec.Opt.tagRequired me.flags = true)
    (h2 : Spec.Opt.tagProhibited me.flags = true) :
    (verifyInternal cfg P C junk me msg aad pay want).res ≠ .ok () := by
  have h1 : hasFlag me.flags optTagRequired = true := h1
  have h2 : hasFlag me.flags optTagProhibited = true := h2
  intro h
  obtain ⟨v, -, h3, h4⟩ := C15_policy cfg P C junk me msg aad pay want hP h
  exact h4 h2 (h3 h1)

example : Spec.Opt.tagRequired 20 = true ∧ Spec.Opt.tagProhibited 20 = true := by decide

/-- **C15 (tagging refused).** A message that is an array but violates the policy
is refused with INCORRECTLY_TAGGED, before anything else in it is looked at. -/
theorem C15_refused (hP : P.maxTags ≤ 4) (hlen : msg.length ≤ maxMessage)
    (n : Option Nat) (tags : List Nat) (c1 : Cur)
    (hen : entry P false ⟨0, msg⟩ = (.ok (none, ⟨.arr n, tags, none⟩), c1))
    (hbad : (Spec.Opt.tagRequired me.flags = true ∧ tags.head? ≠ some 18) ∨
      (Spec.Opt.tagProhibited me.flags = true ∧ tags.head? = some 18)) :
    verifyInternal cfg P C junk me msg aad pay want =
      ⟨.error .incorrectlyTagged, me, none, none, false⟩ := by
  have hd := enterArray_intro_msg hlen hen
  have he : ((Dec.init msg).enterArray P).err = none := by rw [hd]
  have htl : ((Dec.init msg).enterArray P).tags.length ≤ P.maxTags := by
    rw [hd]; exact entry_tags_le hen
  unfold verifyInternal
  simp only
  rw [decodeErr_ok.mpr he]
  simp only
  rcases processTags_eq (me := me) he htl hP with ⟨hp, -⟩ | ⟨-, hpt⟩
  · rw [hd] at hp
    rcases hbad with ⟨h1, h2⟩ | ⟨h1, h2⟩
    · exact absurd (hp.1 h1) h2
    · exact absurd h2 (hp.2 h1)
  · rw [hpt]; rfl

example : ∃ c1, entry QParams.std false ⟨0, toyMsg true es256Hdr [] [1]⟩
    = (.ok (none, ⟨.arr (some 4), [18], none⟩), c1) := by
  refine ⟨_, Prod.ext (by decide +kernel) rfl⟩

/-- **C15 (neither).** With neither option, tags play no part: putting tag 18
(the byte `0xd2`) in front of an untagged message gives the same result code, the
same context, and the same returned parameters and payload, only one byte further
on in the message.  The build's tag content rules must not depend on where an item
lies (`P.Local`). -/
theorem C15_neither (hP : P.Local) (h1 : 1 ≤ P.maxTags) (h4 : P.maxTags ≤ 4)
    (hr : Spec.Opt.tagRequired me.flags = false)
    (hp : Spec.Opt.tagProhibited me.flags = false)
    (hlen : msg.length < maxMessage) (n : Option Nat) (c1 : Cur)
    (hen : entry P false ⟨0, msg⟩ = (.ok (none, ⟨.arr n, [], none⟩), c1)) :
    verifyInternal cfg P C junk me (0xd2 :: msg) aad pay want =
      { verifyInternal cfg P C junk me msg aad pay want with
        params := (verifyInternal cfg P C junk me msg aad pay want).params.map (Params.sh 1)
        payload := (verifyInternal cfg P C junk me msg aad pay want).payload.map (Buf.sh 1) } :=
  verify_tag18 hP h1 h4 hr hp hlen hen

example : QParams.std.Local ∧
    0xd2 :: toyMsg false es256Hdr [] [1] = toyMsg true es256Hdr [] [1] ∧
    (∃ c1, entry QParams.std false ⟨0, toyMsg false es256Hdr [] [1]⟩
      = (.ok (none, ⟨.arr (some 4), [], none⟩), c1)) ∧
    (toyVerify 0 (toyMsg false es256Hdr [] [1])).res = .ok () ∧
    (toyVerify 0 (toyMsg true es256Hdr [] [1])).res = .ok () :=
  ⟨by intro t v k; rfl, by decide +kernel, ⟨_, Prod.ext (by decide +kernel) rfl⟩,
    by decide +kernel, by decide +kernel⟩

end TCose.Props
