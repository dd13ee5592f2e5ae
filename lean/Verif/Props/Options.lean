import Verif.Lemmas.Extend
import Verif.Props.DecodeOnly
import Verif.Props.Header

/-!
# C51–C53: message boundaries, inline and detached payloads, options

All theorems are about `verifyInternal`, of which the three verification
functions of the API are instances.
-/

namespace TCose.Props
open TCose Spec

variable (cfg : Config) (P : QParams) (C : Crypto) (junk : Junk) (me : VerifyCtx)
  (msg : Bytes) (aad : UB) (pay : VPayload) (want : Bool)

/-- **C51.** The accepted messages are prefix-free: once some call accepted a
message, no call (with any build, adapter, key, options, external data and kind
of payload) accepts that message with anything appended. -/
theorem C51_prefix_free (hP : P.maxTags ≤ 4)
    (h : (verifyInternal cfg P C junk me msg aad pay want).res = .ok ())
    (x : Bytes) (hx : x ≠ [])
    (cfg' : Config) (C' : Crypto) (junk' : Junk) (me' : VerifyCtx) (aad' : UB)
    (pay' : VPayload) (want' : Bool) :
    (verifyInternal cfg' P C' junk' me' (msg ++ x) aad' pay' want').res ≠ .ok () := by
  intro h'
  obtain ⟨v, x, m1, ub, hacc, heq⟩ := verify_ok hP h
  obtain ⟨v', x', m1', ub', hacc', heq'⟩ := verify_ok hP h'
  exact hx (hacc.view.prefix_free hacc'.view)

example : (toyVerify 0 (toyMsg true es256Hdr [] [1])).res = .ok () ∧
    (toyVerify 0 (toyMsg true es256Hdr [] [1] ++ [0])).res = .error .cborNotWellFormed := by
  decide +kernel

/-- An indefinite-length array (the last octet is the break), and one octet
more. -/
example :
    let m : Bytes := 0x9f :: ((toyMsg false es256Hdr [] [1]).drop 1 ++ [0xff])
    (toyVerify 0 m).res = .ok () ∧ (toyVerify 8 (m ++ [0xff])).res ≠ .ok () := by
  decide +kernel

/-- **C51 (truncation).** No proper prefix of an accepted message is accepted. -/
theorem C51_truncated (hP : P.maxTags ≤ 4)
    (h : (verifyInternal cfg P C junk me msg aad pay want).res = .ok ())
    (n : Nat) (hn : n < msg.length)
    (cfg' : Config) (C' : Crypto) (junk' : Junk) (me' : VerifyCtx) (aad' : UB)
    (pay' : VPayload) (want' : Bool) :
    (verifyInternal cfg' P C' junk' me' (msg.take n) aad' pay' want').res ≠ .ok () := by
  intro h'
  refine C51_prefix_free cfg' P C' junk' me' (msg.take n) aad' pay' want' hP h' (msg.drop n) ?_
    cfg C junk me aad pay want ?_
  · intro hd
    have := congrArg List.length hd
    simp at this
    omega
  · rw [List.take_append_drop]; exact h

example : (toyVerify 0 (toyMsg true es256Hdr [] [1])).res = .ok () ∧
    (toyVerify 8 ((toyMsg true es256Hdr [] [1]).take 40)).res = .error .cborNotWellFormed := by
  decide +kernel

/-- Some call of the verifier accepts the message, with any build, adapter, key, options, external data
and kind of payload. -/
def Accepted (P : QParams) (msg : Bytes) : Prop :=
  ∃ cfg C junk me aad pay want, (verifyInternal cfg P C junk me msg aad pay want).res = .ok ()

theorem accepted_ne_nil {P : QParams} (hP : P.maxTags ≤ 4) {msg : Bytes} (h : Accepted P msg) :
    msg ≠ [] := by
  obtain ⟨_, _, _, _, _, _, _, h⟩ := h
  obtain ⟨tags, n, c1, es, cEnd, h1, -⟩ := C28_four_elements_partial _ P _ _ _ _ _ _ _ hP h
  rintro rfl
  simp [entry, nextItem, nextRaw, nextTagged, decodeAtom, decodeHead, QErr.unrec] at h1

/-- **C51 (one way to cut).** Accepted messages written one after the other can be cut apart into
accepted messages in one way only. -/
theorem C51_stream {P : QParams} (hP : P.maxTags ≤ 4) : ∀ (ms ms' : List Bytes),
    (∀ m ∈ ms, Accepted P m) → (∀ m ∈ ms', Accepted P m) → ms.flatten = ms'.flatten → ms = ms'
  | [], [], _, _, _ => rfl
  | [], m' :: ms', _, h', he => by
    have h0 := accepted_ne_nil hP (h' m' (.head _))
    simp only [List.flatten_nil, List.flatten_cons] at he
    exact absurd (List.append_eq_nil_iff.mp he.symm).1 h0
  | m :: ms, [], h, _, he => by
    have h0 := accepted_ne_nil hP (h m (.head _))
    simp only [List.flatten_nil, List.flatten_cons] at he
    exact absurd (List.append_eq_nil_iff.mp he).1 h0
  | m :: ms, m' :: ms', h, h', he => by
    have key : ∀ {a x : Bytes}, Accepted P a → Accepted P (a ++ x) → x = [] := by
      intro a x ⟨_, _, _, _, _, _, _, ha⟩ ⟨_, _, _, _, _, _, _, hx⟩
      exact Classical.byContradiction fun hne =>
        C51_prefix_free _ P _ _ _ _ _ _ _ hP ha x hne _ _ _ _ _ _ _ hx
    simp only [List.flatten_cons] at he
    have hm : m = m' := by
      rcases List.append_eq_append_iff.mp he with ⟨x, rfl, -⟩ | ⟨x, rfl, -⟩
      · rw [key (h _ (.head _)) (h' _ (.head _)), List.append_nil]
      · rw [key (h' _ (.head _)) (h _ (.head _)), List.append_nil]
    subst hm
    rw [C51_stream hP ms ms' (fun a ha => h a (.tail _ ha)) (fun a ha => h' a (.tail _ ha))
      (List.append_cancel_left he)]

example : Accepted QParams.std (toyMsg true es256Hdr [] [1]) ∧ Accepted QParams.std fiveElements ∧
    toyMsg true es256Hdr [] [1] ≠ fiveElements := by
  refine ⟨⟨Config.full, toyCrypto, noJunk, VerifyCtx.init 0, .null 0, .inline true, true, ?_⟩,
    ⟨Config.full, toyCrypto, noJunk, VerifyCtx.init 0, .null 0, .inline true, true, ?_⟩, ?_⟩ <;>
  decide +kernel

/-- **C52.** A message is accepted either with its payload inside
(`t_cose_sign1_verify`, `t_cose_sign1_verify_aad`) or as one with detached payload
(`t_cose_sign1_verify_detached`), never both ways, whatever build, adapter, key,
options and external data. -/
theorem C52_exclusive (hP : P.maxTags ≤ 4) (w : Bool)
    (h : (sign1VerifyAad cfg P C junk me msg aad w want).res = .ok ())
    (cfg' : Config) (C' : Crypto) (junk' : Junk) (me' : VerifyCtx) (aad' payload : UB)
    (want' : Bool) :
    (sign1VerifyDetached cfg' P C' junk' me' msg aad' payload want').res ≠ .ok () := by
  intro h'
  obtain ⟨v, x, m1, ub, hacc, heq⟩ := verify_ok hP h
  obtain ⟨v', x', m1', ub', hacc', heq'⟩ := verify_ok hP h'
  have := hacc.view.unique hacc'.view
  subst this
  obtain ⟨s, h1, -⟩ := hacc.decodes.payload
  have h2 := hacc'.decodes.payload.1
  rw [h1] at h2
  cases h2

/-- `t_cose_sign1_verify` is `t_cose_sign1_verify_aad` without external data, so
the previous theorem applies to it. -/
theorem C52_exclusive_plain (hP : P.maxTags ≤ 4) (w : Bool)
    (cfg' : Config) (C' : Crypto) (junk' : Junk) (me' : VerifyCtx) (aad' payload : UB)
    (want' : Bool)
    (h : (sign1VerifyDetached cfg' P C' junk' me' msg aad' payload want').res = .ok ()) :
    (sign1Verify cfg P C junk me msg w want).res ≠ .ok () := fun h' =>
  C52_exclusive cfg P C junk me msg .nil want hP w h' cfg' C' junk' me' aad' payload want' h

example : (toyVerify 0 (toyMsg true es256Hdr [] [1])).res = .ok () ∧
    (sign1VerifyDetached Config.full QParams.std toyCrypto noJunk (VerifyCtx.init 8)
      (toyMsg true es256Hdr [] [1]) .nil (.data [1]) true).res = .error .cborFormatting ∧
    (sign1VerifyDetached Config.full QParams.std toyCrypto noJunk (VerifyCtx.init 0)
      (toyMsgDetached es256Hdr [] [] [1]) .nil (.data [1]) true).res = .ok () ∧
    (toyVerify 8 (toyMsgDetached es256Hdr [] [] [1])).res = .error .sign1Format := by
  decide +kernel

/-- The options `f'` ask for no more than `f`: no requirement that `f` does not
have, every permission that `f` gives. -/
structure Looser (f f' : Nat) : Prop where
  kid : Spec.Opt.requireKid f' = true → Spec.Opt.requireKid f = true
  req : Spec.Opt.tagRequired f' = true → Spec.Opt.tagRequired f = true
  proh : Spec.Opt.tagProhibited f' = true → Spec.Opt.tagProhibited f = true
  sc : Spec.Opt.allowShortCircuit f = true → Spec.Opt.allowShortCircuit f' = true
  crit : Spec.Opt.unknownCritAllowed f = true → Spec.Opt.unknownCritAllowed f' = true
  dec : Spec.Opt.decodeOnly f = true → Spec.Opt.decodeOnly f' = true

/-- **C53.** Options only ever restrict or permit: what is accepted with options
`f` is accepted with any looser options, with the same parameters, payload, tags and
auxiliary-buffer size. -/
theorem C53_looser (hP : P.maxTags ≤ 4) (f' : Nat) (hf : Looser me.flags f')
    (h : (verifyInternal cfg P C junk me msg aad pay want).res = .ok ()) :
    verifyInternal cfg P C junk { me with flags := f' } msg aad pay want =
      { verifyInternal cfg P C junk me msg aad pay want with
        ctx := { (verifyInternal cfg P C junk me msg aad pay want).ctx with flags := f' } } := by
  obtain ⟨v, x, m1, ub, hacc, heq⟩ := verify_ok hP h
  have hpol : TagPolicy ({ me with flags := f' } : VerifyCtx).flags v.tags :=
    ⟨fun h => hacc.policy.1 (hf.req h), fun h => hacc.policy.2 (hf.proh h)⟩
  have hpre := checkDecoded_pre hacc.check
  have hpre' : PreChecks (({ me with flags := f' } : VerifyCtx).withTags v) x :=
    ⟨fun h => hpre.kid (hf.kid h), hpre.crit.imp hf.crit id⟩
  have hcr := hacc.decodes.crOk
  have hun := hacc.decodes.unkOk
  rw [verify_run hP hacc.view hpol hacc.decodes, heq]
  obtain ⟨a1, a2, a3⟩ := checkDecoded_run (cfg := cfg) (C := C) (aad := aad) hpre hcr hun
  obtain ⟨b1, b2, b3⟩ := checkDecoded_run (cfg := cfg) (C := C) (aad := aad) hpre' hcr hun
  have hc := hacc.check
  have hfl : (({ me with flags := f' } : VerifyCtx).withTags v).flags = f' := rfl
  have key : checkDecoded cfg C (({ me with flags := f' } : VerifyCtx).withTags v) aad x =
      (.ok (), { m1 with flags := f' }, ub) := by
    by_cases hs : isShortCircuit cfg x
    · rw [a1 hs] at hc
      rw [b1 hs]
      simp only [Prod.mk.injEq] at hc
      obtain ⟨hv, rfl, rfl⟩ := hc
      refine Prod.ext ?_ rfl
      rcases verifyShortCircuit_ok hv with hd | ⟨ha, hash, hh, hver⟩
      · unfold verifyShortCircuit; exact if_pos (hf.dec hd)
      · unfold verifyShortCircuit
        split
        · rfl
        · rw [if_neg (by rw [hfl, ← opt_allowShortCircuit, hf.sc ha]; decide), hh]; exact hver
    · by_cases he : isEddsa cfg x
      · rw [a2 hs he] at hc
        rw [b2 hs he]
        unfold verifyEddsa at hc ⊢
        rw [show (({ me with flags := f' } : VerifyCtx).withTags v).aux = (me.withTags v).aux
          from rfl]
        rw [hfl]
        generalize createTbs x.prot.ub aad x.payload.ub (me.withTags v).aux = y at hc ⊢
        obtain ⟨r, u⟩ := y
        cases r with
        | error e => cases e <;> cases hc
        | ok t =>
          simp only at hc ⊢
          by_cases hd : hasFlag (me.withTags v).flags optDecodeOnly = true
          · rw [if_pos hd] at hc
            rw [if_pos (show hasFlag f' optDecodeOnly = true from hf.dec hd)]
            simp only [Prod.mk.injEq] at hc
            obtain ⟨-, rfl, rfl⟩ := hc
            rfl
          · rw [if_neg hd] at hc
            by_cases hn : (me.withTags v).aux.isNull = true
            · rw [if_pos hn] at hc; cases hc
            · rw [if_neg hn] at hc
              simp only [Prod.mk.injEq] at hc
              obtain ⟨hv, rfl, rfl⟩ := hc
              by_cases hd' : hasFlag f' optDecodeOnly = true
              · rw [if_pos hd']; rfl
              · rw [if_neg hd', if_neg hn]
                exact Prod.ext hv rfl
      · rw [a3 hs he] at hc
        rw [b3 hs he]
        simp only [Prod.mk.injEq] at hc
        obtain ⟨hv, rfl, rfl⟩ := hc
        refine Prod.ext ?_ rfl
        rcases verifyDefault_ok hv with hd | ⟨hash, hh, hver⟩
        · unfold verifyDefault; exact if_pos (hf.dec hd)
        · unfold verifyDefault
          split
          · rfl
          · rw [hh]; exact hver
  rw [key]
  simp [hcr.ub, hun.ub]

example : Looser 6 33 ∧ (toyVerify 6 (toyMsg true es256Hdr [(.uint 4, .bstr [7])] [1])).res = .ok () ∧
    (toyVerify 33 (toyMsg true es256Hdr [(.uint 4, .bstr [7])] [1])).res = .ok () := by
  refine ⟨⟨?_, ?_, ?_, ?_, ?_, ?_⟩, ?_, ?_⟩ <;> decide +kernel

/-- The converse is false, for every option. -/
example :
    (toyVerify 0 (toyMsg true es256Hdr [] [1])).res = .ok () ∧
    (toyVerify 2 (toyMsg true es256Hdr [] [1])).res = .error .noKid ∧
    (toyVerify 0 (toyMsg false es256Hdr [] [1])).res = .ok () ∧
    (toyVerify 4 (toyMsg false es256Hdr [] [1])).res = .error .incorrectlyTagged ∧
    (toyVerify 16 (toyMsg true es256Hdr [] [1])).res = .error .incorrectlyTagged ∧
    (toyVerify 1 (toyMsg true es256Hdr scHdr [1])).res = .ok () ∧
    (toyVerify 0 (toyMsg true es256Hdr scHdr [1])).res = .error .shortCircuitSig := by
  decide +kernel

end TCose.Props
