import Verif.Props.AuxBuffer
import Verif.Props.TwoStep
import Verif.Props.Codes
import Verif.Props.History

/-!
# Asking for the auxiliary size on a fresh context: C30
-/

namespace TCose.Props
open TCose Spec

/-- **C30.** A signing context for EdDSA that was only given a key can be asked for
the auxiliary size: signing with an output that has room for the rest of the message
reports exactly the size of the Sig_structure.  With an output buffer the call ends
with NEED_AUXILIARY_BUFFER, never with AUXILIARY_BUFFER_SIZE. -/
theorem C30_sign_fresh (cfg : Config) (hE : cfg.disableEDDSA = false) (C : Crypto) (flags : Nat)
    (hsc : flags.testBit 0 = false) (k : Key) (kid : Bytes) (hkid : kid.length ≤ 4000000000)
    (det : Bool) (payload aad : UB) (w : Bytes) (out : Mem) (ha : aad.wf)
    (hw : payload = .data w ∨ (det = false ∧ (out.isNull = true ∨ w = []) ∧ payload = .null w.length))
    (hcap : kid.length + w.length + 110 ≤ out.cap)
    (hlen : (sigStructure (protectedHeader (-8)) aad.bytes w).length ≤ 18446744073709551615) :
    (signAadInternal cfg C ((SignCtx.init flags (-8)).setKey k (.data kid)) det payload aad
      out).2.1.auxiliaryBufferSize cfg = (sigStructure (protectedHeader (-8)) aad.bytes w).length ∧
    (out.isNull = false →
      (signAadInternal cfg C ((SignCtx.init flags (-8)).setKey k (.data kid)) det payload aad
        out).1 = .error .needAuxiliaryBuffer) := by
  have hpay : PayArg det out.isNull payload w := by
    unfold PayArg
    rcases hw with rfl | ⟨rfl, h1, rfl⟩
    · cases det
      · exact .inl rfl
      · rfl
    · exact .inr ⟨h1, rfl⟩
  generalize hme : (SignCtx.init flags (-8)).setKey k (.data kid) = me
  have hf : hasFlag me.flags optShortCircuit = false := by
    subst hme
    exact hsc
  have hpre : SignPre cfg me := by
    subst hme
    refine ⟨?_, ?_, ?_⟩
    · simp [SignCtx.setKey, SignCtx.init, sigAlgSupported, hE, algEDDSA]
    · rw [hf]; simp
    · unfold ctArg
      simp [SignCtx.setKey, SignCtx.init]
  have hh := hdr_length cfg me
  have hk' : me.kid.bytes.length = kid.length := by subst hme; rfl
  have hct : (me.contentTypeTstr.getD []).length = 0 := by subst hme; rfl
  have hp : (preSig cfg me det w).length ≤ kid.length + w.length + 109 := by
    have h9 := encodeHead_length_le 2 w.length
    simp only [preSig, List.length_append] at hh ⊢
    unfold payPart
    split <;> simp [bstrBytes] <;> omega
  have halg : me.alg = algEDDSA := by subst hme; rfl
  have hn : me.aux.isNull = true := by subst hme; rfl
  have hc : me.aux.cap = 18446744073709551615 := by subst hme; rfl
  obtain ⟨-, h⟩ := sign_eddsa_run (C := C) (aad := aad) hpre hpay (.inr (by unfold Enc.maxStart; omega))
    (Nat.le_trans hp (by omega)) halg hf ha (fun _ => hn)
  rw [halg, ← protectedHeader_eq, hc] at h
  obtain ⟨h1, h2⟩ := h hlen
  constructor
  · unfold SignCtx.auxiliaryBufferSize
    rw [hE]
    exact h1
  · intro ho
    refine h2 (out.cap - (preSig cfg me det w).length) ?_ hn
    unfold placeOf
    rw [ho, if_neg (by decide), if_pos (by omega)]

/-- Both outcomes: with a buffer, and asking for sizes only. -/
example : (signAadInternal Config.full toyCrypto ((SignCtx.init 0 (-8)).setKey Key.null (.data [5]))
      false (.data [1, 2, 3]) .nil (.buf (List.replicate 200 0))).1 = .error .needAuxiliaryBuffer ∧
    (signAadInternal Config.full toyCrypto ((SignCtx.init 0 (-8)).setKey Key.null (.data [5]))
      false (.data [1, 2, 3]) .nil (.buf (List.replicate 200 0))).2.1.auxiliaryBufferSize Config.full = 21 ∧
    (signAadInternal Config.full toyCrypto ((SignCtx.init 0 (-8)).setKey Key.null (.data [5]))
      false (.null 3) .nil (.null 200)).2.1.auxiliaryBufferSize Config.full = 21 := by
  decide +kernel

/-- **C30.** A fresh verification context can be asked for the auxiliary size: no
message is refused with AUXILIARY_BUFFER_SIZE (unless its Sig_structure had more octets
than a `size_t` can count, or the adapter makes up the code). -/
theorem C30_verify_fresh (cfg : Config) (P : QParams) (hP : P.maxTags ≤ 4) (C : Crypto)
    (hC : Quiet C) (junk : Junk) (flags : Nat) (k : Key) (msg : Bytes) (aad : UB) (pay : VPayload)
    (want : Bool) (hargs : ArgsOk aad pay) (v : MsgView) (hv : IsView P msg v)
    (hlen : ∀ b, IsPayload pay v b →
      (sigStructure v.prot.bytes aad.bytes b).length ≤ 18446744073709551615) :
    (verifyInternal cfg P C junk ((VerifyCtx.init flags).setKey k) msg aad pay want).res ≠
      .error .auxiliaryBufferSize := by
  intro h
  obtain ⟨h1, -⟩ := C64_codes_partial (cfg := cfg) (want := want) (junk := junk) hP hC hargs v hv _ h
  obtain ⟨-, b, hb, hl⟩ := h1 (by decide)
  have hb' : IsPayload pay v b := by
    cases pay with
    | inline w => exact hb
    | detached p => exact hb
  have := hlen b hb'
  have hs : (callOf ((VerifyCtx.init flags).setKey k) aad pay).auxSize = 18446744073709551615 := rfl
  have ha : (callOf ((VerifyCtx.init flags).setKey k) aad pay).aad = aad.bytes := rfl
  rw [hs, ha] at hl
  omega

/-- Decoding only, the size is there; verifying, the buffer is asked for. -/
example : (toyVerify 8 (toyMsgEddsa [] [1])).res = .ok () ∧
    (toyVerify 8 (toyMsgEddsa [] [1])).ctx.auxiliaryBufferSize Config.full = 19 ∧
    (toyVerify 0 (toyMsgEddsa [] [1])).res = .error .needAuxiliaryBuffer := by
  decide +kernel

theorem checkDecoded_auxSize {cfg : Config} {C : Crypto} {me : VerifyCtx} {aad : UB} {x : Decoded}
    (h : ¬ (isEddsa cfg x ∧ ¬ isShortCircuit cfg x)) :
    (checkDecoded cfg C me aad x).2.1.auxSize = me.auxSize := by
  unfold checkDecoded
  split
  · rfl
  · simp only
    generalize (if hasFlag me.flags optUnknownCritAllowed then _ else _ : Except Err Unit × Bool) = q
    obtain ⟨r, b⟩ := q
    cases r with
    | error e => rfl
    | ok u =>
      simp only
      split
      · rfl
      · rename_i hs
        split
        · rename_i he
          refine absurd ⟨?_, ?_⟩ h
          · unfold isEddsa; simpa using he
          · unfold isShortCircuit; simpa using hs
        · rfl

/-- The auxiliary size is left alone by messages that are not for EdDSA. -/
theorem verify_auxSize {cfg : Config} {P : QParams} {C : Crypto} {junk : Junk} {me : VerifyCtx}
    {msg : Bytes} {aad : UB} {pay : VPayload} {want : Bool} (hP : P.maxTags ≤ 4)
    (hn : ∀ v, IsView P msg v → ¬ ForEddsa cfg v) :
    (verifyInternal cfg P C junk me msg aad pay want).ctx.auxSize = me.auxSize := by
  unfold verifyInternal
  simp only
  cases hd : decodeErr ((Dec.init msg).enterArray P).err with
  | error e => rfl
  | ok u =>
    simp only
    have he := decodeErr_ok.mp hd
    obtain ⟨hlen, n, c1, tags, hen, hda⟩ := enterArray_msg rfl he
    have htl : ((Dec.init msg).enterArray P).tags.length ≤ P.maxTags := by
      rw [hda]; exact entry_tags_le hen
    rcases processTags_eq (me := me) he htl hP with ⟨hpol, hpt⟩ | ⟨-, hpt⟩
    · rw [hpt]
      simp only
      generalize hb : decodeBody cfg P ((Dec.init msg).enterArray P) pay junk = b
      obtain ⟨r, st⟩ := b
      cases r with
      | error e => rfl
      | ok x =>
        simp only
        obtain ⟨v, hv, hvt, hdec⟩ := decodeBody_ok he hb
        have hne : ¬ (isEddsa cfg x ∧ ¬ isShortCircuit cfg x) := fun h =>
          hn v hv ⟨(isEddsa_iff hdec).mp h.1, fun g => h.2 ((isShortCircuit_iff hdec).mpr g)⟩
        have := checkDecoded_auxSize (C := C) (aad := aad) hne
          (me := { me with auTags := padTags (restTags ((Dec.init msg).enterArray P).tags) })
        generalize checkDecoded cfg C _ aad x = k at this ⊢
        obtain ⟨r, me', ub⟩ := k
        cases r <;> exact this
    · rw [hpt]; rfl

/-- The message of a call. -/
def callMessage : VerifyCall → Option Bytes
  | .verify msg _ _ | .verifyAad msg _ _ _ | .verifyDetached msg _ _ _ => some msg
  | _ => none

/-- **C30.** Until a message for EdDSA is given to it, a verification context reports
the auxiliary size 0, whatever else is done with it, and whether the other messages
are accepted or not. -/
theorem C30_verify_history (cfg : Config) (P : QParams) (hP : P.maxTags ≤ 4) (C : Crypto)
    (junk : Junk) (me0 : VerifyCtx) (pre rest : List VerifyCall) (flags : Nat)
    (hr : ∀ c ∈ rest, ∀ msg, callMessage c = some msg → ∀ v, IsView P msg v → ¬ ForEddsa cfg v) :
    (verifyHist cfg P C junk me0 (pre ++ .init flags :: rest)).auxiliaryBufferSize cfg = 0 := by
  have key : ∀ (l : List VerifyCall) (me : VerifyCtx), me.auxSize = 0 →
      (∀ c ∈ l, ∀ msg, callMessage c = some msg → ∀ v, IsView P msg v → ¬ ForEddsa cfg v) →
      (l.foldl (verifyStep cfg P C junk) me).auxSize = 0 := by
    intro l
    induction l with
    | nil => intro me h _; exact h
    | cons c l ih =>
      intro me h hl
      refine ih _ ?_ (fun c' hc' => hl c' (List.mem_cons_of_mem _ hc'))
      have hc := hl c List.mem_cons_self
      cases c with
      | init f => rfl
      | setKey k => exact h
      | setAux m =>
        show (me.setAux cfg m).auxSize = 0
        unfold VerifyCtx.setAux
        split <;> exact h
      | verify msg a b => exact (verify_auxSize hP (hc msg rfl)).trans h
      | verifyAad msg aad a b => exact (verify_auxSize hP (hc msg rfl)).trans h
      | verifyDetached msg aad p b => exact (verify_auxSize hP (hc msg rfl)).trans h
  unfold VerifyCtx.auxiliaryBufferSize
  split
  · rfl
  · unfold verifyHist
    rw [List.foldl_append]
    exact key rest _ rfl hr

/-- A used context, initialised again: 0, also after a message with another algorithm;
19 before. -/
example :
    (verifyHist Config.full QParams.std toyCrypto noJunk (VerifyCtx.init 0)
      [.init 8, .verify (toyMsgEddsa [] [1]) true true]).auxiliaryBufferSize Config.full = 19 ∧
    (verifyHist Config.full QParams.std toyCrypto noJunk (VerifyCtx.init 0)
      [.init 8, .verify (toyMsgEddsa [] [1]) true true, .init 4,
        .verify (toyMsg false es256Hdr [] [1]) true true]).auxiliaryBufferSize Config.full = 0 := by
  decide +kernel

end TCose.Props
