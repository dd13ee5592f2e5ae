import Verif.Lemmas.SignCongr
import Verif.Props.VerifyCrypto
import Verif.Props.Header

/-!
# C86: what the signing key is used for, and what follows for accepted messages

The functions of the library give one thing only to the signing key: the Sig_structure of the
algorithm, external data and payload of the call at hand.  So whatever calls were made with a key,
a message that is accepted has external data, payload and algorithm of one of them, unless
signatures can be forged or the hash collides.
-/

namespace TCose.Props
open TCose Spec

/-- A use of the library that signs: with one call, or with two calls anywhere in the output of an
encoder, the payload being written in between.  Each has its adapter (which may be different from
call to call, as with randomised signatures). -/
inductive SignCall where
  | one (C : Crypto) (cfg : Config) (me : SignCtx) (det : Bool) (payload aad : UB) (out : Mem)
  | two (C : Crypto) (cfg : Config) (me : SignCtx) (aad : UB) (before : List EncOp)
      (payload : List Content) (out : Bytes)

namespace SignCall

/-- The adapter. -/
def adapter : SignCall → Crypto
  | .one C _ _ _ _ _ _ => C
  | .two C _ _ _ _ _ _ => C

/-- The context: algorithm, key, options. -/
def ctx : SignCall → SignCtx
  | .one _ _ me _ _ _ _ => me
  | .two _ _ me _ _ _ _ => me

/-- The payload. -/
def payload : SignCall → Bytes
  | .one _ _ _ _ p _ _ => p.bytes
  | .two _ _ _ _ _ cs _ => encAll cs

/-- The external data. -/
def aad : SignCall → Bytes
  | .one _ _ _ _ _ a _ => a.bytes
  | .two _ _ _ a _ _ _ => a.bytes

/-- Only the size is asked for. -/
def isQuery : SignCall → Bool
  | .one _ _ _ _ _ _ out => out.isNull
  | .two _ _ _ _ _ _ _ => false

/-- What is to be signed. -/
def text (c : SignCall) : Bytes := sigStructure (protectedHeader c.ctx.alg) c.aad c.payload

/-- All that comes of the call when made with the adapter `C`: its result, the context and the
encoder with the output. -/
def run (C : Crypto) : SignCall → Except Err UB × SignCtx × Enc
  | .one _ cfg me det payload aad out => signAadInternal cfg C me det payload aad out
  | .two _ cfg me aad before cs out =>
    match sign1EncodeParameters cfg me (runOps before (Enc.init (.buf out))) with
    | (.error x, me, e) => (.error x, me, e)
    | (.ok (), me, e) =>
      match sign1EncodeSignatureAad cfg C me aad (runAll cs e) with
      | (.error x, me, e) => (.error x, me, e)
      | (.ok (), me, e) => (.ok .nil, me, e)

/-- The arguments are octets that are there (or empty) in number below 2^64, and with two calls the encoder is within
the limits of QCBOR. -/
def Proper : SignCall → Prop
  | .one _ _ _ _ payload aad _ =>
    payload.wf ∧ aad.wf ∧ payload.bytes.length < 2 ^ 64 ∧ aad.bytes.length < 2 ^ 64
  | .two _ _ me aad before cs out =>
    aad.wf ∧ aad.bytes.length < 2 ^ 64 ∧
    StartOk (runOps before (Enc.init (.buf out))) ∧ cs.length ≤ 65534 ∧
    (∃ d, fitsAll cs d = true ∧ (runOps before (Enc.init (.buf out))).nest.length + d ≤ 13) ∧
    (runOps before (Enc.init (.buf out))).len + me.kid.bytes.length
      + (me.contentTypeTstr.getD []).length + (encAll cs).length + 128 < 2 ^ 32

/-- The call has the digest `d` signed with algorithm `a` and key `k`: what comes of it depends on
what the signing function of the adapter gives for them. -/
def Signs (c : SignCall) (a : Int) (k : Key) (d : Bytes) : Prop :=
  ∃ s, (∀ a' k' d' n, s a' k' d' n ≠ c.adapter.sign a' k' d' n → a' = a ∧ k' = k ∧ d' = d) ∧
    c.run { c.adapter with sign := s } ≠ c.run c.adapter

/-- The call has the octets `t` signed with EdDSA and key `k`. -/
def SignsEddsa (c : SignCall) (k : Key) (t : Bytes) : Prop :=
  ∃ s, (∀ k' t' n, s k' t' n ≠ c.adapter.signEddsa k' t' n → k' = k ∧ t' = t) ∧
    c.run { c.adapter with signEddsa := s } ≠ c.run c.adapter

/-- The call with other signing functions. -/
theorem run_congr {D : Int → Bytes → Bytes} {c : SignCall} (hD : StreamHash c.adapter D)
    (hc : c.Proper) {s : Int → Key → Bytes → Nat → Except Err Bytes}
    {t : Key → Bytes → Nat → Except Err Bytes}
    (hs : hasFlag c.ctx.flags optShortCircuit = false → c.ctx.alg ≠ algEDDSA → c.isQuery = false →
      ∀ hal n, hashOf c.ctx.alg = some hal →
      s c.ctx.alg c.ctx.key (D hal c.text) n = c.adapter.sign c.ctx.alg c.ctx.key (D hal c.text) n)
    (ht : hasFlag c.ctx.flags optShortCircuit = false → c.ctx.alg = algEDDSA → c.isQuery = false →
      ∀ n, t c.ctx.key c.text n = c.adapter.signEddsa c.ctx.key c.text n) :
    c.run (c.adapter.signingWith s t) = c.run c.adapter := by
  unfold text at hs ht
  rw [protectedHeader_eq] at hs ht
  cases c with
  | one C cfg me det payload aad out => exact sign_congr hD hc.1 hc.2.1 hs ht
  | two C cfg me aad before cs out =>
    obtain ⟨haw, -, h0, hn, ⟨d, hd, hdd⟩, hlt⟩ := hc
    simp only [run, adapter, ctx] at hs ht ⊢
    cases hp : sign1EncodeParameters cfg me (runOps before (Enc.init (.buf out))) with
    | mk r rest =>
      obtain ⟨me1, e1⟩ := rest
      cases r with
      | error x => rfl
      | ok u =>
        have key : sign1EncodeSignatureAad cfg (C.signingWith s t) me1 aad (runAll cs e1) =
            sign1EncodeSignatureAad cfg C me1 aad (runAll cs e1) := by
          unfold sign1EncodeSignatureAad
          cases hsm : (closePayload .nil (runAll cs e1)).1.small with
          | true =>
            refine encSig_congr_err ?_
            simp [Enc.errState, hsm]
          | false =>
            obtain ⟨o, ns, pp, hr, hdep, hme, hpp, hpre, hrel, hpay, hlen⟩ :=
              nested_start h0 hp hd hdd hn hlt hsm
            have hsc : hasFlag me.flags optShortCircuit = false ∨ cfg.disableShortCircuit = true →
                hasFlag me.flags optShortCircuit = false := by
              rintro (h | h)
              · exact h
              · cases hq : hasFlag me.flags optShortCircuit
                · rfl
                · exact absurd ⟨hq, h⟩ hpre.sc
            have hed : me.alg ≠ algEDDSA ∨ cfg.disableEDDSA = true → me.alg ≠ algEDDSA := by
              rintro (h | h) he
              · exact h he
              · have := hpre.alg
                rw [he] at this
                unfold sigAlgSupported at this
                rw [h] at this
                simp [algEDDSA, algES256, algES384, algES512, algPS256, algPS384, algPS512] at this
            refine encSig_congr (pm := protMap me.alg)
              (rest := unprotBytes (kidArg me).bytes (ctArg cfg me) ++ bstrBytes (encAll cs))
              hpay hrel hsm (by simp only [hdrBytes, List.append_assoc]) (prot_head _)
              (by rw [hme]; exact hpp) ?_
            subst hme
            exact signDispatch_congr hD (fun _ => ⟨rfl, haw, rfl⟩)
              (fun _ a b => hs (hsc a) (hed b) rfl) (fun _ a b => ht (hsc a) b rfl)
        simp only
        rw [key]

end SignCall

variable {D : Int → Bytes → Bytes} {c : SignCall}

/-- **C86.** The only digest a call has signed is the one of its own Sig_structure, with its own
algorithm and key; none is when the signature is a short-circuit one, the algorithm is EdDSA, or
only the size is asked for. -/
theorem C86_signs (hD : StreamHash c.adapter D) (hc : c.Proper) {a : Int} {k : Key} {d : Bytes}
    (h : c.Signs a k d) :
    a = c.ctx.alg ∧ k = c.ctx.key ∧ (∃ hal, hashOf a = some hal ∧ d = D hal c.text) ∧
      Spec.Opt.shortCircuit c.ctx.flags = false ∧ a ≠ -8 ∧ c.isQuery = false := by
  obtain ⟨s, h1, h2⟩ := h
  refine Classical.byContradiction fun hno => h2 ?_
  refine SignCall.run_congr (s := s) (t := c.adapter.signEddsa) hD hc ?_ (fun _ _ _ _ => rfl)
  intro hsc hed hq hal n hh
  refine Classical.byContradiction fun hne => hno ?_
  obtain ⟨e1, e2, e3⟩ := h1 _ _ _ _ hne
  subst e1 e2 e3
  exact ⟨rfl, rfl, ⟨hal, hh, rfl⟩, hsc, hed, hq⟩

/-- **C86 (EdDSA).** Likewise the only octets signed are those of the Sig_structure. -/
theorem C86_signs_eddsa (hD : StreamHash c.adapter D) (hc : c.Proper) {k : Key} {t : Bytes}
    (h : c.SignsEddsa k t) :
    k = c.ctx.key ∧ t = c.text ∧ c.ctx.alg = -8 ∧ Spec.Opt.shortCircuit c.ctx.flags = false ∧
      c.isQuery = false := by
  obtain ⟨s, h1, h2⟩ := h
  refine Classical.byContradiction fun hno => h2 ?_
  refine SignCall.run_congr (s := c.adapter.sign) (t := s) hD hc (fun _ _ _ _ _ _ => rfl) ?_
  intro hsc hed hq n
  refine Classical.byContradiction fun hne => hno ?_
  obtain ⟨e1, e2⟩ := h1 _ _ _ hne
  subst e1 e2
  exact ⟨rfl, rfl, hed, hsc, hq⟩

/-- A call that ends well made use of a signature of its own Sig_structure. -/
theorem SignCall.sigFor {D : Int → Bytes → Bytes} {c : SignCall} {C : Crypto} (hD : StreamHash C D)
    (hfit : SignFits C) (hc : c.Proper) (hq : c.isQuery = false)
    (hok : (c.run C).1.isOk = true) (hsm : (c.run C).2.2.small = false) :
    ∃ sig, SigFor C D c.ctx c.text sig := by
  cases c with
  | one _ cfg me det payload aad out =>
    cases out with
    | null n => cases hq
    | buf m =>
      simp only [SignCall.run] at hok
      cases hr : signAadInternal cfg C me det payload aad (.buf m) with
      | mk r rest =>
        obtain ⟨me', e'⟩ := rest
        rw [hr] at hok
        cases r with
        | error x => cases hok
        | ok r =>
          obtain ⟨sig, -, h2⟩ := C07_output cfg C D hD hfit me me' det payload aad hc.1 hc.2.1 m r e' hr
          exact ⟨sig, h2⟩
  | two _ cfg me aad before cs out =>
    obtain ⟨haw, -, h0, hn, ⟨d, hd, hdd⟩, hlt⟩ := hc
    simp only [SignCall.run] at hok hsm
    cases hp : sign1EncodeParameters cfg me (runOps before (Enc.init (.buf out))) with
    | mk r rest =>
      obtain ⟨me1, e1⟩ := rest
      rw [hp] at hok hsm
      cases r with
      | error x => cases hok
      | ok u =>
        simp only at hok hsm
        cases hg : sign1EncodeSignatureAad cfg C me1 aad (runAll cs e1) with
        | mk r rest =>
          obtain ⟨me2, e2⟩ := rest
          rw [hg] at hok hsm
          cases r with
          | error x => cases hok
          | ok u =>
            obtain ⟨-, -, sig, -, -, -, -, -, h⟩ := C47_nested_output cfg C D hD hfit me me1 me2
              before out e1 e2 cs d aad haw h0 hp hd hdd hn hlt hg hsm
            exact ⟨sig, h⟩

/-- The same, when with other signing functions the outcome were the same. -/
theorem SignCall.sigFor_with {D : Int → Bytes → Bytes} {c : SignCall} (hD : StreamHash c.adapter D)
    {s : Int → Key → Bytes → Nat → Except Err Bytes} {t : Key → Bytes → Nat → Except Err Bytes}
    (hs : ∀ alg key h n r, s alg key h n = .ok r → r.length ≤ n)
    (ht : ∀ key tbs n r, t key tbs n = .ok r → r.length ≤ n) (hc : c.Proper)
    (hq : c.isQuery = false) (hok : (c.run c.adapter).1.isOk = true)
    (hsm : (c.run c.adapter).2.2.small = false)
    (heq : c.run (c.adapter.signingWith s t) = c.run c.adapter) :
    ∃ sig, SigFor (c.adapter.signingWith s t) D c.ctx c.text sig := by
  refine SignCall.sigFor (C := c.adapter.signingWith s t) hD ⟨hs, ht⟩ hc hq ?_ ?_
  · rw [heq]; exact hok
  · rw [heq]; exact hsm

/-- **C86 (converse).** A call that succeeds, with all of the message written, did have the digest
of its own Sig_structure signed: with a key that does not sign it, it would not have succeeded. -/
theorem C86_signs_own (hD : StreamHash c.adapter D) (hfit : SignFits c.adapter) (hc : c.Proper)
    (hq : c.isQuery = false) (hsc : Spec.Opt.shortCircuit c.ctx.flags = false)
    (hed : c.ctx.alg ≠ -8) (hok : (c.run c.adapter).1.isOk = true)
    (hsm : (c.run c.adapter).2.2.small = false) :
    ∃ hal, hashOf c.ctx.alg = some hal ∧ c.Signs c.ctx.alg c.ctx.key (D hal c.text) := by
  have hed : ¬ c.ctx.alg = algEDDSA := hed
  obtain ⟨sig, hsig⟩ := c.sigFor hD hfit hc hq hok hsm
  unfold SigFor at hsig
  rw [hsc, if_neg (by decide), if_neg hed] at hsig
  obtain ⟨hal, n, hh, -⟩ := hsig
  let s : Int → Key → Bytes → Nat → Except Err Bytes := fun a k d n =>
    if a = c.ctx.alg ∧ k = c.ctx.key ∧ d = D hal c.text then .error .sigFail
    else c.adapter.sign a k d n
  refine ⟨hal, hh, s, ?_, ?_⟩
  · intro a k d n hne
    exact Classical.byContradiction fun hno => hne (if_neg hno)
  · intro heq
    obtain ⟨sig', hsig'⟩ := SignCall.sigFor_with (s := s) (t := c.adapter.signEddsa) hD (by
        intro a k d n r hr
        simp only [s] at hr
        split at hr
        · cases hr
        · exact hfit.sign _ _ _ _ _ hr) hfit.eddsa hc hq hok hsm heq
    unfold SigFor at hsig'
    rw [hsc, if_neg (by decide), if_neg hed] at hsig'
    obtain ⟨hal', n, hh', hx⟩ := hsig'
    rw [hh] at hh'
    cases hh'
    simp [s, Crypto.signingWith] at hx

/-- **C86 (converse, EdDSA).** -/
theorem C86_signs_own_eddsa (hD : StreamHash c.adapter D) (hfit : SignFits c.adapter) (hc : c.Proper)
    (hq : c.isQuery = false) (hsc : Spec.Opt.shortCircuit c.ctx.flags = false)
    (hed : c.ctx.alg = -8) (hok : (c.run c.adapter).1.isOk = true)
    (hsm : (c.run c.adapter).2.2.small = false) : c.SignsEddsa c.ctx.key c.text := by
  have hed : c.ctx.alg = algEDDSA := hed
  let t : Key → Bytes → Nat → Except Err Bytes := fun k x n =>
    if k = c.ctx.key ∧ x = c.text then .error .sigFail else c.adapter.signEddsa k x n
  refine ⟨t, ?_, ?_⟩
  · intro k x n hne
    exact Classical.byContradiction fun hno => hne (if_neg hno)
  · intro heq
    obtain ⟨sig', hsig'⟩ := SignCall.sigFor_with (s := c.adapter.sign) (t := t) hD hfit.sign (by
        intro k x n r hr
        simp only [t] at hr
        split at hr
        · cases hr
        · exact hfit.eddsa _ _ _ _ hr) hc hq hok hsm heq
    unfold SigFor at hsig'
    rw [hsc, if_neg (by decide), if_pos hed] at hsig'
    obtain ⟨n, hx⟩ := hsig'
    simp [t, Crypto.signingWith] at hx

/-- Signatures cannot be forged: what the adapter `V` accepts for the key `pk` is what one of the
calls made had signed with the key `sk`. -/
structure NoForgery (V : Crypto) (pk sk : Key) (calls : List SignCall) : Prop where
  verify : ∀ a kid d s, V.verify a pk kid d s = .ok () → ∃ c ∈ calls, c.Signs a sk d
  eddsa : ∀ kid t s, V.verifyEddsa pk kid t s = .ok () → ∃ c ∈ calls, c.SignsEddsa sk t

/-- The calls were made properly with the hash `D`, and no other octets have the digest of what was
to be signed in one of them. -/
structure Calls (D : Int → Bytes → Bytes) (calls : List SignCall) : Prop where
  hash : ∀ c ∈ calls, StreamHash c.adapter D
  proper : ∀ c ∈ calls, c.Proper
  collision : ∀ c ∈ calls, ∀ hal t, hashOf c.ctx.alg = some hal → D hal c.text = D hal t → c.text = t

theorem SignCall.Proper.sizes {c : SignCall} (h : c.Proper) :
    c.aad.length < 2 ^ 64 ∧ c.payload.length < 2 ^ 64 := by
  cases c with
  | one C cfg me det payload aad out => exact ⟨h.2.2.2, h.2.2.1⟩
  | two C cfg me aad before cs out =>
    refine ⟨h.2.1, ?_⟩
    have := h.2.2.2.2.2
    simp only [SignCall.payload]
    omega

variable (cfg : Config) (P : QParams) (V : Crypto) (junk : Junk) (me : VerifyCtx)
  (msg : Bytes) (aad : UB) (pay : VPayload) (want : Bool)

/-- **C86 (authenticity).** When the calls listed are all that was signed with the key `sk`, a
message accepted with the key `pk` (options neither decode-only nor allowing short-circuit
signatures) was made from one of them: its protected header is the one that call wrote, and the
external data given, the payload (returned, when it is in the message) and the algorithm (reported,
when asked for) are those of that call. -/
theorem C86_authentic (D : Int → Bytes → Bytes) (hD : StreamHash V D) (hP : P.maxTags ≤ 4)
    (hargs : ArgsOk aad pay) (hla : aad.bytes.length < 2 ^ 64)
    (hlp : ∀ p, pay = .detached p → p.bytes.length < 2 ^ 64)
    (sk : Key) (calls : List SignCall) (hc : Calls D calls) (hf : NoForgery V me.key sk calls)
    (hdec : Spec.Opt.decodeOnly me.flags = false)
    (hns : cfg.disableShortCircuit = true ∨ Spec.Opt.allowShortCircuit me.flags = false)
    (h : (verifyInternal cfg P V junk me msg aad pay want).res = .ok ()) :
    ∃ c ∈ calls, c.ctx.key = sk ∧ Spec.Opt.shortCircuit c.ctx.flags = false ∧
      c.isQuery = false ∧ aad.bytes = c.aad ∧
      (∃ v, IsView P msg v ∧ v.prot.bytes = protectedHeader c.ctx.alg ∧ IsPayload pay v c.payload) ∧
      (pay = .inline true → ∃ b,
        (verifyInternal cfg P V junk me msg aad pay want).payload = some b ∧
        b.ub = .data c.payload) ∧
      (∀ p, (verifyInternal cfg P V junk me msg aad pay want).params = some p →
        p.alg = c.ctx.alg) := by
  obtain ⟨v, hv, payload, hpl, hret, -⟩ :=
    C10_acceptance cfg P V junk me msg aad pay want D hD hP hargs hdec h
  have hns' : cfg.disableShortCircuit = true ∨ v.kid.map (·.bytes) ≠ some scKid := by
    cases hb : cfg.disableShortCircuit with
    | true => exact .inl rfl
    | false =>
      refine .inr fun hk => ?_
      have := (C11_short_circuit cfg P V junk me msg aad pay want D hD hP hargs v hv hb hk hdec h).1
      rcases hns with h1 | h1
      · rw [hb] at h1; cases h1
      · rw [h1] at this; cases this
  let Signed : Int → Bytes → Bytes → Bytes → Prop := fun a p x w =>
    ∃ c ∈ calls, (c.ctx.key = sk ∧ Spec.Opt.shortCircuit c.ctx.flags = false ∧
      c.isQuery = false ∧ a = c.ctx.alg) ∧
      p = protectedHeader c.ctx.alg ∧ x = c.aad ∧ w = c.payload
  have hU : Unforgeable V D me.key Signed := by
    refine ⟨?_, ?_, ?_⟩
    · intro a kid d s hver
      obtain ⟨c, hcm, hcs⟩ := hf.verify a kid d s hver
      obtain ⟨e1, e2, ⟨hal, e3, e4⟩, e5, -, e7⟩ := C86_signs (hc.hash c hcm) (hc.proper c hcm) hcs
      exact ⟨hal, _, _, _, e3, ⟨c, hcm, ⟨e2.symm, e5, e7, e1⟩, rfl, rfl, rfl⟩, e4⟩
    · intro kid t s hver
      obtain ⟨c, hcm, hcs⟩ := hf.eddsa kid t s hver
      obtain ⟨e1, e2, e3, e4, e5⟩ := C86_signs_eddsa (hc.hash c hcm) (hc.proper c hcm) hcs
      exact ⟨_, _, _, ⟨c, hcm, ⟨e1.symm, e4, e5, e3.symm⟩, rfl, rfl, rfl⟩, e2⟩
    · rintro a p x w ⟨c, hcm, -, rfl, rfl, rfl⟩
      refine ⟨?_, (hc.proper c hcm).sizes⟩
      rw [protectedHeader_eq]
      have := Ideal.protMap_length_le c.ctx.alg
      omega
  have hcoll : NoCollision D Signed (sigStructure v.prot.bytes aad.bytes payload) := by
    rintro a hal p x w hh ⟨c, hcm, ⟨-, -, -, rfl⟩, rfl, rfl, rfl⟩ he
    exact hc.collision c hcm hal _ hh he
  have hlen : payload.length < 2 ^ 64 := by
    cases pay with
    | detached p => rw [hpl.2]; exact hlp p rfl
    | inline w =>
      obtain ⟨s, h1, -, h3⟩ := hpl
      have h2 := hv.slices.2.2.1
      rw [h1] at h2
      obtain ⟨k, n, h4, h5⟩ := h2
      have h6 := hv.1
      rw [h3, h5]
      simp only [List.length_take, List.length_drop] at h4 ⊢
      unfold maxMessage at h6
      omega
  have hla' : aad.len < 2 ^ 64 := by have := hargs.1; unfold UB.wf at this; omega
  obtain ⟨i, a, hi, ha, c, hcm, ⟨e1, e2, e3, rfl⟩, e4, e5, rfl⟩ :=
    C40_only_signed cfg P V junk me msg aad pay want D hD hP hargs hdec Signed hU v hv hns' payload
      hpl hcoll hla' hlen h
  refine ⟨c, hcm, e1, e2, e3, e5, ⟨v, hv, e4, hpl⟩, hret, ?_⟩
  intro p hp
  obtain ⟨v', hv', -, hpp⟩ := C21_alg_partial cfg P V junk me msg aad pay want hP h
  have := hv.unique hv'
  subst this
  rcases hpp p hp with ⟨-, -, h3⟩ | ⟨j, h3, h4, -, -⟩
  · rw [hdec] at h3; cases h3
  · unfold MsgView.alg at hi
    rw [h3] at hi
    cases hi
    obtain ⟨a1, a2, a3⟩ := ha
    obtain ⟨b1, b2, b3⟩ := h4
    omega

/-! ## The hypotheses are met -/

/-- An adapter whose digest is the input itself and which signs anything. -/
def sureCrypto : Crypto :=
  { idealCrypto [] with
    sign := fun _ _ _ n => if 1 ≤ n then .ok [7] else .error .sigBufferSize
    sigSize := fun _ _ => .ok 1 }

theorem sure_streamHash : StreamHash sureCrypto (fun _ b => b) := ideal_streamHash []

theorem sure_signFits : SignFits sureCrypto := by
  refine ⟨?_, ?_⟩
  · intro a k d n s h
    simp only [sureCrypto] at h
    split at h
    · cases h; simpa
    · cases h
  · intro k t n s h
    cases h

/-- A call with it: ES256, payload 1, external data 2. -/
def exCall : SignCall :=
  .one sureCrypto Config.full (SignCtx.init 0 algES256) false (.data [1]) (.data [2])
    (.buf (List.replicate 100 0))

/-- One with two calls within an encoder's output. -/
def exCallTwo : SignCall :=
  .two sureCrypto Config.full (SignCtx.init 0 algES256) (.data [2]) [.openArray, .int 3]
    [.int 1] (List.replicate 100 0)

theorem exCall_proper : exCall.Proper := by
  exact ⟨UB.wf_data _, UB.wf_data _, by decide +kernel, by decide +kernel⟩

theorem exCallTwo_proper : exCallTwo.Proper := by
  refine ⟨UB.wf_data _, by decide +kernel, ⟨by decide +kernel, by decide +kernel,
    by decide +kernel, ?_⟩, by decide +kernel, ⟨1, by decide +kernel, by decide +kernel⟩,
    by decide +kernel⟩
  intro n hn
  have : (runOps [.openArray, .int 3] (Enc.init (.buf (List.replicate 100 0)))).nest.head?
      = some ⟨.arr, 0, 1⟩ := by decide +kernel
  rw [this] at hn
  cases hn
  decide

theorem exCall_signs : exCall.Signs algES256 exCall.ctx.key exCall.text := by
  obtain ⟨hal, -, h⟩ := C86_signs_own (c := exCall) sure_streamHash sure_signFits exCall_proper rfl
    (by decide +kernel) (by decide +kernel) (by decide +kernel) (by decide +kernel)
  exact h

example : exCallTwo.Signs algES256 exCallTwo.ctx.key exCallTwo.text := by
  obtain ⟨hal, -, h⟩ := C86_signs_own (c := exCallTwo) sure_streamHash sure_signFits
    exCallTwo_proper rfl (by decide +kernel) (by decide +kernel) (by decide +kernel)
    (by decide +kernel)
  exact h

/-- A history, and an adapter for verification. -/
example : Calls (fun _ b => b) [exCall, exCallTwo] where
  hash := by
    intro c hc
    simp only [List.mem_cons, List.not_mem_nil, or_false] at hc
    rcases hc with rfl | rfl <;> exact sure_streamHash
  proper := by
    intro c hc
    simp only [List.mem_cons, List.not_mem_nil, or_false] at hc
    rcases hc with rfl | rfl
    · exact exCall_proper
    · exact exCallTwo_proper
  collision := fun _ _ _ _ _ h => h

example (pk : Key) : NoForgery (idealCrypto exCall.text) pk exCall.ctx.key [exCall, exCallTwo] where
  verify := by
    intro a kid d s h
    simp only [idealCrypto] at h
    split at h
    · rename_i hh
      obtain ⟨rfl, rfl⟩ := hh
      exact ⟨exCall, List.mem_cons_self, exCall_signs⟩
    · cases h
  eddsa := by intro kid t s h; cases h

/-- It accepts what the call gave, with the same external data only. -/
example :
    let msg := (exCall.run sureCrypto).1.toOption.getD .nil
    (verifyInternal Config.full QParams.std (idealCrypto exCall.text) noJunk (VerifyCtx.init 0)
      msg.bytes (.data [2]) (.inline true) true).res = .ok () ∧
    (verifyInternal Config.full QParams.std (idealCrypto exCall.text) noJunk (VerifyCtx.init 0)
      msg.bytes (.data [3]) (.inline true) true).res = .error .sigVerify := by
  decide +kernel

end TCose.Props
