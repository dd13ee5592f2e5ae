import Verif.Props.WholeEffect
import Verif.Props.Sign

/-!
# Where the line is: C05 and C14

Two claims that are false of the code, with the exact condition under which they hold.
-/

namespace TCose.Props
open TCose Spec

/-! ## C05 -/

/-- The octets of a message in front of its payload. -/
def upToPayload (tagged : Bool) (alg : Int) (kid : Option Bytes) (ct : ContentType) : Bytes :=
  (if tagged then head 6 18 else []) ++ (head 4 4 ++ ((Item.bstr (protectedHeader alg)).enc ++
    (unprotectedHeader kid ct).enc))

theorem coseSign1_split (tagged : Bool) (alg : Int) (kid : Option Bytes) (ct : ContentType) (p sig : Bytes) :
    (coseSign1 tagged alg kid ct (some p) sig).enc =
      upToPayload tagged alg kid ct ++ (bstrBytes p ++ bstrBytes sig) := by
  unfold coseSign1 upToPayload bstrBytes
  rw [encodeHead_eq_head, encodeHead_eq_head]
  cases tagged <;> simp [Item.enc, encList]

/-- **C05 (exactly when).** A message made by `t_cose_sign1_sign_aad` has the payload of the call as its payload, and
a signature over it and the external data of the call, if and only if the two are the same octets. -/
theorem C05_iff (cfg : Config) (C : Crypto) (D : Int → Bytes → Bytes)
    (hD : StreamHash C D) (hfit : SignFits C) (me me' : SignCtx) (aad payload m : Bytes)
    (r : UB) (e' : Enc) (ha : aad.length < 2 ^ 64) (hp : payload.length < 2 ^ 64)
    (h : sign1SignAad cfg C me (.data aad) (.data payload) (.buf m) = (.ok r, me', e')) :
    (∃ sig,
      r = .data (coseSign1 (!Spec.Opt.omitTag me.flags) me.alg (specKid me) (specCt cfg me) (some payload) sig).enc ∧
      SigFor C D me (sigStructure (protectedHeader me.alg) aad payload) sig) ↔ aad = payload := by
  constructor
  · rintro ⟨sig, h1, -⟩
    obtain ⟨sig', h2, -⟩ := C05_violated_swapped cfg C D hD hfit me me' aad payload m r e' h
    rw [h1] at h2
    injection h2 with h2
    rw [coseSign1_split, coseSign1_split] at h2
    exact ((bstrBytes_inj hp ha (List.append_cancel_left h2)).1).symm
  · rintro rfl
    exact C05_equal_args_partial cfg C D hD hfit me me' aad m r e' h

/- Both sides occur. -/
example : ((sign1SignAad Config.full toyCrypto (SignCtx.init 0 algES256) (.data [0x41]) (.data [1, 2, 3])
      (.buf (List.replicate 200 0))).1.isOk = true ∧ ([0x41] : Bytes) ≠ [1, 2, 3]) ∧
    (sign1SignAad Config.full toyCrypto (SignCtx.init 0 algES256) (.data [1, 2]) (.data [1, 2])
      (.buf (List.replicate 200 0))).1.isOk = true := by decide +kernel

/-! ## C14 -/

variable (cfg : Config) (P : QParams) (C : Crypto) (junk : Junk)
  (me : VerifyCtx) (msg : Bytes) (aad : UB) (pay : VPayload) (want : Bool)

/-- What is found in the octets, or why it is refused.  Neither key nor adapter nor auxiliary buffer nor external data
take part. -/
def lookedAt (flags : Nat) : Except Err Found4 :=
  if maxMessage < msg.length then .error .sign1Format
  else
    match messageAt P msg with
    | .error e => .error e
    | .ok (ts, xs, last, fin) =>
      if ¬ TagPolicy flags ts.reverse then .error .incorrectlyTagged
      else
        match readAll P cfg.disableContentType pay.octets xs last fin with
        | .error e => .error e
        | .ok f =>
          if Spec.Opt.requireKid flags = true ∧ f.known.kid = none then .error .noKid
          else if Spec.Opt.unknownCritAllowed flags = false ∧ f.known.blocked then .error .unknownCriticalParameter
          else .ok f

/-- A message for EdDSA whose signature is not a short-circuit one. -/
def EddsaFound (f : Found4) : Prop :=
  ¬ (cfg.disableShortCircuit = false ∧ f.known.kid = some scKid) ∧ cfg.disableEDDSA = false ∧ f.known.alg = algEDDSA

instance (f : Found4) : Decidable (EddsaFound cfg f) := by unfold EddsaFound; infer_instance

/-- What a call gives to its caller. -/
def given3 (v : VRes) : Except Err Unit × Option ShownParams × Option Bytes :=
  (v.res, v.params.map seenIn, v.payload.map (·.ub.bytes))

/-- **C14 (exactly).** With decode-only, for all octets: the result, the parameters and the payload are those of
`lookedAt`, which knows no key, adapter or external data; but for one case, messages for EdDSA whose Sig_structure with
the external data of the call does not fit into the auxiliary buffer. -/
theorem C14_exact (hP : P.maxTags ≤ 4) (hl : P.Local) (hargs : ArgsOk aad pay)
    (hd : Spec.Opt.decodeOnly me.flags = true) :
    given3 (verifyInternal cfg P C junk me msg aad pay want) =
      match lookedAt cfg P msg pay me.flags with
      | .error e => (.error e, none, none)
      | .ok f =>
        if EddsaFound cfg f ∧ me.aux.cap < (sigStructure f.prot aad.bytes f.payload).length then
          (.error .auxiliaryBufferSize, none, none)
        else (.ok (), if want then some (toShow f.known) else none,
          if pay = .inline true then some f.payload else none) := by
  have key := (C95_everything cfg P C junk me msg aad pay want hP hl hargs).1
  have h3 : given3 (verifyInternal cfg P C junk me msg aad pay want) =
      ((effectOf (verifyInternal cfg P C junk me msg aad pay want)).res,
       (effectOf (verifyInternal cfg P C junk me msg aad pay want)).params,
       (effectOf (verifyInternal cfg P C junk me msg aad pay want)).payload) := rfl
  rw [h3, key]
  unfold effectAll lookedAt
  split
  · rfl
  cases messageAt P msg with
  | error e => rfl
  | ok q =>
    obtain ⟨ts, xs, last, fin⟩ := q
    simp only
    split
    · rfl
    cases readAll P cfg.disableContentType pay.octets xs last fin with
    | error e => rfl
    | ok f =>
      simp only
      generalize (if SizeStored cfg me f.known _ then _ else _ : VerifyCtx) = me2
      generalize hsp : (if want then some (toShow f.known) else none : Option ShownParams) = sp
      generalize hpl : (if pay = .inline true then some f.payload else none : Option Bytes) = pl
      unfold settle
      by_cases h1 : Spec.Opt.requireKid me.flags = true ∧ f.known.kid = none
      · rw [if_pos h1, if_pos h1]; rfl
      rw [if_neg h1, if_neg h1]
      by_cases h2 : Spec.Opt.unknownCritAllowed me.flags = false ∧ f.known.blocked
      · rw [if_pos h2, if_pos h2]; rfl
      rw [if_neg h2, if_neg h2]
      simp only [if_pos hd]
      by_cases h4 : cfg.disableShortCircuit = false ∧ f.known.kid = some scKid
      · rw [if_pos h4, if_neg (fun h => h.1.1 h4), hsp, hpl]
      rw [if_neg h4]
      by_cases h5 : cfg.disableEDDSA = false ∧ f.known.alg = algEDDSA
      · rw [if_pos h5]
        by_cases h6 : me.aux.cap < (sigStructure f.prot aad.bytes f.payload).length
        · rw [if_pos h6, if_pos ⟨⟨h4, h5⟩, h6⟩]; rfl
        · rw [if_neg h6, if_neg (fun h => h6 h.2), hsp, hpl]
      · rw [if_neg h5, if_neg (fun h => h5 h.1.2), hsp, hpl]

/-- **C14 (all options).** What `lookedAt` refuses is refused with the same code whatever the key, the adapter, the
external data and the other options; so whatever is accepted is found there, and decode-only gives the same parameters
and payload, if there is room for EdDSA. -/
theorem C14_looked (hP : P.maxTags ≤ 4) (hl : P.Local) (hargs : ArgsOk aad pay) :
    match lookedAt cfg P msg pay me.flags with
    | .error e => given3 (verifyInternal cfg P C junk me msg aad pay want) = (.error e, none, none)
    | .ok f => (verifyInternal cfg P C junk me msg aad pay want).res = .ok () →
        given3 (verifyInternal cfg P C junk me msg aad pay want) =
          (.ok (), if want then some (toShow f.known) else none,
            if pay = .inline true then some f.payload else none) := by
  have key := (C95_everything cfg P C junk me msg aad pay want hP hl hargs).1
  have h3 : given3 (verifyInternal cfg P C junk me msg aad pay want) =
      ((effectOf (verifyInternal cfg P C junk me msg aad pay want)).res,
       (effectOf (verifyInternal cfg P C junk me msg aad pay want)).params,
       (effectOf (verifyInternal cfg P C junk me msg aad pay want)).payload) := rfl
  have h4 : (verifyInternal cfg P C junk me msg aad pay want).res =
    (effectOf (verifyInternal cfg P C junk me msg aad pay want)).res := rfl
  rw [h3, h4, key]
  clear key h3 h4
  unfold effectAll lookedAt
  by_cases hlen : maxMessage < msg.length
  · simp only [if_pos hlen]; rfl
  simp only [if_neg hlen]
  cases messageAt P msg with
  | error e => rfl
  | ok q =>
    obtain ⟨ts, xs, last, fin⟩ := q
    simp only
    by_cases h0 : ¬ TagPolicy me.flags ts.reverse
    · simp only [if_pos h0]; rfl
    simp only [if_neg h0]
    cases readAll P cfg.disableContentType pay.octets xs last fin with
    | error e => rfl
    | ok f =>
      simp only
      by_cases h1 : Spec.Opt.requireKid me.flags = true ∧ f.known.kid = none
      · simp only [if_pos h1]
        unfold settle
        rw [if_pos h1]; rfl
      by_cases h2 : Spec.Opt.unknownCritAllowed me.flags = false ∧ f.known.blocked
      · simp only [if_neg h1, if_pos h2]
        unfold settle
        rw [if_neg h1, if_pos h2]; rfl
      simp only [if_neg h1, if_neg h2]
      intro h
      generalize settle cfg C me f.known _ _ _ = s at h ⊢
      cases s with
      | error e => cases h
      | ok u => rfl

/-- A message for EdDSA: with external data that fits with the rest into twenty-four octets, and with some that does not.
The message is found in both cases. -/
example :
    let m : Bytes := [0xd2, 0x84, 0x43, 0xa1, 0x01, 0x27, 0xa0, 0x42, 0x05, 0x06, 0x40]
    let me : VerifyCtx := { VerifyCtx.init 8 with aux := .buf (List.replicate 24 0) }
    (lookedAt Config.full QParams.std m (.inline true) 8).map (fun f => (f.known.alg, f.payload)) = .ok (-8, [5, 6]) ∧
    (sign1VerifyAad Config.full QParams.std toyCrypto noJunk me m (.data [1, 2, 3, 4]) true true).res = .ok () ∧
    (sign1VerifyAad Config.full QParams.std toyCrypto noJunk me m (.data [1, 2, 3, 4, 5]) true true).res =
      .error .auxiliaryBufferSize := by
  decide +kernel

end TCose.Props
