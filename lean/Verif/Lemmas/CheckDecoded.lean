import Verif.Lemmas.Accepted
import Verif.Lemmas.SignMain

/-!
# After decoding: kid, critical labels, signature
-/

namespace TCose
open Spec

/-- The message asks for short-circuit verification. -/
def isShortCircuit (cfg : Config) (x : Decoded) : Prop :=
  cfg.disableShortCircuit = false ∧ (Str.ub x.params.kid).bytes = shortCircuitKid

/-- The message is to be verified with EdDSA. -/
def isEddsa (cfg : Config) (x : Decoded) : Prop :=
  cfg.disableEDDSA = false ∧ x.params.alg = algEDDSA

theorem checkDecoded_ok {cfg : Config} {C : Crypto} {me me' : VerifyCtx} {aad : UB} {x : Decoded}
    {ub : Bool} (h : checkDecoded cfg C me aad x = (.ok (), me', ub)) :
    (hasFlag me.flags optRequireKid = true → x.params.kid ≠ none) ∧
    (hasFlag me.flags optUnknownCritAllowed = true ∨ (checkCritical x.crit x.unk).1 = .ok ()) ∧
    ((isShortCircuit cfg x ∧ me' = me ∧
        verifyShortCircuit cfg C me x.params x.sig.ub x.prot.ub aad x.payload.ub = .ok ()) ∨
     (¬ isShortCircuit cfg x ∧ isEddsa cfg x ∧
        ∃ ub', verifyEddsa C me x.params x.sig.ub x.prot.ub aad x.payload.ub = (.ok (), me', ub')) ∨
     (¬ isShortCircuit cfg x ∧ ¬ isEddsa cfg x ∧ me' = me ∧
        verifyDefault cfg C me x.params x.sig.ub x.prot.ub aad x.payload.ub = .ok ())) := by
  unfold checkDecoded at h
  split at h
  · simp at h
  · rename_i hk
    simp only at h
    generalize hcr : (if hasFlag me.flags optUnknownCritAllowed = true then
      ((.ok (), false) : Except Err Unit × Bool) else checkCritical x.crit x.unk) = cr at h
    obtain ⟨r, ub0⟩ := cr
    cases r with
    | error e => simp at h
    | ok u =>
      refine ⟨?_, ?_, ?_⟩
      · intro hf hn
        apply hk
        rw [hf, hn]; rfl
      · split at hcr
        · rename_i hf; exact .inl hf
        · right; rw [hcr]
      · simp only at h
        by_cases hs : isShortCircuit cfg x
        · left
          rw [if_pos (by simp [hs.1, hs.2])] at h
          simp only [Prod.mk.injEq] at h
          exact ⟨hs, h.2.1.symm, h.1⟩
        · right
          rw [if_neg (by
            intro hc
            simp only [Bool.and_eq_true, Bool.not_eq_true', beq_iff_eq] at hc
            exact hs ⟨hc.1, hc.2⟩)] at h
          by_cases he : isEddsa cfg x
          · left
            rw [if_pos (by simp [he.1, he.2])] at h
            generalize hv : verifyEddsa C me x.params x.sig.ub x.prot.ub aad x.payload.ub = w at h
            obtain ⟨r, me2, ub2⟩ := w
            simp only [Prod.mk.injEq] at h
            exact ⟨hs, he, ub2, by rw [h.1, h.2.1]⟩
          · right
            rw [if_neg (by
              intro hc
              simp only [Bool.and_eq_true, Bool.not_eq_true', beq_iff_eq] at hc
              exact he ⟨hc.1, hc.2⟩)] at h
            simp only [Prod.mk.injEq] at h
            exact ⟨hs, he, h.2.1.symm, h.1⟩

/-- The octets that are signed, for what was decoded. -/
def Decoded.tbs (x : Decoded) (aad : UB) : Bytes :=
  sigStructure x.prot.ub.bytes aad.bytes x.payload.ub.bytes

/-- The buffers of a verification are well-formed: never NULL with a length. -/
structure Decoded.Wf (x : Decoded) (aad : UB) : Prop where
  prot : x.prot.ub.wf
  aad : aad.wf
  payload : x.payload.ub.wf

theorem verifyShortCircuit_ok {cfg : Config} {C : Crypto} {me : VerifyCtx} {x : Decoded} {aad : UB}
    (h : verifyShortCircuit cfg C me x.params x.sig.ub x.prot.ub aad x.payload.ub = .ok ()) :
    hasFlag me.flags optDecodeOnly = true ∨
    (hasFlag me.flags optAllowShortCircuit = true ∧
      ∃ hash, createTbsHash cfg C x.params.alg x.prot.ub aad x.payload.ub (maxHashSize cfg)
        = .ok hash ∧ scVerify hash x.sig.ub.bytes = .ok ()) := by
  unfold verifyShortCircuit at h
  split at h
  · rename_i hd; exact .inl hd
  · split at h
    · cases h
    · rename_i ha
      right
      refine ⟨by simpa using ha, ?_⟩
      cases hc : createTbsHash cfg C x.params.alg x.prot.ub aad x.payload.ub (maxHashSize cfg) with
      | error e => rw [hc] at h; cases h
      | ok hash => rw [hc] at h; exact ⟨hash, rfl, h⟩

theorem verifyDefault_ok {cfg : Config} {C : Crypto} {me : VerifyCtx} {x : Decoded} {aad : UB}
    (h : verifyDefault cfg C me x.params x.sig.ub x.prot.ub aad x.payload.ub = .ok ()) :
    hasFlag me.flags optDecodeOnly = true ∨
      ∃ hash, createTbsHash cfg C x.params.alg x.prot.ub aad x.payload.ub (maxHashSize cfg)
        = .ok hash ∧
        C.verify x.params.alg me.key (x.params.kid.map (·.bytes)) hash x.sig.ub.bytes = .ok () := by
  unfold verifyDefault at h
  split at h
  · rename_i hd; exact .inl hd
  · right
    cases hc : createTbsHash cfg C x.params.alg x.prot.ub aad x.payload.ub (maxHashSize cfg) with
    | error e => rw [hc] at h; cases h
    | ok hash => rw [hc] at h; exact ⟨hash, rfl, h⟩

/-- `sign1_verify_eddsa` in one line, for well-formed buffers. -/
theorem verifyEddsa_eq {C : Crypto} {me : VerifyCtx} {x : Decoded} {aad : UB} (hw : x.Wf aad) :
    verifyEddsa C me x.params x.sig.ub x.prot.ub aad x.payload.ub =
      if me.aux.cap < (x.tbs aad).length then (.error .auxiliaryBufferSize, me, false)
      else
        (if hasFlag me.flags optDecodeOnly = true then .ok ()
         else if me.aux.isNull = true then .error .needAuxiliaryBuffer
         else C.verifyEddsa me.key (x.params.kid.map (·.bytes)) (x.tbs aad) x.sig.ub.bytes,
         { me with auxSize := (x.tbs aad).length }, false) := by
  unfold verifyEddsa
  rw [createTbs_run me.aux (UB.wf_src hw.prot _) (UB.wf_src hw.aad _) (UB.wf_src hw.payload _)]
  change _ = if me.aux.cap < (sigStructure _ _ _).length then _ else _
  by_cases hc : me.aux.cap < (sigStructure x.prot.ub.bytes aad.bytes x.payload.ub.bytes).length
  · rw [if_pos hc, if_pos hc]
  · rw [if_neg hc, if_neg hc]
    simp only
    have hlen : (seen me.aux.isNull (sigStructure x.prot.ub.bytes aad.bytes
        x.payload.ub.bytes)).len = (x.tbs aad).length := by
      unfold seen
      split <;> rfl
    rw [hlen]
    by_cases hd : hasFlag me.flags optDecodeOnly = true
    · rw [if_pos hd, if_pos hd]
    · rw [if_neg hd, if_neg hd]
      cases hn : me.aux.isNull with
      | true => simp
      | false => simp [seen, UB.bytes, Decoded.tbs]

theorem verifyEddsa_ok {C : Crypto} {me me' : VerifyCtx} {x : Decoded} {aad : UB} {ub : Bool}
    (hw : x.Wf aad)
    (h : verifyEddsa C me x.params x.sig.ub x.prot.ub aad x.payload.ub = (.ok (), me', ub)) :
    (x.tbs aad).length ≤ me.aux.cap ∧ me' = { me with auxSize := (x.tbs aad).length } ∧
    (hasFlag me.flags optDecodeOnly = true ∨
      (me.aux.isNull = false ∧
        C.verifyEddsa me.key (x.params.kid.map (·.bytes)) (x.tbs aad) x.sig.ub.bytes = .ok ())) := by
  rw [verifyEddsa_eq hw] at h
  split at h
  · simp at h
  · rename_i hc
    simp only [Prod.mk.injEq] at h
    refine ⟨by omega, h.2.1.symm, ?_⟩
    have h1 := h.1
    split at h1
    · rename_i hd; exact .inl hd
    · split at h1
      · cases h1
      · rename_i hn
        exact .inr ⟨by simpa using hn, h1⟩

theorem DecodesTo.wf {cfg : Config} {P : QParams} {v : MsgView} {pay : VPayload} {x : Decoded}
    (h : DecodesTo cfg P v pay x) {aad : UB} (ha : aad.wf)
    (hp : ∀ p, pay = .detached p → p.wf) : x.Wf aad := by
  refine ⟨by rw [h.prot]; rfl, ha, ?_⟩
  have := h.payload
  cases pay with
  | inline w =>
    obtain ⟨s, -, -, hb⟩ := this
    rw [hb]; rfl
  | detached p =>
    rw [this.2]
    exact hp p rfl

end TCose
