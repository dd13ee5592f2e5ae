import Verif.Props.Auxiliary
import Verif.Props.Unsigned

/-!
# C114: the auxiliary buffer of the signer
-/

namespace TCose.Props
open TCose Spec

variable {cfg : Config} {C : Crypto} {D : Int → Bytes → Bytes} {me : SignCtx} {det : Bool} {payload aad : UB} {N : Nat} {a : Mem}

/-- One of both fails for want of an auxiliary buffer that is large enough. -/
def WantsAux {α β : Type} (r : Except Err α) (r' : Except Err β) : Prop :=
  ∃ e, (e = .auxiliaryBufferSize ∨ e = .needAuxiliaryBuffer) ∧ (r = .error e ∨ r' = .error e)

theorem makeSig_aux (p q : Bytes) (d : Except Err Bytes) (n : Nat) :
    makeSig C { me with aux := a } p q d n = makeSig C me p q d n ∨
    ((me.alg = -8 ∧ Opt.shortCircuit me.flags = false) ∧
      WantsAux (makeSig C { me with aux := a } p q d n) (makeSig C me p q d n)) := by
  have ht : toBeSigned { me with aux := a } p q = toBeSigned me p q := rfl
  unfold makeSig
  rw [ht]
  dsimp only
  by_cases h1 : Opt.shortCircuit me.flags = true
  · exact .inl (by simp only [if_pos h1])
  simp only [if_neg h1]
  by_cases h2 : me.alg = -8
  rotate_left
  · exact .inl (by simp only [if_neg h2])
  simp only [if_pos h2]
  by_cases g1 : a.cap < (toBeSigned me p q).length
  · exact .inr ⟨⟨h2, by simpa using h1⟩, _, .inl rfl, .inl (by rw [if_pos g1])⟩
  by_cases g2 : me.aux.cap < (toBeSigned me p q).length
  · exact .inr ⟨⟨h2, by simpa using h1⟩, _, .inl rfl, .inr (by rw [if_pos g2])⟩
  by_cases g3 : a.isNull = true
  · exact .inr ⟨⟨h2, by simpa using h1⟩, _, .inr rfl, .inl (by rw [if_neg g1, if_pos g3])⟩
  by_cases g4 : me.aux.isNull = true
  · exact .inr ⟨⟨h2, by simpa using h1⟩, _, .inr rfl, .inr (by rw [if_neg g2, if_pos g4])⟩
  exact .inl (by rw [if_neg g1, if_neg g2, if_neg g3, if_neg g4])

theorem askSize_aux (p q : Bytes) (d : Except Err Bytes) :
    askSize C { me with aux := a } p q d = askSize C me p q d ∨
    ((me.alg = -8 ∧ Opt.shortCircuit me.flags = false) ∧
      WantsAux (askSize C { me with aux := a } p q d) (askSize C me p q d)) := by
  have ht : toBeSigned { me with aux := a } p q = toBeSigned me p q := rfl
  unfold askSize
  rw [ht]
  dsimp only
  by_cases h1 : Opt.shortCircuit me.flags = true
  · exact .inl (by simp only [if_pos h1])
  simp only [if_neg h1]
  by_cases h2 : me.alg = -8
  rotate_left
  · exact .inl (by simp only [if_neg h2])
  simp only [if_pos h2]
  by_cases g1 : a.cap < (toBeSigned me p q).length
  · exact .inr ⟨⟨h2, by simpa using h1⟩, _, .inl rfl, .inl (by rw [if_pos g1])⟩
  by_cases g2 : me.aux.cap < (toBeSigned me p q).length
  · exact .inr ⟨⟨h2, by simpa using h1⟩, _, .inl rfl, .inr (by rw [if_pos g2])⟩
  exact .inl (by rw [if_neg g1, if_neg g2])

/-- **C114.** Signing with another auxiliary buffer has the same result, with the error code or the octets of the message,
unless the algorithm is EdDSA, the signature is not a short-circuit one, and one of the two calls fails for want of a buffer
that is large enough. -/
theorem C114_signer_auxiliary (hfit : SignFits C) (hD : Hashes N cfg C D me.alg) (ha : ProperArgs N cfg me det payload aad)
    (m : Bytes) :
    let before := signed cfg C me det payload aad m
    let after := signed cfg C { me with aux := a } det payload aad m
    after = before ∨ ((me.alg = -8 ∧ Opt.shortCircuit me.flags = false) ∧ WantsAux after before) := by
  intro before after
  have ha' : ProperArgs N cfg { me with aux := a } det payload aad := ⟨ha.1, ha.2, ha.3, ha.4, ha.5⟩
  have hb : before = _ := signed_eq hfit hD ha m
  have hc : after = _ := signed_eq (me := { me with aux := a }) hfit hD ha' m
  generalize before = before at hb ⊢
  generalize after = after at hc ⊢
  have hd : toBeSignedHash cfg D { me with aux := a } payload.bytes aad.bytes = toBeSignedHash cfg D me payload.bytes aad.bytes := rfl
  have hf : ctxFault cfg { me with aux := a } = ctxFault cfg me := rfl
  have hbe : begun cfg { me with aux := a } det payload.bytes = begun cfg me det payload.bytes := rfl
  have hfi : ∀ s, finished cfg { me with aux := a } det payload.bytes s = finished cfg me det payload.bytes s := fun _ => rfl
  unfold outcome at hb hc
  rw [hd, hf, hbe] at hc
  simp only [hfi] at hc
  cases hx : ctxFault cfg me with
  | some x =>
    rw [hx] at hb hc
    exact .inl (by rw [hb, hc])
  | none =>
    rw [hx] at hb hc
    simp only at hb hc
    by_cases g1 : m.length < begun cfg me det payload.bytes
    · rw [if_pos g1] at hb hc
      exact .inl (by rw [hb, hc])
    rw [if_neg g1] at hb hc
    by_cases g2 : m.length = begun cfg me det payload.bytes
    · rw [if_pos g2] at hb hc
      rcases askSize_aux (C := C) (me := me) (a := a) payload.bytes aad.bytes
          (toBeSignedHash cfg D me payload.bytes aad.bytes) with h | ⟨h, e, h1, h2⟩
      · rw [h] at hc
        exact .inl (by rw [hb, hc])
      · refine .inr ⟨h, e, h1, ?_⟩
        rcases h2 with h2 | h2
        · rw [h2] at hc; exact .inl (by rw [hc]; rfl)
        · rw [h2] at hb; exact .inr (by rw [hb]; rfl)
    rw [if_neg g2] at hb hc
    rcases makeSig_aux (C := C) (me := me) (a := a) payload.bytes aad.bytes
        (toBeSignedHash cfg D me payload.bytes aad.bytes) (m.length - begun cfg me det payload.bytes) with h | ⟨h, e, h1, h2⟩
    · rw [h] at hc
      exact .inl (by rw [hb, hc])
    · refine .inr ⟨h, e, h1, ?_⟩
      rcases h2 with h2 | h2
      · rw [h2] at hc; exact .inl (by rw [hc]; rfl)
      · rw [h2] at hb; exact .inr (by rw [hb]; rfl)

/-- The hypotheses are met by a context for EdDSA. -/
example : ProperArgs 100 Config.full { exCtx with alg := -8 } false (.data [1, 2, 3]) .nil :=
  ⟨rfl, rfl, by simp, by unfold PiecesUpTo; decide, by decide +kernel⟩

/-- EdDSA with buffers that are large enough, too small and not there; ES256 needs none. -/
example :
    let s := fun alg a => (signed Config.full toyCrypto { exCtx with alg := alg, aux := a } false (.data [1, 2, 3]) .nil
      (List.replicate 200 0)).map (·.bytes.length)
    [Mem.buf (List.replicate 100 0), .buf (List.replicate 50 1), .buf [], .null 100].map (s (-8)) =
      [.ok 87, .ok 87, .error .auxiliaryBufferSize, .error .needAuxiliaryBuffer] ∧
    [Mem.buf (List.replicate 100 0), .null 0].map (s (-7)) = [.ok 87, .ok 87] := by
  decide +kernel

end TCose.Props
