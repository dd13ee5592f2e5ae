import Verif.Props.Asked

/-!
# C113: the auxiliary buffer of the verifier
-/

namespace TCose.Props
open TCose Spec

variable {cfg : Config} {P : QParams} {C : Crypto} {junk : Junk} {me : VerifyCtx} {b : Bytes}
  {aad : UB} {pay : VPayload} {want : Bool} {a : Mem}

/-- The same with another auxiliary buffer in the context. -/
def Effect.withAux (E : Effect) (a : Mem) : Effect := { E with ctx := { E.ctx with aux := a } }

theorem settle_aux (k : Known) (d : Int → Except Err Bytes) (t s : Bytes) :
    (settle cfg C { me with aux := a } k d t s = settle cfg C me k d t s ∧
      (SizeStored cfg { me with aux := a } k t ↔ SizeStored cfg me k t)) ∨
    (cfg.disableEDDSA = false ∧ ∃ e, (e = .auxiliaryBufferSize ∨ e = .needAuxiliaryBuffer) ∧
      (settle cfg C { me with aux := a } k d t s = .error e ∨ settle cfg C me k d t s = .error e)) := by
  unfold settle SizeStored
  dsimp only
  by_cases h1 : Opt.requireKid me.flags = true ∧ k.kid = none
  · exact .inl ⟨by simp only [if_pos h1], by simp only [h1, not_true_eq_false, false_and, and_self]⟩
  by_cases h2 : Opt.unknownCritAllowed me.flags = false ∧ k.blocked
  · exact .inl ⟨by simp only [if_neg h1, if_pos h2], ⟨fun h => absurd h2 h.2.1, fun h => absurd h2 h.2.1⟩⟩
  by_cases h3 : cfg.disableShortCircuit = false ∧ k.kid = some scKid
  · exact .inl ⟨by simp only [if_neg h1, if_neg h2, if_pos h3], ⟨fun h => absurd h3 h.2.2.1, fun h => absurd h3 h.2.2.1⟩⟩
  by_cases he : cfg.disableEDDSA = false ∧ k.alg = algEDDSA
  rotate_left
  · exact .inl ⟨by simp only [if_neg h1, if_neg h2, if_neg h3, if_neg he],
      ⟨fun h => absurd h.2.2.2.1 he, fun h => absurd h.2.2.2.1 he⟩⟩
  simp only [if_neg h1, if_neg h2, if_neg h3, if_pos he]
  by_cases g1 : a.cap < t.length
  · exact .inr ⟨he.1, _, .inl rfl, .inl (by rw [if_pos g1])⟩
  by_cases g2 : me.aux.cap < t.length
  · exact .inr ⟨he.1, _, .inl rfl, .inr (by rw [if_pos g2])⟩
  simp only [if_neg g1, if_neg g2]
  have hs : t.length ≤ a.cap ∧ t.length ≤ me.aux.cap := by omega
  by_cases hd : Opt.decodeOnly me.flags = true
  · exact .inl ⟨by simp only [if_pos hd], by simp only [hs]⟩
  simp only [if_neg hd]
  by_cases g3 : a.isNull = true
  · exact .inr ⟨he.1, _, .inr rfl, .inl (by rw [if_pos g3])⟩
  by_cases g4 : me.aux.isNull = true
  · exact .inr ⟨he.1, _, .inr rfl, .inr (by rw [if_pos g4])⟩
  exact .inl ⟨by simp only [if_neg g3, if_neg g4], by simp only [hs]⟩

/-- **C113.** Another auxiliary buffer changes nothing, unless the build has EdDSA and one of the two calls fails for want of
a buffer that is large enough. -/
theorem C113_auxiliary (hP : P.maxTags ≤ 4) (hl : P.Local) (hargs : ArgsOk aad pay) :
    let before := effectOf (verifyInternal cfg P C junk me b aad pay want)
    let after := effectOf (verifyInternal cfg P C junk { me with aux := a } b aad pay want)
    after = before.withAux a ∨
    (cfg.disableEDDSA = false ∧ ∃ e, (e = .auxiliaryBufferSize ∨ e = .needAuxiliaryBuffer) ∧
      (after.res = .error e ∨ before.res = .error e)) := by
  intro before after
  have hb := (C95_everything cfg P C junk me b aad pay want hP hl hargs).1
  change before = _ at hb
  generalize before = before at hb ⊢
  have ha := (C95_everything cfg P C junk { me with aux := a } b aad pay want hP hl hargs).1
  change after = _ at ha
  generalize after = after at ha ⊢
  unfold effectAll at hb ha
  by_cases hm : maxMessage < b.length
  · rw [if_pos hm] at ha hb
    exact .inl (by rw [ha, hb]; rfl)
  rw [if_neg hm] at ha hb
  cases hma : messageAt P b with
  | error e =>
    rw [hma] at ha hb
    exact .inl (by rw [ha, hb]; rfl)
  | ok q =>
    rw [hma] at ha hb
    obtain ⟨ts, xs, last, fin⟩ := q
    simp only at ha hb
    by_cases hp : TagPolicy me.flags ts.reverse
    rotate_left
    · rw [if_pos hp] at ha hb
      exact .inl (by rw [ha, hb]; rfl)
    rw [if_neg (not_not_intro hp)] at ha hb
    cases hra : readAll P cfg.disableContentType pay.octets xs last fin with
    | error e =>
      rw [hra] at ha hb
      exact .inl (by rw [ha, hb]; rfl)
    | ok f =>
      rw [hra] at ha hb
      simp only at ha hb
      rcases settle_aux (cfg := cfg) (C := C) (me := me) (a := a) f.known (fun alg => createTbsHash cfg C alg (.data f.prot) aad
          (pay.buffer f.payload) (maxHashSize cfg)) (sigStructure f.prot aad.bytes f.payload) f.sig with ⟨e1, e2⟩ | ⟨h1, e, h2, h3⟩
      · left
        rw [e1] at ha
        simp only [e2] at ha
        rw [ha, hb]
        by_cases hq : SizeStored cfg me f.known (sigStructure f.prot aad.bytes f.payload)
        · simp only [if_pos hq]; split <;> rfl
        · simp only [if_neg hq]; split <;> rfl
      · refine .inr ⟨h1, e, h2, ?_⟩
        rcases h3 with h3 | h3
        · rw [h3] at ha
          exact .inl (by rw [ha]; rfl)
        · rw [h3] at hb
          exact .inr (by rw [hb]; rfl)

/-- A message of EdDSA with buffers that are large enough, too small and not there, and one of ES256 with none. -/
example :
    let v := fun b a => (verifyInternal Config.full QParams.std toyCrypto noJunk { VerifyCtx.init 0 with aux := a } b (.null 0)
      (.inline true) true).res
    let b := (coseSign1 true (-8) none .none (some [1, 2, 3]) (toySig (sigStructure (protectedHeader (-8)) [] [1, 2, 3]))).enc
    [Mem.buf (List.replicate 100 0), .buf (List.replicate 50 0), .buf [], .null 100, .null 0].map (v b) =
      [.ok (), .ok (), .error .auxiliaryBufferSize, .error .needAuxiliaryBuffer, .error .auxiliaryBufferSize] ∧
    [Mem.buf (List.replicate 100 0), .null 0].map (v (devBytes [devAlg] [])) = [.ok (), .ok ()] := by
  decide +kernel

end TCose.Props
