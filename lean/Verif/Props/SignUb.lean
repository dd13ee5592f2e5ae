import Verif.Lemmas.SignUb
import Verif.Props.SignOutcome

/-!
# Signing: when exactly something undefined happens (C43)
-/

namespace TCose.Props
open TCose Spec

/-- Signing that ends before a signature is to be made does nothing undefined in a
size query. -/
theorem null_ends (cfg : Config) (C : Crypto) (me : SignCtx) (det : Bool) (payload aad : UB) (n : Nat)
    (me1 : SignCtx) (e0 : Enc)
    (henc : encodeParametersInternal cfg me det (Enc.init (.null n)) = (.ok (), me1, e0))
    (h : (closePayload (if det then payload else .nil)
      (if det then e0.addNull else e0.addEncoded payload)).1.errState ≠ .ok) :
    (signAadInternal cfg C me det payload aad (.null n)).2.2.ub = false := by
  have hs : Safe n true (closePayload (if det then payload else .nil)
      (if det then e0.addNull else e0.addEncoded payload)).1 := by
    obtain ⟨h1, -⟩ := (Safe.init (.null n)).params cfg me det
    rw [henc] at h1
    have h1 : Safe n true e0 := h1
    have h3 : Safe n true (if det then e0.addNull else e0.addEncoded payload) := by
      split
      · exact h1.addItem _ (.nil _)
      · exact h1.addItem _ (.inl rfl)
    generalize (if det then e0.addNull else e0.addEncoded payload) = e1 at h3
    generalize (if det then payload else .nil) = dp
    unfold closePayload
    cases dp.isNull with
    | true => exact h3.closeLevel _ _
    | false => exact h3
  have ht : signAadInternal cfg C me det payload aad (.null n)
      = signTail cfg C me1 aad (if det then payload else .nil)
          (if det then e0.addNull else e0.addEncoded payload) := by
    unfold signAadInternal
    rw [henc]
    rfl
  rw [ht, signTail_ub]
  exact (encSig_ub hs).1 h

/-- The size query for EdDSA with a real auxiliary buffer. -/
theorem null_ub (cfg : Config) (C : Crypto) (me : SignCtx) (det : Bool) (payload aad : UB) (n : Nat)
    (m : Bytes) (hp : payload.wf) (hpre : SignPre cfg me) (halg : me.alg = -8)
    (hsc : Spec.Opt.shortCircuit me.flags = false) (hx : me.aux = .buf m)
    (hd : det = true → payload.isNull = false)
    (hl : det = true ∨ begun cfg me true [] ≤ 2 ^ 32 - 9) :
    (signAadInternal cfg C me det payload aad (.null n)).2.2.ub =
      decide (15 ≤ m.length ∧ begun cfg me det payload.bytes ≤ n) := by
  rw [begun_eq hpre.ct] at hl ⊢
  have hH : det = true ∨ (tagPart me ++ hdrBytes cfg me).length < Enc.maxStart := by
    refine hl.imp id fun h => ?_
    simp only [preSig, payPart, if_true, List.length_append, List.length_cons, List.length_nil] at h
    simp only [List.length_append, Enc.maxStart]
    omega
  obtain ⟨pp, dp, e1, hst, hrel, hsm⟩ := sign_stage cfg C me det payload aad payload.bytes (.null n)
    hpre (payArg_wf hp hd _) hH
  rw [hst, signTail_ub]
  have hsafe : Safe n true (closePayload dp e1).1 := ⟨hrel.cap_eq, hrel.nul_eq, hrel.ub, hrel.le⟩
  obtain ⟨u1, u2⟩ := encSig_ub (cfg := cfg) (C := C) (me := { me with protectedParams := pp })
    (aad := aad) hsafe
  by_cases hc : begun cfg me det payload.bytes ≤ n
  all_goals rw [begun_eq hpre.ct] at hc
  · have hsmall : (closePayload dp e1).1.small = false := by
      cases hh : (closePayload dp e1).1.small with
      | false => rfl
      | true =>
        have := hrel.small hh
        simp only [preSig] at hc
        simp only [Mem.cap] at this
        omega
    have hok : (closePayload dp e1).1.errState = .ok := by
      have := (hrel.good hsmall).2.1
      unfold Enc.errState
      rw [hsmall, this]; rfl
    obtain ⟨hps, hpp⟩ := hsm hsmall
    rw [u2 hok]
    unfold signDispatch
    have hf : hasFlag me.flags optShortCircuit = false := by rw [← opt_shortCircuit]; exact hsc
    have hdis := eddsa_on hpre halg
    simp only [hf, Bool.and_false, Bool.false_eq_true, if_false]
    rw [if_pos (by rw [hdis, halg]; rfl)]
    have hprot : (closePayload dp e1).1.openBytes.1.deref pp = .null 3 := by
      rw [hpp, halg]; rfl
    rw [hprot]
    have hub := createTbs_ub 3 (by decide) (by decide) aad (closePayload dp e1).2 m
    have hr : (signEddsa C { me with protectedParams := pp } (.null 3) aad (closePayload dp e1).2
        .null).2.2 = (createTbs (.null 3) aad (closePayload dp e1).2 (.buf m)).2 := by
      unfold signEddsa
      rw [hx]
      generalize createTbs (.null 3) aad (closePayload dp e1).2 (.buf m) = q
      obtain ⟨r, b⟩ := q
      cases r with
      | error x => cases x <;> rfl
      | ok t => rfl
    rw [hr, hub]
    simp [hc]
  · have hsmall : (closePayload dp e1).1.small = true := by
      cases hh : (closePayload dp e1).1.small with
      | true => rfl
      | false =>
        have h1 := (hrel.good hh).1
        have h2 := hrel.le
        simp only [preSig] at hc
        simp only [Mem.cap] at h1 h2
        omega
    rw [u1 (by unfold Enc.errState; rw [hsmall]; simp)]
    simp [hc]

/-- **C43 (when exactly).** Signing does something undefined exactly in this case:
the context is one that can sign, with EdDSA and without the short-circuit option; a
real auxiliary buffer of 15 octets or more is registered (room for the text
"Signature1", the head of the protected header and the protected header of three
octets); the output buffer is NULL and its size has room for everything before the
signature; a detached payload is not NULL, and the headers before an inline payload
end below the limit of QCBOR. -/
theorem C43_ub_iff (cfg : Config) (C : Crypto) (hfit : Spec.SignFits C) (me : SignCtx) (det : Bool)
    (payload aad : UB) (hp : payload.wf) (ha : aad.wf) (out : Mem) :
    (signAadInternal cfg C me det payload aad out).2.2.ub = true ↔
      ctxFault cfg me = none ∧ me.alg = -8 ∧ Spec.Opt.shortCircuit me.flags = false ∧
      (∃ m, me.aux = .buf m ∧ 15 ≤ m.length) ∧
      (∃ n, out = .null n ∧ begun cfg me det payload.bytes ≤ n) ∧
      (det = true → payload.isNull = false) ∧
      (det = true ∨ begun cfg me true [] ≤ 2 ^ 32 - 9) := by
  by_cases hcase : me.alg = algEDDSA ∧ Spec.Opt.shortCircuit me.flags = false ∧
      me.aux.isNull = false ∧ out.isNull = true
  rotate_left
  · rw [C43_no_ub_partial cfg C hfit me det payload aad hp ha out hcase]
    constructor
    · intro h; cases h
    · rintro ⟨-, h1, h2, ⟨m, h3, -⟩, ⟨n, h4, -⟩, -⟩
      exact absurd ⟨h1, h2, by rw [h3]; rfl, by rw [h4]; rfl⟩ hcase
  · obtain ⟨halg, hsc, hx, ho⟩ := hcase
    cases hf : ctxFault cfg me with
    | some x =>
      have hub : (signAadInternal cfg C me det payload aad out).2.2.ub = false := by
        have h1 := ctxFault_params hf det (Enc.init out)
        obtain ⟨h2, -⟩ := (Safe.init out).params cfg me det
        unfold signAadInternal
        generalize encodeParametersInternal cfg me det (Enc.init out) = q at h1 h2
        obtain ⟨r, me1, e1⟩ := q
        simp only at h1
        subst h1
        exact h2.ub
      rw [hub]
      constructor <;> intro h
      · cases h
      · cases h.1
    | none =>
      have hpre := ctxFault_none hf
      obtain ⟨m, hm⟩ : ∃ m, me.aux = .buf m := by
        cases hq : me.aux with
        | buf m => exact ⟨m, rfl⟩
        | null c => rw [hq] at hx; cases hx
      obtain ⟨n, hn⟩ : ∃ n, out = .null n := by
        cases hq : out with
        | null c => exact ⟨c, rfl⟩
        | buf m => rw [hq] at ho; cases ho
      subst hn
      obtain ⟨pp, e0, henc, hrel, -⟩ := params_ok (o := []) (ns := []) cfg me det
        (Rel.init_rel (.null n)) trivial (by simp) (by simp [Enc.maxStart]) hpre.alg hpre.sc hpre.ct
      by_cases hd : det = true → payload.isNull = false
      rotate_left
      · have hdt : det = true := by cases det <;> simp_all
        have hpn : payload.isNull = true := by
          cases hq : payload.isNull <;> simp_all
        subst hdt
        have : (signAadInternal cfg C me true payload aad (.null n)).2.2.ub = false := by
          refine null_ends cfg C me true payload aad n _ e0 henc ?_
          simp only [if_true] at hrel ⊢
          have h2 := hrel.addNull_rel
          rw [Ideal.addNull, Ideal.addItem_cons (by decide) (by decide)] at h2
          have h3 := h2.closeBstr_rel
          unfold closePayload
          rw [if_pos hpn]
          refine Rel.errState_ne_ok h3 ?_
          simp [Ideal.closeBstr, Ideal.closeLevel]
        rw [this]
        simp [hpn]
      by_cases hl : det = true ∨ begun cfg me true [] ≤ 2 ^ 32 - 9
      rotate_left
      · obtain ⟨hdt, hbig⟩ : det = false ∧ 2 ^ 32 - 9 < begun cfg me true [] := by
          cases det <;> simp_all
        subst hdt
        have : (signAadInternal cfg C me false payload aad (.null n)).2.2.ub = false := by
          refine null_ends cfg C me false payload aad n _ e0 henc ?_
          have hhdr : hdrOut cfg me [] = tagPart me ++ hdrBytes cfg me := by
            simp [hdrOut, o1, tagPart, hdrBytes]
          simp only [Bool.false_eq_true, if_false] at hrel ⊢
          rw [hhdr] at hrel
          rw [begun_eq hpre.ct] at hbig
          have hH : Enc.maxStart ≤ (tagPart me ++ hdrBytes cfg me).length := by
            simp only [preSig, payPart, if_true, List.length_append, List.length_cons,
              List.length_nil] at hbig
            simp only [List.length_append, Enc.maxStart]
            omega
          have herr := Ideal.openLevel_big (o := tagPart me ++ hdrBytes cfg me)
            (ns := ⟨.arr, (o1 me []).length, 2⟩ :: bumpN []) .bstr ⟨by simp, by simp⟩ hH
          obtain ⟨w, hw⟩ : ∃ w, Src true payload w := ⟨_, UB.wf_src hp _⟩
          have h2 := hrel.addEncoded_rel hw
          have hsome : (Ideal.bstrWrap ⟨tagPart me ++ hdrBytes cfg me, none,
              ⟨.arr, (o1 me []).length, 2⟩ :: bumpN []⟩).err.isSome := by
            rw [Ideal.bstrWrap, herr]; rfl
          rw [Ideal.addEncoded, Ideal.addItem_err hsome] at h2
          have h3 := h2.closeBstr_rel
          rw [Ideal.closeBstr, Ideal.closeLevel_err hsome] at h3
          exact h3.errState_ne_ok hsome
        rw [this]
        constructor
        · intro h; cases h
        · rintro ⟨-, -, -, -, -, -, h⟩
          exact absurd h hl
      rw [null_ub cfg C me det payload aad n m hp hpre halg hsc hm hd hl, decide_eq_true_iff]
      constructor
      · rintro ⟨a, b⟩
        exact ⟨rfl, halg, hsc, ⟨m, hm, a⟩, ⟨n, rfl, b⟩, hd, hl⟩
      · rintro ⟨-, -, -, ⟨m', h1, h2⟩, ⟨n', h3, h4⟩, -⟩
        rw [hm] at h1
        cases h1
        cases h3
        exact ⟨h2, h4⟩

/-- The borders: 15 octets of auxiliary buffer and one less; a size that has room for
the 8 octets before the signature and one less. -/
example : begun Config.full { SignCtx.init 0 algEDDSA with aux := .buf [] } false [1] = 8 ∧
    [(14, 100), (15, 100), (15, 8), (15, 7)].map (fun q =>
      (sign1Sign Config.full toyCrypto { SignCtx.init 0 algEDDSA with aux := .buf (List.replicate q.1 0) }
        (.data [1]) (.null q.2)).2.2.ub) = [false, true, true, false] := by decide +kernel

end TCose.Props
