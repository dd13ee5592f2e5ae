import Verif.Props.NestedQuery
import Verif.Props.SignUb

/-!
# Two-step signing: when something undefined happens (C43)
-/

namespace TCose.Props
open TCose Spec

variable {cfg : Config} {C : Crypto} {me : SignCtx}

theorem op_safe (o : EncOp) {cap : Nat} {nul : Bool} {e : Enc} (h : Safe cap nul e) :
    Safe cap nul (o.run e) := by
  cases o with
  | int i => exact h.addItem _ (.nil _)
  | uint n => exact h.addItem _ (.nil _)
  | bytes b => exact h.addItem _ (.inr rfl)
  | text b => exact h.addItem _ (.inr rfl)
  | raw b => exact h.addItem _ (.inr rfl)
  | null => exact h.addItem _ (.nil _)
  | tag t => exact h.addTag t
  | openArray => exact h.openLevel _
  | closeArray => exact h.closeLevel _ _
  | openMap => exact h.openLevel _
  | closeMap => exact h.closeLevel _ _
  | openWrap => exact h.openLevel _
  | closeWrap => exact h.closeLevel _ _

theorem ops_safe : ∀ (os : List EncOp) {cap : Nat} {nul : Bool} {e : Enc}, Safe cap nul e →
    Safe cap nul (runOps os e) := by
  intro os
  induction os with
  | nil => intro cap nul e h; exact h
  | cons o os ih => intro cap nul e h; exact ih (op_safe o h)

variable (cfg C me)

/-- **C43 (two-step signing, any calls).** Whatever encoder calls the caller makes before
and between the two calls of t_cose — also wrong ones, and also when calls failed —
nothing undefined is done and the buffer keeps its size, except perhaps with EdDSA
without the short-circuit option, a real auxiliary buffer and a NULL output buffer. -/
theorem C43_two_step_no_ub_partial (hfit : Spec.SignFits C) (ops ops2 : List EncOp) (aad : UB)
    (ha : aad.wf) (out : Mem)
    (h : ¬ (me.alg = algEDDSA ∧ Spec.Opt.shortCircuit me.flags = false ∧
      me.aux.isNull = false ∧ out.isNull = true))
    {me1 : SignCtx} {e1 : Enc} {r : Except Err Unit}
    (hp : sign1EncodeParameters cfg me (runOps ops (Enc.init out)) = (r, me1, e1)) :
    e1.ub = false ∧ e1.mem.cap = out.cap ∧ e1.len ≤ out.cap ∧
    (r = .ok () →
      (sign1EncodeSignatureAad cfg C me1 aad (runOps ops2 e1)).2.2.ub = false ∧
      (sign1EncodeSignatureAad cfg C me1 aad (runOps ops2 e1)).2.2.mem.cap = out.cap ∧
      (sign1EncodeSignatureAad cfg C me1 aad (runOps ops2 e1)).2.2.len ≤ out.cap) := by
  obtain ⟨h1, h2⟩ := (ops_safe ops (Safe.init out)).params cfg me false
  unfold sign1EncodeParameters at hp
  have hsc := fun hh => (params_ok_pre (cfg := cfg) (me := me) (det := false)
    (e := runOps ops (Enc.init out)) hh).sc
  rw [hp] at h1 h2 hsc
  refine ⟨h1.ub, h1.cap_eq, h1.le, fun hr => ?_⟩
  obtain ⟨pp, hme, hpp⟩ := h2 hr
  simp only at hme
  subst hme
  have h4 := encSig_safe (cfg := cfg) (C := C) (me := { me with protectedParams := pp }) (aad := aad)
    (dp := .nil) (ops_safe ops2 h1) hfit (hsc hr) hpp (by
      rintro ⟨x1, x2, x3⟩
      refine ⟨?_, ha⟩
      cases ho : out.isNull with
      | false => rfl
      | true => exact absurd ⟨x1, x2, x3, ho⟩ h)
  exact ⟨h4.ub, h4.cap_eq, h4.le⟩

/-- **C43 (two-step signing, when exactly).** With a COSE_Sign1 started after any encoder
calls `ops` and a payload written with any calls `cs`, something undefined is done exactly
in this case: EdDSA without the short-circuit option, a real auxiliary buffer of 15
octets or more, and a NULL output buffer whose size has room for what was counted before
the signature.  The first call never does it. -/
theorem C43_two_step_ub_iff (hfit : Spec.SignFits C) (ops : List EncOp) (out : Mem)
    (cs : List Content) (d : Nat) (aad : UB) (ha : aad.wf)
    (h0 : StartOk (runOps ops (Enc.init out)))
    (hd : fitsAll cs d = true) (hdd : (runOps ops (Enc.init out)).nest.length + d ≤ 13)
    (hn : cs.length ≤ 65534)
    (hlt : (runOps ops (Enc.init out)).len + me.kid.bytes.length
      + (me.contentTypeTstr.getD []).length + (encAll cs).length + 128 < 2 ^ 32)
    {me1 : SignCtx} {e1 : Enc}
    (hp : sign1EncodeParameters cfg me (runOps ops (Enc.init out)) = (.ok (), me1, e1)) :
    e1.ub = false ∧
    ((sign1EncodeSignatureAad cfg C me1 aad (runAll cs e1)).2.2.ub = true ↔
      me.alg = -8 ∧ Spec.Opt.shortCircuit me.flags = false ∧
      (∃ m, me.aux = .buf m ∧ 15 ≤ m.length) ∧
      ∃ n, out = .null n ∧
        (runOps ops (Enc.init out)).len + begun cfg me false (encAll cs) ≤ n) := by
  obtain ⟨s1, s2⟩ := (ops_safe ops (Safe.init out)).params cfg me false
  have hf : ctxFault cfg me = none := by
    cases hf : ctxFault cfg me with
    | none => rfl
    | some x => have := params_fault hf (runOps ops (Enc.init out)); rw [hp] at this; cases this
  have hpre : SignPre cfg me := ctxFault_none hf
  obtain ⟨⟨o, er, ns⟩, hr⟩ := ops_rel ops (Rel.init_rel out)
  obtain ⟨g1, g2, g3, -⟩ := hr.good h0.small
  simp only at g1 g2 g3
  have : er = none := by rw [← g2]; exact h0.err
  subst this
  have hdep := h0.depth
  have hlvl := h0.lvl
  rw [g3] at hdep hlvl hdd
  rw [g1] at hlt
  have hlo : LvlOk ns := by
    cases ns with
    | nil => trivial
    | cons n ns => exact hlvl n rfl
  obtain ⟨pp, e1', henc, ⟨a1, hrel1⟩, hrel, hlen, hbeg, hst⟩ := nested_stage hr hlo hdep hd hdd hn hlt hpre
  have henc' := henc
  rw [hp] at henc'
  obtain ⟨rfl, rfl⟩ : me1 = { me with protectedParams := pp } ∧ e1 = e1' := by
    injection henc' with _ h
    injection h with a b
    exact ⟨a, b⟩
  unfold sign1EncodeParameters at henc
  rw [henc] at s1 s2
  simp only at s1 s2
  refine ⟨s1.ub, ?_⟩
  have hsafe : Safe out.cap out.isNull (closePayload .nil (runAll cs e1)).1 :=
    ⟨hrel.cap_eq, hrel.nul_eq, hrel.ub, hrel.le⟩
  unfold sign1EncodeSignatureAad
  rw [g1, ← hbeg]
  by_cases hc : out.cap < (o1 me o ++ (hdrBytes cfg me ++ bstrBytes (encAll cs))).length
  · -- there is no room even for the beginning
    have hsm := (small_iff hrel).mpr hc
    have hub : (encodeSignatureInternal cfg C { me with protectedParams := pp } aad .nil
        (runAll cs e1)).2.2.ub = false := by
      unfold encodeSignatureInternal
      have h3 : (closePayload .nil (runAll cs e1)).1.errState = .tooSmall := by
        unfold Enc.errState; rw [hsm]; rfl
      generalize closePayload .nil (runAll cs e1) = q at h3 hsafe
      obtain ⟨q1, q2⟩ := q
      simp only at h3 hsafe
      simp only [h3]
      exact hsafe.ub
    rw [hub]
    constructor
    · intro h; cases h
    · rintro ⟨-, -, -, n, rfl, h⟩
      simp only [Mem.cap] at hc
      omega
  have hs : (closePayload .nil (runAll cs e1)).1.small = false := by
    cases hq : (closePayload .nil (runAll cs e1)).1.small with
    | false => rfl
    | true => exact absurd ((small_iff hrel).mp hq) hc
  have hok : (closePayload .nil (runAll cs e1)).1.errState = .ok := by
    have := (hrel.good hs).2.1
    unfold Enc.errState
    rw [hs, this]; rfl
  obtain ⟨hpay, hpp⟩ := hst hs
  cases out with
  | buf m =>
    have hcl : Safe m.length false (runAll cs e1) :=
      ⟨hrel1.cap_eq, hrel1.nul_eq, hrel1.ub, hrel1.le⟩
    have hub : (encodeSignatureInternal cfg C { me with protectedParams := pp } aad .nil
        (runAll cs e1)).2.2.ub = false := by
      refine (encSig_safe (me := { me with protectedParams := pp }) (cap := m.length) (nul := false) hcl hfit hpre.sc (.inr ?_) ?_).ub
      · intro n hh
        rw [hpp] at hh
        simp [Mem.isNull] at hh
      · intro _; exact ⟨rfl, ha⟩
    rw [hub]
    constructor
    · intro h; cases h
    · rintro ⟨-, -, -, n, h, -⟩; cases h
  | null n =>
    simp only [Mem.cap] at hc
    obtain ⟨-, u2⟩ := encSig_ub (cfg := cfg) (C := C) (me := { me with protectedParams := pp })
      (aad := aad) (dp := .nil) (e := runAll cs e1) (cap := n) hsafe
    rw [u2 hok]
    by_cases hcase : me.alg = -8 ∧ Spec.Opt.shortCircuit me.flags = false ∧ ∃ m, me.aux = .buf m
    · obtain ⟨halg, hsc, m, hx⟩ := hcase
      unfold signDispatch
      have hfl : hasFlag me.flags optShortCircuit = false := by rw [← opt_shortCircuit]; exact hsc
      have hdis := eddsa_on hpre halg
      simp only [hfl, Bool.and_false, Bool.false_eq_true, if_false]
      rw [if_pos (by rw [hdis, halg]; rfl)]
      have hprot : (closePayload .nil (runAll cs e1)).1.openBytes.1.deref pp = .null 3 := by
        rw [hpp, halg]; rfl
      rw [hprot]
      have hub := createTbs_ub 3 (by decide) (by decide) aad (closePayload .nil (runAll cs e1)).2 m
      have hr : (signEddsa C { me with protectedParams := pp } (.null 3) aad
          (closePayload .nil (runAll cs e1)).2 .null).2.2 =
          (createTbs (.null 3) aad (closePayload .nil (runAll cs e1)).2 (.buf m)).2 := by
        unfold signEddsa
        rw [hx]
        generalize createTbs (.null 3) aad (closePayload .nil (runAll cs e1)).2 (.buf m) = q
        obtain ⟨r, b⟩ := q
        cases r with
        | error x => cases x <;> rfl
        | ok t => rfl
      rw [hr, hub, decide_eq_true_iff]
      constructor
      · intro h
        exact ⟨halg, hsc, ⟨m, hx, h⟩, n, rfl, by omega⟩
      · rintro ⟨-, -, ⟨m', h1, h2⟩, -⟩
        rw [hx] at h1
        cases h1
        exact h2
    · have hub : (signDispatch cfg C { me with protectedParams := pp }
          ((closePayload .nil (runAll cs e1)).1.openBytes.1.deref pp) aad
          (closePayload .nil (runAll cs e1)).2 .null).2.2 = false := by
        refine signDispatch_ub' (me := { me with protectedParams := pp }) hpre.sc ?_ _
        rintro ⟨x1, x2, x3⟩
        refine absurd ⟨x1, x2, ?_⟩ hcase
        cases hq : me.aux with
        | buf m => exact ⟨m, rfl⟩
        | null k => simp only [hq] at x3; cases x3
      simp only at hub ⊢
      rw [hub]
      constructor
      · intro h; cases h
      · rintro ⟨a, b, ⟨m, c, -⟩, -⟩
        exact absurd ⟨a, b, m, c⟩ hcase

/- The borders, in an array after a label: 15 octets of auxiliary buffer and one less; a
size that has room for the octets before the signature and one less. -/
example : [(14, 200), (15, 200), (15, 34), (15, 33)].map (fun q =>
    match sign1EncodeParameters Config.full
        { exCtx with alg := algEDDSA, aux := .buf (List.replicate q.1 0) }
        (runOps [.openArray, .int 500, .openWrap] (Enc.init (.null q.2))) with
    | (.ok (), me1, e1) =>
      (sign1EncodeSignatureAad Config.full toyCrypto me1 .nil (runAll exContent e1)).2.2.ub
    | (.error _, _, _) => false) = [false, true, true, false] ∧
    begun Config.full { exCtx with alg := algEDDSA } false (encAll exContent) = 31 := by
  decide +kernel

/- Wrong calls between: closing levels of t_cose. -/
example : (match sign1EncodeParameters Config.full exCtx (Enc.init (.buf (List.replicate 200 0))) with
    | (.ok (), me1, e1) =>
      let r := sign1EncodeSignatureAad Config.full toyCrypto me1 .nil
        (runOps [.closeWrap, .closeArray, .closeMap] e1)
      (r.1, r.2.2.ub)
    | (.error x, _, _) => (.error x, true)) = (.error .cborFormatting, false) := by
  decide +kernel

end TCose.Props
