import Verif.TCose.Between
import Verif.Props.TwoStep
import Verif.Lemmas.SignSize
import Verif.Lemmas.SignAux

/-! Helper lemmas: calls on the signing context between the two steps. -/

namespace TCose
open Enc (PRef Place maxStart)

theorem encSig_seeing (cfg : Config) (C : Crypto) (me : SignCtx) (aad dp : UB) (e : Enc) :
    encodeSignatureSeeing cfg C me (fun e => e.deref me.protectedParams) aad dp e =
      encodeSignatureInternal cfg C me aad dp e := rfl

theorem encSee_run {cap : Nat} {nul : Bool} {e : Enc} {o1 body : Bytes} {ns : List Nest}
    (cfg : Config) (C : Crypto) (me : SignCtx) (prot : Enc → UB) (aad dp pay : UB)
    (hc : (closePayload dp e).2 = pay)
    (h : Rel cap nul (closePayload dp e).1 ⟨o1 ++ body, none, ⟨.arr, o1.length, 3⟩ :: ns⟩)
    (hs : (closePayload dp e).1.small = false) (hd : ns.length ≤ 12) :
    match signDispatch cfg C me (prot ((closePayload dp e).1.openLevel .openB)) aad pay
        (placeOf cap nul (o1 ++ body).length) with
    | (.error x, me', _) => ∃ e', encodeSignatureSeeing cfg C me prot aad dp e = (.error x, me', e')
    | (.ok sig, me', ub) => ∃ e', encodeSignatureSeeing cfg C me prot aad dp e = (.ok (), me', e') ∧
        ∀ s, Rel.SigSrc cap nul (o1 ++ body).length sig s → ub = false →
          ((o1 ++ body).length < maxStart → Rel cap nul e' (finalIdeal o1 body s ns)) ∧
          (maxStart ≤ (o1 ++ body).length → ∃ a, Rel cap nul e' a ∧ a.err.isSome) := by
  have hlo : LvlOk (⟨.arr, o1.length, 3⟩ :: ns) := ⟨by simp, by simp⟩
  obtain ⟨g1, g2, g3, g4⟩ := h.good hs
  have herr : (closePayload dp e).1.errState = .ok := by
    simp [Enc.errState, hs, g2]
  unfold encodeSignatureSeeing
  rw [← hc]
  generalize closePayload dp e = q at h hs hc g1 g2 g3 g4 herr ⊢
  obtain ⟨e1, p1⟩ := q
  simp only [] at h hs hc g1 g2 g3 g4 herr ⊢
  rw [herr]
  simp only [Enc.openBytes]
  have hop := h.openLevel_rel .openB
  have hops : (e1.openLevel .openB).small = false := by rw [Enc.openLevel_small]; exact hs
  have hopl : (e1.openLevel .openB).len = e1.len := by
    rw [(hop.good hops).1, Ideal.openLevel_out, g1]
  rw [h.outPlace_eq, g1]
  generalize signDispatch cfg C me (prot (e1.openLevel .openB)) aad p1
    (placeOf cap nul (o1 ++ body).length) = r
  obtain ⟨r, me', ub⟩ := r
  cases r with
  | error x => exact ⟨_, rfl⟩
  | ok sig =>
    refine ⟨_, rfl, ?_⟩
    intro s hss hub
    subst hub
    have hubf : (e1.openLevel .openB).ub = false := hop.ub
    have hee : ({ e1.openLevel .openB with ub := (e1.openLevel .openB).ub || false } : Enc)
        = e1.openLevel .openB := by simp
    rw [hee]
    have hput : Rel cap nul (Rel.putSig (e1.openLevel .openB) sig) _ :=
      hop.putSig_rel hops (sig := sig) (s := s) (by rw [hopl, g1]; exact hss)
    have hfin := hput.closeArray_rel
    change (_ → Rel cap nul (Rel.putSig (e1.openLevel .openB) sig).closeArray _) ∧
      (_ → ∃ a, Rel cap nul (Rel.putSig (e1.openLevel .openB) sig).closeArray a ∧ _)
    constructor
    · intro hp
      rw [Ideal.openLevel_ok _ hlo (by simp; omega) hp] at hfin
      have hb : bumpN (⟨.arr, o1.length, 3⟩ :: ns) = ⟨.arr, o1.length, 4⟩ :: ns := rfl
      rw [hb, Ideal.closeBytes] at hfin
      simp only [] at hfin
      rw [Ideal.closeLevel_ok] at hfin
      rw [Ideal.closeArray, List.append_assoc, List.append_assoc, Ideal.closeLevel_ok] at hfin
      simpa [finalIdeal, bstrBytes] using hfin
    · intro hp
      refine ⟨_, hfin, ?_⟩
      have he : ((⟨o1 ++ body, none, ⟨.arr, o1.length, 3⟩ :: ns⟩ : Ideal).openLevel .openB).err
          = some .bufferTooLarge := Ideal.openLevel_big _ hlo hp
      have he2 : (((⟨o1 ++ body, none, ⟨.arr, o1.length, 3⟩ :: ns⟩ : Ideal).openLevel .openB).closeBytes s).err
          = some .bufferTooLarge := by
        rw [Ideal.closeBytes_err (by rw [he]; rfl), he]
      rw [Ideal.closeArray, Ideal.closeLevel_err (by rw [he2]; rfl), he2]
      rfl

theorem encSee_tooSmall {cfg : Config} {C : Crypto} {me : SignCtx} {prot : Enc → UB} {aad dp : UB} {e : Enc}
    (h : (closePayload dp e).1.small = true) :
    (encodeSignatureSeeing cfg C me prot aad dp e).1 = .error .tooSmall := by
  unfold encodeSignatureSeeing
  generalize closePayload dp e = q at h
  obtain ⟨e1, p1⟩ := q
  simp only at h ⊢
  have : e1.errState = .tooSmall := by simp [Enc.errState, h]
  rw [this]

theorem startOk_init (m : Bytes) : Props.StartOk (Enc.init (.buf m)) :=
  ⟨rfl, rfl, by simp [Enc.init], by intro n h; cases h⟩

/-- What the first step has come to when the second succeeds. -/
theorem between_pre {cfg : Config} {C : Crypto} {me me1 me2 ctx : SignCtx}
    {prot : Enc → UB} {aad : UB} {cs : List Content} {m : Bytes} {e1 e2 : Enc}
    (hp : sign1EncodeParameters cfg me (Enc.init (.buf m)) = (.ok (), me1, e1))
    (hd : fitsAll cs 13 = true) (hn : cs.length ≤ 65534)
    (hlt : me.kid.bytes.length + (me.contentTypeTstr.getD []).length + (encAll cs).length + 128 < 2 ^ 32)
    (hsig : encodeSignatureSeeing cfg C ctx prot aad .nil (runAll cs e1) = (.ok (), me2, e2)) :
    SignPre cfg me ∧
    ((closePayload .nil (runAll cs e1)).1.openLevel .openB).deref me1.protectedParams =
      .data (Spec.protectedHeader me.alg) := by
  have hs3 : (closePayload .nil (runAll cs e1)).1.small = false := by
    cases hq : (closePayload .nil (runAll cs e1)).1.small with
    | false => rfl
    | true =>
      have := encSee_tooSmall (cfg := cfg) (C := C) (me := ctx) (prot := prot) (aad := aad) hq
      rw [hsig] at this
      cases this
  obtain ⟨o, ns, pp, hr, hdep, hme, hpp, hpre, hrel, hpay, hlen⟩ :=
    Props.nested_start (ops := []) (d := 13) (startOk_init m) hp hd (by simp [Props.runOps, Enc.init]) hn
      (by simp only [Props.runOps, Enc.init]; omega) hs3
  exact ⟨hpre, (Props.C42_protected_reference cfg me me1 [] m e1 cs 13 (startOk_init m) hp hd
    (by simp [Props.runOps, Enc.init]) hn (by simp only [Props.runOps, Enc.init]; omega) hs3).1⟩

/-- Two-step signing with anything between the steps: the message has the headers of the first step,
and the signature that the second has made with what it saw. -/
theorem between_run {cfg : Config} {C : Crypto} (hfit : Spec.SignFits C) {me me1 me2 ctx : SignCtx}
    {prot : Enc → UB} {aad : UB} {cs : List Content} {m : Bytes} {e1 e2 : Enc} {r : UB}
    (hp : sign1EncodeParameters cfg me (Enc.init (.buf m)) = (.ok (), me1, e1))
    (hd : fitsAll cs 13 = true) (hn : cs.length ≤ 65534)
    (hlt : me.kid.bytes.length + (me.contentTypeTstr.getD []).length + (encAll cs).length + 128 < 2 ^ 32)
    (hub : ∀ p place, p = prot ((closePayload .nil (runAll cs e1)).1.openLevel .openB) →
      (signDispatch cfg C ctx p aad (.data (encAll cs)) place).2.2 = false)
    (hsig : encodeSignatureSeeing cfg C ctx prot aad .nil (runAll cs e1) = (.ok (), me2, e2))
    (hfin : callerFinish e2 = .ok r) :
    SignPre cfg me ∧
    ((closePayload .nil (runAll cs e1)).1.openLevel .openB).deref me1.protectedParams =
      .data (Spec.protectedHeader me.alg) ∧
    ∃ sig n, r = .data (Spec.coseSign1 (!Spec.Opt.omitTag me.flags) me.alg (specKid me) (specCt cfg me)
          (some (encAll cs)) sig).enc ∧
      signDispatch cfg C ctx (prot ((closePayload .nil (runAll cs e1)).1.openLevel .openB)) aad
        (.data (encAll cs)) (.room n) = (.ok (.data sig), me2, false) := by
  have hs3 : (closePayload .nil (runAll cs e1)).1.small = false := by
    cases hq : (closePayload .nil (runAll cs e1)).1.small with
    | false => rfl
    | true =>
      have := encSee_tooSmall (cfg := cfg) (C := C) (me := ctx) (prot := prot) (aad := aad) hq
      rw [hsig] at this
      cases this
  have hs2 : e2.errState = .ok ∧ e2.finish = .ok r := by
    unfold callerFinish at hfin
    cases he : e2.errState with
    | tooSmall => rw [he] at hfin; cases hfin
    | other x => rw [he] at hfin; cases hfin
    | ok =>
      rw [he] at hfin
      refine ⟨rfl, ?_⟩
      simp only at hfin
      cases hf : e2.finish with
      | ok x => rw [hf] at hfin; cases hfin; rfl
      | error x => rw [hf] at hfin; cases hfin
  have hsm : e2.small = false := by
    have := hs2.1
    unfold Enc.errState at this
    cases hq : e2.small with
    | false => rfl
    | true => rw [hq, if_pos rfl] at this; cases this
  obtain ⟨o, ns, pp, hr, hdep, hme, hpp, hpre, hrel, hpay, hlen⟩ :=
    Props.nested_start (ops := []) (d := 13) (startOk_init m) hp hd (by simp [Props.runOps, Enc.init]) hn
      (by simp only [Props.runOps, Enc.init]; omega) hs3
  have ho : o = [] ∧ ns = [] := by
    obtain ⟨g1, g2, g3, g4⟩ := hr.good rfl
    simp only [Props.runOps, Enc.init] at g1 g3
    exact ⟨List.eq_nil_of_length_eq_zero g1.symm, g3.symm⟩
  obtain ⟨rfl, rfl⟩ := ho
  have h42 := (Props.C42_protected_reference cfg me me1 [] m e1 cs 13 (startOk_init m) hp hd
    (by simp [Props.runOps, Enc.init]) hn (by simp only [Props.runOps, Enc.init]; omega) hs3).1
  refine ⟨hpre, h42, ?_⟩
  have hrun := encSee_run cfg C ctx prot aad .nil (.data (encAll cs)) hpay hrel hs3 (by simp [bumpN])
  have hub' := hub _ (placeOf m.length false (o1 me [] ++ (hdrBytes cfg me ++ bstrBytes (encAll cs))).length) rfl
  cases hdis : signDispatch cfg C ctx (prot ((closePayload .nil (runAll cs e1)).1.openLevel .openB)) aad
      (.data (encAll cs))
      (placeOf m.length false (o1 me [] ++ (hdrBytes cfg me ++ bstrBytes (encAll cs))).length) with
  | mk res rest =>
    obtain ⟨me2', ub⟩ := rest
    rw [hdis] at hrun hub'
    simp only at hub'
    subst hub'
    cases res with
    | error x =>
      obtain ⟨e', he⟩ := hrun
      rw [he] at hsig
      cases hsig
    | ok sig =>
      obtain ⟨e', he, hk⟩ := hrun
      rw [he] at hsig
      cases hsig
      obtain ⟨s, hss⟩ := dispatch_sigSrc hfit hdis
      have hfinal := (hk s hss rfl).1 hlen
      obtain ⟨f1, f2, f3, f4⟩ := hfinal.good hsm
      have hmem : ∃ mm, e2.mem = .buf mm := by
        have := hfinal.nul_eq
        cases hq : e2.mem with
        | null c => rw [hq] at this; cases this
        | buf mm => exact ⟨mm, rfl⟩
      obtain ⟨m2, hm2⟩ := hmem
      have hroom : (o1 me [] ++ (hdrBytes cfg me ++ bstrBytes (encAll cs))).length < m.length := by
        have h1 := hfinal.le
        rw [f1] at h1
        have h2 : (finalIdeal (o1 me []) (hdrBytes cfg me ++ bstrBytes (encAll cs)) s (bumpN [])).out.length
            = (o1 me [] ++ encodeHead 4 4 ++ ((hdrBytes cfg me ++ bstrBytes (encAll cs)) ++ bstrBytes s)).length := rfl
        rw [h2] at h1
        have := encodeHead_length_pos 4 4
        simp only [List.length_append] at h1 ⊢
        omega
      have hpl : placeOf m.length false (o1 me [] ++ (hdrBytes cfg me ++ bstrBytes (encAll cs))).length
          = .room (m.length - (o1 me [] ++ (hdrBytes cfg me ++ bstrBytes (encAll cs))).length) := by
        unfold placeOf
        rw [if_neg (by simp), if_pos (by omega)]
      rw [hpl] at hdis
      have hsd : sig = .data s := by
        rcases hss with ⟨x1, -, -⟩ | ⟨-, x2⟩
        · exact x1
        · rcases x2 with x2 | x2
          · cases x2
          · omega
      subst hsd
      refine ⟨s, _, ?_, hdis⟩
      have hf := hs2.2
      unfold Enc.finish at hf
      rw [hs2.1] at hf
      simp only [hm2] at hf
      split at hf
      · cases hf
        rw [f4 m2 hm2]
        have hmsg : (finalIdeal (o1 me []) (hdrBytes cfg me ++ bstrBytes (encAll cs)) s (bumpN [])).out
            = msgBytes cfg me false (encAll cs) s := by
          show o1 me [] ++ encodeHead 4 4 ++ ((hdrBytes cfg me ++ bstrBytes (encAll cs)) ++ bstrBytes s) = _
          simp [msgBytes, payPart, o1, tagPart]
        rw [hmsg]
        have := msgBytes_spec hpre.ct false (encAll cs) s
        simp only [Bool.false_eq_true, if_false] at this
        rw [opt_omitTag, ← this]
      · cases hf

/-! ## What a message made in one call leaves behind -/

theorem payArg_wf {det : Bool} {payload : UB} (hw : payload.wf) (hd : det = true → payload.isNull = false) :
    PayArg det false payload payload.bytes := by
  unfold PayArg
  cases det with
  | false => exact UB.wf_src hw _
  | true =>
    cases payload with
    | null n => cases hd rfl
    | data b => rfl

/-- The first octets of the byte string that the protected parameters are in, as many as the parameters
have. -/
def slid (pm : Bytes) : Bytes := (bstrBytes pm).take pm.length

theorem sign_left {cfg : Config} {C : Crypto} {me me' : SignCtx} {det : Bool} {payload aad : UB}
    {w : Bytes} {out : Mem} {r : UB} {e' : Enc} (hpay : PayArg det out.isNull payload w)
    (h : signAadInternal cfg C me det payload aad out = (.ok r, me', e')) :
    PPok out.isNull me [] me'.protectedParams ∧ e'.finish = .ok r := by
  obtain ⟨hpre, hH, -, -⟩ := sign_ok_elim (r := r) hpay (by rw [h])
  obtain ⟨pp, dp, e1, heq, hrel, hst⟩ := sign_stage_all cfg me det payload aad w out hpre hpay hH
  rw [heq] at h
  unfold signTail at h
  cases hq : encodeSignatureInternal cfg C { me with protectedParams := pp } aad dp e1 with
  | mk res rest =>
    obtain ⟨m2, e2⟩ := rest
    obtain ⟨n, hctx⟩ := encSig_ctx (cfg := cfg) (C := C) (m := { me with protectedParams := pp })
      (aad := aad) (pl := dp) (e2 := e1)
    rw [hq] at h hctx
    cases res with
    | error x => cases h
    | ok u =>
      simp only at h hctx
      have hs : (closePayload dp e1).1.small = false := by
        cases hs : (closePayload dp e1).1.small with
        | false => rfl
        | true =>
          rw [encSig_tooSmall hs] at hq
          cases hq
      cases he : e2.errState with
      | tooSmall => rw [he] at h; cases h
      | other x => rw [he] at h; cases h
      | ok =>
        rw [he] at h
        simp only at h
        cases hf : e2.finish with
        | error x => rw [hf] at h; cases h
        | ok x =>
          rw [hf] at h
          cases h
          refine ⟨?_, hf⟩
          rw [hctx]
          exact (hst hs).2

/-- What the first step of another message leaves behind. -/
theorem start_left {cfg : Config} {me me' : SignCtx} {m : Bytes} {e' : Enc}
    (h : sign1EncodeParameters cfg me (Enc.init (.buf m)) = (.ok (), me', e')) (hs : e'.small = false) :
    e'.deref me'.protectedParams = .data (protMap me.alg) := by
  have hpre : SignPre cfg me := params_ok_pre (det := false) (e := Enc.init (.buf m))
    (by unfold sign1EncodeParameters at h; rw [h])
  obtain ⟨pp, e1, henc, hrel, hpp⟩ := params_ok cfg me false (Rel.init_rel (.buf m)) (by trivial)
    (by simp) (by simp [maxStart]) hpre.alg hpre.sc hpre.ct
  unfold sign1EncodeParameters at h
  rw [henc] at h
  cases h
  have hpp : pp = _ := hpp hs
  have hl : (encodeHead 2 (protMap me.alg).length).length = 1 := by
    have := Ideal.protMap_length_le me.alg
    unfold encodeHead
    rw [if_pos (by omega)]
    rfl
  rw [hpp]
  simp only [Bool.false_eq_true, if_false] at hrel
  exact deref_prot hrel hs hl (o1 := o1 me []) (rest := unprotBytes (kidArg me).bytes (ctArg cfg me))
    (by rw [Ideal.bstrWrap, Ideal.openLevel_out]; simp [hdrOut])

theorem sign_left_null {cfg : Config} {C : Crypto} {me me' : SignCtx} {det : Bool} {payload aad : UB}
    {w : Bytes} {n : Nat} {r : UB} {e' : Enc} (hpay : PayArg det true payload w)
    (h : signAadInternal cfg C me det payload aad (.null n) = (.ok r, me', e')) :
    e'.deref me'.protectedParams = .null (protMap me.alg).length := by
  have := (sign_left hpay h).1
  unfold PPok at this
  rw [this]
  rfl

theorem sign_left_buf {cfg : Config} {C : Crypto} (hfit : Spec.SignFits C) {me me' : SignCtx} {det : Bool}
    {payload aad : UB} {w m : Bytes} {r : UB} {e' : Enc} (hpay : PayArg det false payload w) (ha : aad.wf)
    (h : signAadInternal cfg C me det payload aad (.buf m) = (.ok r, me', e')) :
    e'.deref me'.protectedParams = .data (slid (protMap me.alg)) := by
  obtain ⟨hpp, hf⟩ := sign_left hpay h
  obtain ⟨hpre, -, -, pp, sig, m2, ub, hdis, hk⟩ := sign_ok_elim (r := r) hpay (by rw [h])
  obtain ⟨s, hss⟩ := dispatch_sigSrc hfit hdis
  have hub : ub = false := by
    have := signDispatch_ub' (C := C) (me := { me with protectedParams := pp }) hpre.sc
      (p := seen false (protMap me.alg)) (a := aad) (w := paySeen det false w)
      (fun _ => ⟨rfl, ha, by cases det <;> rfl⟩)
      (placeOf (Mem.buf m).cap (Mem.buf m).isNull (preSig cfg me det w).length)
    simp only [Mem.isNull] at hdis
    simp only [Mem.isNull] at this
    rw [hdis] at this
    exact this
  obtain ⟨-, -, hr⟩ := hk s hss hub
  have hr : r = .data (msgBytes cfg me det w s) := hr
  have hl : (encodeHead 2 (protMap me.alg).length).length = 1 := by
    have := Ideal.protMap_length_le me.alg
    unfold encodeHead
    rw [if_pos (by omega)]
    rfl
  have h4 : (encodeHead 4 4).length = 1 := rfl
  subst hr
  unfold Enc.finish at hf
  cases he : e'.errState with
  | tooSmall => rw [he] at hf; cases hf
  | other x => rw [he] at hf; cases hf
  | ok =>
    rw [he] at hf
    simp only at hf
    split at hf
    · cases hm : e'.mem with
      | null c => rw [hm] at hf; cases hf
      | buf mm =>
        rw [hm] at hf
        simp only [Except.ok.injEq, UB.data.injEq] at hf
        unfold PPok at hpp
        rw [hpp, o1_nil, if_neg (by simp [Mem.isNull])]
        unfold Enc.deref
        rw [hm]
        simp only [UB.data.injEq]
        have key : ((msgBytes cfg me det w s).drop ((tagPart me).length + 1)).take (protMap me.alg).length
            = slid (protMap me.alg) := by
          have : msgBytes cfg me det w s = (tagPart me ++ encodeHead 4 4) ++ (bstrBytes (protMap me.alg) ++
              (unprotBytes (kidArg me).bytes (ctArg cfg me) ++ payPart det w ++ bstrBytes s)) := by
            simp [msgBytes, hdrBytes]
          rw [this, List.drop_append, List.drop_of_length_le (by simp [h4])]
          simp only [List.length_append, h4, Nat.sub_self, List.drop_zero, List.nil_append, slid]
          rw [List.take_append_of_le_length (by simp [bstrBytes])]
        have hlen : (tagPart me).length + 1 + (protMap me.alg).length ≤ (msgBytes cfg me det w s).length := by
          simp only [msgBytes, hdrBytes, bstrBytes, List.length_append, h4]
          omega
        rw [← hf] at key hlen
        rw [← key, List.drop_take, List.take_take]
        congr 1
        rw [List.length_take] at hlen
        omega
    · cases hf

end TCose
