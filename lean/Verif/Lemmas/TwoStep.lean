import Verif.TCose.TwoStep
import Verif.Lemmas.SignSafe

/-! Helper lemmas: payload written by caller's encoder calls. -/

namespace TCose
open Enc (PRef Place maxStart)

mutual
theorem run_rel : ∀ (c : Content) {d cap : Nat} {nul : Bool} {e : Enc} {o : Bytes} {k : NKind}
    {s cnt : Nat} {ns : List Nest}, c.fits d = true →
    Rel cap nul e ⟨o, none, ⟨k, s, cnt⟩ :: ns⟩ → k ≠ .openB → cnt < 65534 →
    ns.length + d ≤ 14 → o.length + c.enc.length < maxStart →
    Rel cap nul (c.run e) ⟨o ++ c.enc, none, ⟨k, s, cnt + 1⟩ :: ns⟩
  | .int i, d, cap, nul, e, o, k, s, cnt, ns, hf, h, hk, hc, hd, hl => by
    have := h.addInt_rel i
    rw [Ideal.addInt, Ideal.addItem_cons hk hc, List.append_nil] at this
    simp only [Content.run, Content.enc]
    rw [int_enc]; exact this
  | .uint n, d, cap, nul, e, o, k, s, cnt, ns, hf, h, hk, hc, hd, hl => by
    have := h.addUInt_rel n
    rw [Ideal.addUInt, Ideal.addItem_cons hk hc, List.append_nil] at this
    simp only [Content.run, Content.enc]
    rw [← encodeHead_eq_head]; exact this
  | .bytes b, d, cap, nul, e, o, k, s, cnt, ns, hf, h, hk, hc, hd, hl => by
    have := h.addBytes_rel (Src.data nul b)
    rw [Ideal.addBytes, Ideal.addItem_cons hk hc, List.append_assoc] at this
    simp only [Content.run, Content.enc]
    rw [← encodeHead_eq_head]; exact this
  | .text b, d, cap, nul, e, o, k, s, cnt, ns, hf, h, hk, hc, hd, hl => by
    have := h.addText_rel b
    rw [Ideal.addText, Ideal.addItem_cons hk hc, List.append_assoc] at this
    simp only [Content.run, Content.enc]
    rw [← encodeHead_eq_head]; exact this
  | .raw b, d, cap, nul, e, o, k, s, cnt, ns, hf, h, hk, hc, hd, hl => by
    have := h.addEncoded_rel (Src.data nul b)
    rw [Ideal.addEncoded, Ideal.addItem_cons hk hc, List.append_nil] at this
    simp only [Content.run, Content.enc]
    exact this
  | .null, d, cap, nul, e, o, k, s, cnt, ns, hf, h, hk, hc, hd, hl => by
    have := h.addNull_rel
    rw [Ideal.addNull, Ideal.addItem_cons hk hc, List.append_nil] at this
    simp only [Content.run, Content.enc]
    exact this
  | .bool b, d, cap, nul, e, o, k, s, cnt, ns, hf, h, hk, hc, hd, hl => by
    have : Rel cap nul (e.addBool b) _ := Rel.addItem_rel h [if b then 0xf5 else 0xf4] (Src.nil nul)
    rw [Ideal.addItem_cons hk hc, List.append_nil] at this
    simp only [Content.run, Content.enc]
    exact this
  | .tagged t c, d, cap, nul, e, o, k, s, cnt, ns, hf, h, hk, hc, hd, hl => by
    have h1 := h.addTag_rel t
    have hlo : LvlOk (⟨k, s, cnt⟩ :: ns) := ⟨hk, hc⟩
    rw [Ideal.addTag_ok hlo] at h1
    simp only [Content.run, Content.enc, Content.fits, List.length_append] at hf hl ⊢
    rw [encodeHead_eq_head] at h1
    have := run_rel c hf h1 hk hc hd (by simp only [List.length_append]; omega)
    rw [List.append_assoc] at this
    exact this
  | .arr cs, 0, cap, nul, e, o, k, s, cnt, ns, hf, h, hk, hc, hd, hl => by
    simp [Content.fits] at hf
  | .arr cs, d + 1, cap, nul, e, o, k, s, cnt, ns, hf, h, hk, hc, hd, hl => by
    simp only [Content.fits, Bool.and_eq_true, decide_eq_true_eq] at hf
    simp only [Content.enc, List.length_append] at hl
    have h1 := h.openArray_rel
    rw [Ideal.openArray, Ideal.openLevel_cons _ hk hc (by omega) (by omega)] at h1
    have h2 := runAll_rel cs hf.2 h1 (by decide) (by omega) (by simp only [List.length_cons]; omega)
      (by omega)
    have h3 := h2.closeArray_rel
    rw [Ideal.closeArray, Ideal.closeLevel_ok] at h3
    simp only [Content.run, Content.enc]
    rw [← encodeHead_eq_head]
    simpa [List.append_assoc] using h3
  | .map cs, 0, cap, nul, e, o, k, s, cnt, ns, hf, h, hk, hc, hd, hl => by
    simp [Content.fits] at hf
  | .map cs, d + 1, cap, nul, e, o, k, s, cnt, ns, hf, h, hk, hc, hd, hl => by
    simp only [Content.fits, Bool.and_eq_true, decide_eq_true_eq] at hf
    simp only [Content.enc, List.length_append] at hl
    have h1 := h.openMap_rel
    rw [Ideal.openMap, Ideal.openLevel_cons _ hk hc (by omega) (by omega)] at h1
    have h2 := runAll_rel cs hf.2 h1 (by decide) (by omega) (by simp only [List.length_cons]; omega)
      (by omega)
    have h3 := h2.closeMap_rel
    rw [Ideal.closeMap, Ideal.closeLevel_ok] at h3
    simp only [Content.run, Content.enc]
    rw [← encodeHead_eq_head]
    simpa [List.append_assoc] using h3
  | .wrap cs, 0, cap, nul, e, o, k, s, cnt, ns, hf, h, hk, hc, hd, hl => by
    simp [Content.fits] at hf
  | .wrap cs, d + 1, cap, nul, e, o, k, s, cnt, ns, hf, h, hk, hc, hd, hl => by
    simp only [Content.fits, Bool.and_eq_true, decide_eq_true_eq] at hf
    simp only [Content.enc, List.length_append] at hl
    have h1 := h.bstrWrap_rel
    rw [Ideal.bstrWrap, Ideal.openLevel_cons _ hk hc (by omega) (by omega)] at h1
    have h2 := runAll_rel cs hf.2 h1 (by decide) (by omega) (by simp only [List.length_cons]; omega)
      (by omega)
    have h3 := h2.closeBstr_rel
    rw [Ideal.closeBstr, Ideal.closeLevel_ok] at h3
    simp only [Content.run, Content.enc]
    rw [← encodeHead_eq_head]
    simpa [List.append_assoc] using h3
theorem runAll_rel : ∀ (cs : List Content) {d cap : Nat} {nul : Bool} {e : Enc} {o : Bytes} {k : NKind}
    {s cnt : Nat} {ns : List Nest}, fitsAll cs d = true →
    Rel cap nul e ⟨o, none, ⟨k, s, cnt⟩ :: ns⟩ → k ≠ .openB → cnt + cs.length ≤ 65534 →
    ns.length + d ≤ 14 → o.length + (encAll cs).length < maxStart →
    Rel cap nul (runAll cs e) ⟨o ++ encAll cs, none, ⟨k, s, cnt + cs.length⟩ :: ns⟩
  | [], d, cap, nul, e, o, k, s, cnt, ns, hf, h, hk, hc, hd, hl => by
    simpa [runAll, encAll] using h
  | c :: cs, d, cap, nul, e, o, k, s, cnt, ns, hf, h, hk, hc, hd, hl => by
    simp only [fitsAll, Bool.and_eq_true] at hf
    simp only [encAll, List.length_append, List.length_cons] at hl hc
    have h1 := run_rel c hf.1 h hk (by omega) hd (by omega)
    have h2 := runAll_rel cs hf.2 h1 hk (by omega) hd (by simp only [List.length_append]; omega)
    simp only [runAll, encAll, List.length_cons]
    rw [List.append_assoc] at h2
    have : cnt + 1 + cs.length = cnt + (cs.length + 1) := by omega
    rw [this] at h2
    exact h2
end

mutual
theorem run_small : ∀ (c : Content) {e : Enc}, (c.run e).small = false → e.small = false
  | .int i, e, h => Enc.addItem_small_mono h
  | .uint n, e, h => Enc.addItem_small_mono h
  | .bytes b, e, h => Enc.addItem_small_mono h
  | .text b, e, h => Enc.addItem_small_mono h
  | .raw b, e, h => Enc.addItem_small_mono h
  | .null, e, h => Enc.addItem_small_mono h
  | .bool b, e, h => Enc.addItem_small_mono h
  | .tagged t c, e, h => by
    have := run_small c h
    exact Enc.addTag_small_mono this
  | .arr cs, e, h => by
    have := runAll_small cs (Enc.closeLevel_small_mono h)
    rwa [Enc.openArray, Enc.openLevel_small] at this
  | .map cs, e, h => by
    have := runAll_small cs (Enc.closeLevel_small_mono h)
    rwa [Enc.openMap, Enc.openLevel_small] at this
  | .wrap cs, e, h => by
    have := runAll_small cs (Enc.closeLevel_small_mono h)
    rwa [Enc.bstrWrap, Enc.openLevel_small] at this
theorem runAll_small : ∀ (cs : List Content) {e : Enc}, (runAll cs e).small = false → e.small = false
  | [], _, h => h
  | c :: cs, _, h => run_small c (runAll_small cs h)
end

/-- The two-step run is the common tail. -/
theorem twoStep_eq {cfg : Config} {C : Crypto} {me me1 : SignCtx} {aad : UB} {cs : List Content}
    {out : Mem} {e0 : Enc}
    (henc : encodeParametersInternal cfg me false (Enc.init out) = (.ok (), me1, e0)) :
    twoStepSign cfg C me aad cs out = (signTail cfg C me1 aad .nil (runAll cs e0)).1 := by
  unfold twoStepSign sign1EncodeParameters sign1EncodeSignatureAad signTail
  rw [henc]
  simp only []
  generalize encodeSignatureInternal cfg C me1 aad .nil (runAll cs e0) = q
  obtain ⟨r, m2, e2⟩ := q
  cases r with
  | error x => rfl
  | ok u =>
    simp only [callerFinish]
    cases e2.errState with
    | tooSmall => rfl
    | other x => rfl
    | ok =>
      simp only []
      cases e2.finish with
      | ok r => rfl
      | error x => rfl

/-- What a signing procedure returns can be seen as octets in the output. -/
theorem dispatch_sigSrc {cfg : Config} {C : Crypto} (hfit : Spec.SignFits C) {me me' : SignCtx}
    {p a w : UB} {cap len : Nat} {nul : Bool} {sig : UB} {ub : Bool}
    (h : signDispatch cfg C me p a w (placeOf cap nul len) = (.ok sig, me', ub)) :
    ∃ s, Rel.SigSrc cap nul len sig s := by
  have hsh := signDispatch_shape h
  unfold placeOf at h hsh
  by_cases hn : nul = true
  · rw [if_pos hn] at hsh
    obtain ⟨n, hn'⟩ := hsh
    exact ⟨List.replicate n 0, .inr ⟨by simp [hn'], .inl hn⟩⟩
  · have hn : nul = false := by simpa using hn
    simp only [hn, Bool.false_eq_true, if_false] at h hsh
    split at h
    · rename_i hr
      rw [if_pos hr] at hsh
      obtain ⟨s, hs⟩ := hsh
      subst hs
      exact ⟨s, .inl ⟨rfl, hn, signDispatch_fits hfit h⟩⟩
    · rename_i hr
      rw [if_neg hr] at hsh
      obtain ⟨n, hn'⟩ := hsh
      exact ⟨List.replicate n 0, .inr ⟨by simp [hn'], .inr (by omega)⟩⟩

/-- Two ways of getting the same payload octets in place have the same outcome. -/
theorem tails_agree {cfg : Config} {C : Crypto} (hfit : Spec.SignFits C) {me : SignCtx} {aad : UB}
    {w : Bytes} {out : Mem} {e1 e2 : Enc} {pp : PRef}
    (hlt : (preSig cfg me false w).length < maxStart)
    (hub : ∀ place, (signDispatch cfg C { me with protectedParams := pp }
      (seen out.isNull (protMap me.alg)) aad (paySeen false out.isNull w) place).2.2 = false)
    (h1 : Rel out.cap out.isNull (closePayload .nil e1).1
      ⟨tagPart me ++ (hdrBytes cfg me ++ payPart false w), none,
        ⟨.arr, (tagPart me).length, 3⟩ :: []⟩)
    (h1' : (closePayload .nil e1).1.small = false →
        (closePayload .nil e1).2 = paySeen false out.isNull w ∧ PPok out.isNull me [] pp)
    (h2 : Rel out.cap out.isNull (closePayload .nil e2).1
      ⟨tagPart me ++ (hdrBytes cfg me ++ payPart false w), none,
        ⟨.arr, (tagPart me).length, 3⟩ :: []⟩)
    (h2' : (closePayload .nil e2).1.small = false →
        (closePayload .nil e2).2 = paySeen false out.isNull w ∧ PPok out.isNull me [] pp) :
    (signTail cfg C { me with protectedParams := pp } aad .nil e1).1
      = (signTail cfg C { me with protectedParams := pp } aad .nil e2).1 := by
  obtain ⟨a1, a2⟩ := signTail_run cfg C me false aad w out .nil e1 pp h1 h1'
  obtain ⟨b1, b2⟩ := signTail_run cfg C me false aad w out .nil e2 pp h2 h2'
  rcases Nat.lt_or_ge out.cap (preSig cfg me false w).length with hc | hc
  · obtain ⟨_, _, e⟩ := a1 hc
    obtain ⟨_, _, e'⟩ := b1 hc
    rw [e, e']
  · obtain ⟨_, a2⟩ := a2 hc
    obtain ⟨_, b2⟩ := b2 hc
    have hub := hub (placeOf out.cap out.isNull (preSig cfg me false w).length)
    cases hq : signDispatch cfg C { me with protectedParams := pp }
      (seen out.isNull (protMap me.alg)) aad (paySeen false out.isNull w)
      (placeOf out.cap out.isNull (preSig cfg me false w).length) with
    | mk r rest =>
      obtain ⟨m2, ub⟩ := rest
      rw [hq] at a2 b2 hub
      simp only [] at hub
      cases r with
      | error x =>
        obtain ⟨_, e⟩ := a2
        obtain ⟨_, e'⟩ := b2
        rw [e, e']
      | ok sig =>
        obtain ⟨_, r1, e, a3⟩ := a2
        obtain ⟨_, r2, e', b3⟩ := b2
        obtain ⟨s, hs⟩ := dispatch_sigSrc hfit hq
        obtain ⟨_, _, x1, _, x2⟩ := a3 s hs hub
        obtain ⟨_, _, y1, _, y2⟩ := b3 s hs hub
        rw [e, e']
        rcases Nat.lt_or_ge out.cap (msgBytes cfg me false w s).length with hm | hm
        · rw [x1 hm hlt, y1 hm hlt]
        · rw [x2 hm hlt, y2 hm hlt]

/-- Two-step signing equals one-call signing on the same payload octets. -/
theorem two_step_one {cfg : Config} {C : Crypto} (hfit : Spec.SignFits C) (me : SignCtx) (aad : UB)
    (cs : List Content) (out : Mem) (hd : fitsAll cs 13 = true) (hn : cs.length ≤ 65534)
    (hlt : (preSig cfg me false (encAll cs)).length < maxStart)
    (hub : EddsaCopies me → out.isNull = false ∧ aad.wf) :
    twoStepSign cfg C me aad cs out
      = (signAadInternal cfg C me false (.data (encAll cs)) aad out).1 := by
  cases hp : (encodeParametersInternal cfg me false (Enc.init out)).1 with
  | error x =>
    rw [sign_error_pre hp]
    unfold twoStepSign sign1EncodeParameters
    generalize encodeParametersInternal cfg me false (Enc.init out) = q at hp
    obtain ⟨r, m, e⟩ := q
    simp only [] at hp
    subst hp
    rfl
  | ok u =>
    have hpre := params_ok_pre hp
    obtain ⟨pp, e0, henc, hrel, hpp⟩ := params_ok (o := []) (ns := []) cfg me false
      (Rel.init_rel out) trivial (by simp) (by simp [maxStart]) hpre.alg hpre.sc hpre.ct
    have hhdr : hdrOut cfg me [] = tagPart me ++ hdrBytes cfg me := by
      simp [hdrOut, o1_nil, hdrBytes]
    rw [o1_nil, hhdr] at hrel
    simp only [bumpN, Bool.false_eq_true, if_false] at hrel
    have hpl : (preSig cfg me false (encAll cs)).length
        = (tagPart me ++ hdrBytes cfg me).length + (bstrBytes (encAll cs)).length := by
      simp [preSig, payPart]; omega
    have hbl : (encAll cs).length < (bstrBytes (encAll cs)).length := by
      have := encodeHead_length_pos 2 (encAll cs).length
      simp only [bstrBytes, List.length_append]; omega
    have hH : (tagPart me ++ hdrBytes cfg me).length < maxStart := by omega
    rw [Ideal.bstrWrap, Ideal.openLevel_cons _ (by decide) (by decide) (by simp) hH] at hrel
    rw [twoStep_eq henc]
    have hone : signAadInternal cfg C me false (.data (encAll cs)) aad out
        = signTail cfg C { me with protectedParams := pp } aad .nil
            (e0.addEncoded (.data (encAll cs))) := by
      unfold signAadInternal
      rw [henc]
      rfl
    rw [hone]
    have r1 := runAll_rel cs hd hrel (by decide) (by omega) (by simp) (by omega)
    have c1 := closePayload_inline r1
    have r2 := hrel.addEncoded_rel (Src.data _ (encAll cs))
    rw [Ideal.addEncoded, Ideal.addItem_cons (by decide) (by decide)] at r2
    simp only [List.append_nil] at r2
    have c2 := closePayload_inline r2
    refine tails_agree hfit (w := encAll cs) (out := out) hlt ?_ ?_ ?_ ?_ ?_
    · intro place
      apply signDispatch_ub' (me := { me with protectedParams := pp })
      · exact hpre.sc
      · intro hc
        obtain ⟨x1, x2⟩ := hub hc
        rw [x1]
        exact ⟨rfl, x2, rfl⟩
    · simpa [payPart] using c1.1
    · intro hs
      refine ⟨c1.2 hs, hpp ?_⟩
      have hs2 : (runAll cs e0).closeBstrWrap2.1.small = false := hs
      exact runAll_small cs (Enc.closeLevel_small_mono hs2)
    · simpa [payPart] using c2.1
    · intro hs
      refine ⟨c2.2 hs, hpp ?_⟩
      have hs2 : (e0.addEncoded (.data (encAll cs))).closeBstrWrap2.1.small = false := hs
      exact Enc.addItem_small_mono (Enc.closeLevel_small_mono hs2)

end TCose
