import Verif.Lemmas.Refusals
import Verif.Props.AuxBuffer

/-!
# Decoding errors of a message laid open
-/

namespace TCose
open Spec

/-- What an error in decoding comes from. -/
def BodyReason (cfg : Config) (P : QParams) (v : MsgView) (pay : VPayload) (y : Err) : Prop :=
  HeaderReason P 12 true v.protEntries Params.clear ([], []) y ∨
  (∃ p1 crit1 xs, HeaderFacts cfg true v.protEntries Params.clear p1 ∧
    CritOk P 12 true v.protEntries LabelList.clear crit1 ∧
    noteLabels (otherLabels v.protEntries) ([], []) = some xs ∧
    HeaderReason P 13 false v.unprotEntries p1 xs y) ∨
  (y = .sign1Format ∧ (∃ w, pay = .inline w) ∧ ¬ ∃ s, v.payload = .bstr s ∧ v.payloadTags = []) ∨
  (y = .cborFormatting ∧ (∃ p, pay = .detached p) ∧ v.payload ≠ .null)

theorem decodeBody_cases {cfg : Config} {P : QParams} {msg : Bytes} {pay : VPayload} (junk : Junk)
    {v : MsgView} (hv : IsView P msg v) :
    (∃ x, DecodesTo cfg P v pay x) ∨
    ∃ y st, decodeBody cfg P ((Dec.init msg).enterArray P) pay junk = (.error y, st) ∧
      BodyReason cfg P v pay y := by
  obtain ⟨hlen, n, c1, e0, e1, e2, e3, cEnd, m, cE1, hen, hel, hend, he0, hip, hm1, he1, hel1,
    he2, he3⟩ := hv
  rw [enterArray_intro_msg hlen hen]
  have r0 := elements_rem.mp hel
  obtain ⟨-, -, -, c0', hs0, r1⟩ := Rem_cons_iff.mp r0
  obtain ⟨-, -, -, c1', hs1, r2⟩ := Rem_cons_iff.mp r1
  rw [skipValue_simple P 14 (by rw [he0]; rfl)] at hs0
  cases hs0
  have hs1' : skipValue P 14 e1.itm.val e1.cur = .ok cE1 := by
    rw [hm1, skipValue_map]; exact ⟨_, hel1⟩
  rw [hs1'] at hs1
  cases hs1
  unfold decodeBody
  have f0 := Dec.fetch_rem (P := P) (d := ⟨(Dec.openLvl n c1).2, [.arr (Dec.openLvl n c1).1],
    none, v.tags⟩) rfl r0 (by rw [he0])
  rw [Dec.enterBstrWrapped_intro (s := v.prot) rfl f0 (by rw [he0]) (by rw [he0])
    (by simp [Dec.room, maxDecNesting])]
  simp only
  have hlen0 : (wrapOut junk.prot (some (some v.prot))).ub.len = v.prot.bytes.length := rfl
  -- the protected header
  have hprot : (∃ p1 crit1 unk1, HeaderOk cfg P 12 true v.protEntries Params.clear
        LabelList.clear LabelList.clear p1 crit1 unk1 ∧
        ∃ t c, parseProtected cfg P (wrapOut junk.prot (some (some v.prot)))
      ⟨⟨⟨v.prot.off, v.prot.bytes⟩, [.wrap e0.cur, .arr (Dec.openLvl n c1).1], none, []⟩,
        Params.clear, LabelList.clear, LabelList.clear⟩ =
      (.ok (), ⟨⟨c, [.wrap e0.cur, .arr (Dec.openLvl n c1).1], none, t⟩, p1, crit1, unk1⟩)) ∨
      ∃ y st, parseProtected cfg P (wrapOut junk.prot (some (some v.prot)))
      ⟨⟨⟨v.prot.off, v.prot.bytes⟩, [.wrap e0.cur, .arr (Dec.openLvl n c1).1], none, []⟩,
        Params.clear, LabelList.clear, LabelList.clear⟩ = (.error y, st) ∧
        HeaderReason P 12 true v.protEntries Params.clear ([], []) y := by
    unfold parseProtected
    rw [hlen0]
    rcases hip with ⟨hb, hes⟩ | ⟨hb, it, k, c3, c4, hent, hvk, hie, helk⟩
    · rw [hes]
      refine .inl ⟨_, _, _, headerOk_nil.mpr ⟨rfl, rfl, rfl⟩, [], ⟨v.prot.off, v.prot.bytes⟩, ?_⟩
      rw [if_neg (by simp [hb])]
    · rw [if_pos (by simp [hb])]
      rcases parseHeader_cases (cfg := cfg) (P := P) (prot := true)
        (st := ⟨⟨⟨v.prot.off, v.prot.bytes⟩, [.wrap e0.cur, .arr (Dec.openLvl n c1).1], none, []⟩,
          Params.clear, LabelList.clear, LabelList.clear⟩) rfl
        (by simp [Dec.room, maxDecNesting]) (Dec.fetch_ok.mpr ⟨rfl, hb, hie, none, hent⟩) hvk
        helk LLok_nil mkLL_nil.symm (fun _ => rfl) with ⟨p1, crit1, unk1, hho⟩ | ⟨y, st, hy, hre⟩
      · obtain ⟨t, ht⟩ := parseHeader_intro (cfg := cfg) (P := P) (prot := true)
          (st := ⟨⟨⟨v.prot.off, v.prot.bytes⟩, [.wrap e0.cur, .arr (Dec.openLvl n c1).1], none,
            []⟩, Params.clear, LabelList.clear, LabelList.clear⟩) rfl
          (by simp [Dec.room, maxDecNesting]) (Dec.fetch_ok.mpr ⟨rfl, hb, hie, none, hent⟩) hvk
          helk hho
        exact .inl ⟨p1, crit1, unk1, hho, t, c4, ht⟩
      · exact .inr ⟨y, st, hy, hre⟩
  rcases hprot with ⟨p1, crit1, unk1, hho0, t, c, hprot⟩ | ⟨y, st, hprot, hre⟩
  case inr => rw [hprot]; exact .inr ⟨y, st, rfl, .inl hre⟩
  rw [hprot]
  simp only
  have hexit : (Dec.mk c [.wrap e0.cur, .arr (Dec.openLvl n c1).1] none t).exitBstrWrapped =
      ⟨(stepLeft (Dec.openLvl n c1).1 e0.cur).2, [.arr (stepLeft (Dec.openLvl n c1).1 e0.cur).1],
        none, t⟩ := by
    unfold Dec.exitBstrWrapped
    simp only [Option.isSome_none, Bool.false_eq_true, if_false, done_eq]
  rw [hexit]
  have hho0' := hho0
  rw [← mkLL_nil] at hho0'
  have hho0'' : HeaderOk cfg P 12 true v.protEntries Params.clear (mkLL [] [])
    (mkLL (([], []) : List Int × List Str).1 (([], []) : List Int × List Str).2) p1 crit1 unk1 :=
    hho0'
  obtain ⟨hf1, ⟨xs, hn1, hu1⟩, hcr1⟩ := HeaderOk.facts LLok_nil hho0''
  rw [mkLL_nil] at hcr1
  have hxs := noteLabels_ok LLok_nil hn1
  -- the unprotected header
  have f1 := Dec.fetch_rem (P := P) (d := ⟨(stepLeft (Dec.openLvl n c1).1 e0.cur).2,
    [.arr (stepLeft (Dec.openLvl n c1).1 e0.cur).1], none, t⟩) rfl r1 he1
  rcases parseHeader_cases (cfg := cfg) (P := P) (prot := false)
    (st := ⟨⟨(stepLeft (Dec.openLvl n c1).1 e0.cur).2,
      [.arr (stepLeft (Dec.openLvl n c1).1 e0.cur).1], none, t⟩, p1, crit1, unk1⟩) rfl
    (by simp [Dec.room, maxDecNesting]) f1 hm1 hel1 hxs hu1 (by simp) with
    ⟨p2, crit2, unk2, hho1⟩ | ⟨y, st, hy, hre⟩
  case inr =>
    rw [hy]
    exact .inr ⟨y, st, rfl, .inr (.inl ⟨p1, crit1, xs, hf1, hcr1, hn1, hre⟩)⟩
  by_cases hpay : ∃ b, PayRel pay v.payload v.payloadTags b
  · obtain ⟨b, hb⟩ := hpay
    exact .inl ⟨⟨p2, crit2, unk2, .slice v.prot, b, .slice v.sig⟩, rfl, rfl, hb, p1, crit1, unk1,
      hho0, hho1⟩
  · right
    obtain ⟨t2, h2⟩ := parseHeader_intro (cfg := cfg) (P := P) (prot := false)
      (st := ⟨⟨(stepLeft (Dec.openLvl n c1).1 e0.cur).2,
        [.arr (stepLeft (Dec.openLvl n c1).1 e0.cur).1], none, t⟩, p1, crit1, unk1⟩) rfl
      (by simp [Dec.room, maxDecNesting]) f1 hm1 hel1 hho1
    rw [h2]
    simp only [done_eq]
    have f2 := fun tt => Dec.fetch_rem (P := P) (d := ⟨_, [.arr _], none, tt⟩) rfl r2
      (by rw [he2])
    generalize hl2 : stepLeft (stepLeft (Dec.openLvl n c1).1 e0.cur).1 cE1 = l2 at r2 f2 ⊢
    cases pay with
    | detached p =>
      have hnn : v.payload ≠ .null := fun h => hpay ⟨_, h, rfl⟩
      unfold takePayload
      simp only
      rw [Dec.getNext_intro (f2 t2), he2]
      simp only [if_neg hnn]
      exact ⟨_, _, rfl, .inr (.inr (.inr ⟨rfl, ⟨p, rfl⟩, hnn⟩))⟩
    | inline w =>
      have hnb : ¬ ∃ s, v.payload = .bstr s ∧ v.payloadTags = [] :=
        fun ⟨s, h1, h2⟩ => hpay ⟨_, s, h1, h2, rfl⟩
      have hg : ∃ d' : Dec, (Dec.mk l2.2 [.arr l2.1] none t2).getByteString P =
          ({ d' with err := some .unexpectedType }, none) := by
        unfold Dec.getByteString
        simp only [Option.isSome_none, Bool.false_eq_true, if_false]
        rw [Dec.getNext_intro (f2 t2), he2]
        simp only
        split
        · rename_i s h1 h2
          exact absurd ⟨s, h1, h2⟩ hnb
        · exact ⟨{ (Dec.mk l2.2 [.arr l2.1] none t2).done e2.cur with tags := v.payloadTags }, rfl⟩
      obtain ⟨d', hg⟩ := hg
      unfold takePayload
      simp only
      rw [hg]
      have hs : (Dec.mk d'.cur d'.lvls (some .unexpectedType) d'.tags).getByteString P =
        (⟨d'.cur, d'.lvls, some .unexpectedType, d'.tags⟩, none) := rfl
      have hx : (Dec.mk d'.cur d'.lvls (some .unexpectedType) d'.tags).exitArray P =
        ⟨d'.cur, d'.lvls, some .unexpectedType, d'.tags⟩ := rfl
      simp only [hs, hx]
      exact ⟨_, _, rfl, .inr (.inr (.inl ⟨rfl, ⟨w, rfl⟩, hnb⟩))⟩

theorem checkDecoded_error {cfg : Config} {C : Crypto} {me me' : VerifyCtx} {aad : UB}
    {x : Decoded} {y : Err} {ub : Bool} (hw : x.Wf aad)
    (h : checkDecoded cfg C me aad x = (.error y, me', ub)) :
    (y = .noKid ∧ hasFlag me.flags optRequireKid = true ∧ x.params.kid = none) ∨
    (y = .unknownCriticalParameter ∧ hasFlag me.flags optUnknownCritAllowed = false ∧
      (checkCritical x.crit x.unk).1 ≠ .ok ()) ∨
    (y = .shortCircuitSig ∧ isShortCircuit cfg x ∧ hasFlag me.flags optDecodeOnly = false ∧
      hasFlag me.flags optAllowShortCircuit = false) ∨
    (¬ isShortCircuit cfg x ∧ isEddsa cfg x ∧
      ((y = .auxiliaryBufferSize ∧ me.aux.cap < (x.tbs aad).length) ∨
       (y = .needAuxiliaryBuffer ∧ hasFlag me.flags optDecodeOnly = false ∧
        me.aux.isNull = true))) ∨
    (∃ k kid t s, C.verifyEddsa k kid t s = .error y) ∨
    (∃ a k kid d s, C.verify a k kid d s = .error y) ∨
    (∃ a, C.hashStart a = .error y) ∨ (∃ hh n, C.hashFinish hh n = .error y) ∨
    y = .unsupportedSigningAlg ∨ y = .sigVerify := by
  have hth : ∀ alg a b c r, createTbsHash cfg C alg a b c r = .error y →
      (∃ a, C.hashStart a = .error y) ∨ (∃ hh n, C.hashFinish hh n = .error y) ∨
      y = .unsupportedSigningAlg ∨ y = .sigVerify := by
    intro alg a b c r h
    unfold createTbsHash at h
    simp only at h
    split at h
    · cases h; exact .inr (.inr (.inl rfl))
    · split at h
      · rename_i z hz
        cases h
        exact .inl ⟨_, hz⟩
      · exact .inr (.inl ⟨_, _, h⟩)
  unfold checkDecoded at h
  split at h
  · rename_i hk
    simp only [Prod.mk.injEq, Except.error.injEq] at h
    rw [Bool.and_eq_true] at hk
    exact .inl ⟨h.1.symm, hk.1, by simpa using hk.2⟩
  · simp only at h
    generalize hcr : (if hasFlag me.flags optUnknownCritAllowed = true then
      ((.ok (), false) : Except Err Unit × Bool) else checkCritical x.crit x.unk) = cr at h
    obtain ⟨r, ub0⟩ := cr
    cases r with
    | error e =>
      simp only [Prod.mk.injEq, Except.error.injEq] at h
      right; left
      split at hcr
      · cases hcr
      · rename_i hf
        have he : e = .unknownCriticalParameter := by
          unfold checkCritical at hcr
          simp only [Prod.mk.injEq] at hcr
          have := hcr.1
          split at this
          · cases this; rfl
          · split at this
            · cases this; rfl
            · cases this
        exact ⟨by rw [← h.1, he], by simpa using hf, by rw [hcr]; simp⟩
    | ok u =>
      right; right
      simp only at h
      by_cases hs : isShortCircuit cfg x
      · rw [if_pos (by simp [hs.1, hs.2])] at h
        simp only [Prod.mk.injEq] at h
        have h1 := h.1
        unfold verifyShortCircuit at h1
        split at h1
        · cases h1
        · rename_i hd
          split at h1
          · rename_i ha
            cases h1
            exact .inl ⟨rfl, hs, by simpa using hd, by simpa using ha⟩
          · right; right; right; right
            split at h1
            · rename_i z hz
              cases h1
              exact hth _ _ _ _ _ hz
            · unfold scVerify at h1
              right; right; right
              repeat' split at h1
              all_goals first | cases h1; rfl | cases h1
      · rw [if_neg (by
            intro hc
            simp only [Bool.and_eq_true, Bool.not_eq_true', beq_iff_eq] at hc
            exact hs ⟨hc.1, hc.2⟩)] at h
        by_cases he : isEddsa cfg x
        · rw [if_pos (by simp [he.1, he.2]), verifyEddsa_eq hw] at h
          split at h
          · rename_i hc
            simp only [Prod.mk.injEq, Except.error.injEq] at h
            exact .inr (.inl ⟨hs, he, .inl ⟨h.1.symm, hc⟩⟩)
          · simp only [Prod.mk.injEq] at h
            have h1 := h.1
            split at h1
            · cases h1
            · rename_i hd
              split at h1
              · rename_i hn
                cases h1
                exact .inr (.inl ⟨hs, he, .inr ⟨rfl, by simpa using hd, hn⟩⟩)
              · exact .inr (.inr (.inl ⟨_, _, _, _, h1⟩))
        · rw [if_neg (by
            intro hc
            simp only [Bool.and_eq_true, Bool.not_eq_true', beq_iff_eq] at hc
            exact he ⟨hc.1, hc.2⟩)] at h
          simp only [Prod.mk.injEq] at h
          have h1 := h.1
          unfold verifyDefault at h1
          split at h1
          · cases h1
          · split at h1
            · rename_i z hz
              cases h1
              exact .inr (.inr (.inr (.inr (hth _ _ _ _ _ hz))))
            · exact .inr (.inr (.inr (.inl ⟨_, _, _, _, _, h1⟩)))

end TCose
