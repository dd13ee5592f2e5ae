import Verif.Lemmas.RefusedBody
import Verif.Lemmas.ViewOf
import Verif.Crypto.ToyMsg

/-!
# C64: what a refusal says is true
-/

namespace TCose.Props
open TCose TCose.Spec

variable {cfg : Config} {P : QParams} {C : Crypto} {junk : Junk} {me : VerifyCtx} {msg : Bytes}
  {aad : UB} {pay : VPayload} {want : Bool}

theorem countInts_filter (es : List Entry) : countInts (otherLabels es) = unknownInts es := by
  unfold unknownInts
  rw [intLabels_eq]
  induction es with
  | nil => rfl
  | cons e es ih =>
    have hcons : otherLabels (e :: es) =
        if wanted headerQs e = true then otherLabels es else e.label :: otherLabels es := by
      unfold otherLabels
      rw [List.filter_cons]
      cases wanted headerQs e <;> rfl
    rw [hcons]
    cases hk : e.key with
    | none =>
      have hw : wanted headerQs e = false := by unfold wanted; rw [hk]
      rw [hw, if_neg (by decide), List.filterMap_cons_none hk, ← ih]
      unfold countInts
      rw [List.filterMap_cons_none]
      split
      · rename_i i hl
        rw [key_iff.mpr hl] at hk; cases hk
      · rfl
    | some i =>
      have hl := key_iff.mp hk
      rw [List.filterMap_cons_some hk, List.filter_cons]
      by_cases hkn : i ∈ ([1, 4, 5, 6, 3] : List Int)
      · have hw : wanted headerQs e = true := by
          unfold wanted; rw [hk]
          simp only [List.mem_cons, List.not_mem_nil, or_false] at hkn
          rcases hkn with rfl | rfl | rfl | rfl | rfl <;> rfl
        rw [hw, if_pos rfl, ih, if_neg]
        simp only [List.mem_cons, List.not_mem_nil, or_false] at hkn
        simp only [knownLabels, decide_eq_true_eq, List.mem_cons, List.not_mem_nil, or_false]
        omega
      · have hw : wanted headerQs e = false := by
          unfold wanted; rw [hk]
          simp only [List.mem_cons, List.not_mem_nil, or_false, not_or] at hkn
          obtain ⟨h1, h4, h5, h6, h3⟩ := hkn
          simp [headerQs, List.lookup, beq_eq_false_iff_ne.mpr h1, beq_eq_false_iff_ne.mpr h3,
            beq_eq_false_iff_ne.mpr h4, beq_eq_false_iff_ne.mpr h5, beq_eq_false_iff_ne.mpr h6]
        rw [hw, if_neg (by decide), hl]
        simp only [List.mem_cons, List.not_mem_nil, or_false] at hkn
        by_cases h2 : i = 2
        · rw [if_neg]
          · rw [← ih]
            unfold countInts
            rw [List.filterMap_cons_none]
            simp [h2]
          · simp only [knownLabels, decide_eq_true_eq, List.mem_cons, List.not_mem_nil, or_false]
            omega
        · rw [if_pos, ← ih]
          · unfold countInts
            rw [List.filterMap_cons_some (b := i)]
            simp [h2]
          · simp only [knownLabels, decide_eq_true_eq, List.mem_cons, List.not_mem_nil, or_false]
            omega

/-- The caller's side of a verification. -/
def callOf (me : VerifyCtx) (aad : UB) (pay : VPayload) : Call where
  flags := me.flags
  detached := match pay with | .inline _ => none | .detached p => some p.bytes
  aad := aad.bytes
  noAux := me.aux.isNull
  auxSize := me.aux.cap

/-- What the parameters say after the protected header. -/
theorem facts_has {p1 : Params} {es : List Entry} (h : HeaderFacts cfg true es Params.clear p1) :
    (p1.kid ≠ none → Has 4 es) ∧ (p1.iv ≠ none → Has 5 es) ∧ (p1.partialIv ≠ none → Has 6 es) ∧
    ((p1.ctTstr ≠ none ∨ p1.ctUint ≠ emptyContentType) → Has 3 es) := by
  refine ⟨fun hn => ?_, fun hn => ?_, fun hn => ?_, fun hn => ?_⟩ <;>
    refine Classical.byContradiction fun hc => ?_
  · exact hn (h.noKid fun e he hl => hc ⟨e, he, hl⟩)
  · exact hn (h.noIv fun e he hl => hc ⟨e, he, hl⟩)
  · exact hn (h.noPiv fun e he hl => hc ⟨e, he, hl⟩)
  · obtain ⟨h1, h2⟩ := h.noCt (.inr fun e he hl => hc ⟨e, he, hl⟩)
    rcases hn with hn | hn
    · exact hn h1
    · exact hn h2

/-- The weaker meaning of CBOR_NOT_WELL_FORMED. -/
def NotWellFormedOrCrit (P : QParams) (v : MsgView) : Prop :=
  (∃ e ∈ v.entries, e.Used ∧ e.NotWellFormed) ∨
  ∃ ces, IsCritList P v ces ∧ ∃ e ∈ ces, e.Unreadable

/-- The proved meaning of a code. -/
def Told (cfg : Config) (P : QParams) (c : Call) (v : MsgView) (y : Err) : Prop :=
  (y ≠ .cborNotWellFormed → Meaning cfg P c v y) ∧
  (y = .cborNotWellFormed → NotWellFormedOrCrit P v)

theorem told {c : Call} {v : MsgView} {y : Err} (hne : y ≠ .cborNotWellFormed)
    (h : Meaning cfg P c v y) : Told cfg P c v y := ⟨fun _ => h, fun h => absurd h hne⟩

theorem critReason_told {c : Call} {v : MsgView} {y : Err} {prot : Bool} {room : Nat}
    (hroom : prot = true → room - 1 = 11)
    (h : CritReason P room prot (if prot then v.protEntries else v.unprotEntries) y) :
    Told cfg P c v y := by
  rcases h with ⟨rfl, rfl, h⟩ | ⟨rfl, h⟩ | ⟨rfl, rfl, e, he, hl, k, ces, cEnd, hv, hel, x, hx, hxe⟩
  · exact told (by decide) (.inr h)
  · refine told (by decide) ?_
    rcases h with h | ⟨e, he, hl, h⟩
    · cases prot with
      | true => exact .inl (.inl h)
      | false => exact .inr (.inl (.inl h))
    · rcases h with h | h | ⟨rfl, k, ces, cEnd, hv, hel, hb⟩
      · cases prot with
        | true => exact .inl (.inr ⟨e, he, hl, .inl h⟩)
        | false => exact .inr (.inl (.inr ⟨e, he, hl, .inl h⟩))
      · cases prot with
        | true => exact .inl (.inr ⟨e, he, hl, .inr h⟩)
        | false => exact .inr (.inl (.inr ⟨e, he, hl, .inr h⟩))
      · rw [hroom rfl] at hel
        exact .inr (.inr ⟨ces, ⟨e, he, hl, k, cEnd, hv, hel⟩, hb⟩)
  · rw [hroom rfl] at hel
    exact ⟨fun h => absurd rfl h, fun _ => .inr ⟨ces, ⟨e, he, hl, k, cEnd, hv, hel⟩, x, hx, hxe⟩⟩

theorem mem_entries {v : MsgView} {prot : Bool} {e : Entry}
    (h : e ∈ if prot then v.protEntries else v.unprotEntries) : e ∈ v.entries := by
  unfold MsgView.entries
  rw [List.mem_append]
  cases prot
  · exact .inr h
  · exact .inl h

theorem headerReason_told {c : Call} {v : MsgView} {y : Err} {prot : Bool} {room : Nat}
    {p : Params} {xs : List Int × List Str} (hroom : prot = true → room - 1 = 11)
    (hp : prot = true → p = Params.clear) (hp2 : prot = false →
      HeaderFacts cfg true v.protEntries Params.clear p)
    (hxs : xs.1.length + (countInts (otherLabels (if prot then v.protEntries else
        v.unprotEntries))).length ≤ (unknownInts v.entries).length)
    (hxt : xs.2.length + (noteTstrs (otherLabels (if prot then v.protEntries else
        v.unprotEntries))).length ≤ (textLabels v.entries).length)
    (h : HeaderReason P room prot (if prot then v.protEntries else v.unprotEntries) p xs y) :
    Told cfg P c v y := by
  have hmax : paramListMax = 10 := rfl
  rcases h with ⟨rfl, h⟩ | ⟨rfl, h⟩ | ⟨rfl, e, he, hu, hw⟩ | h | h
  · refine told (by decide) ?_
    rcases h with h | h
    · exact .inl (by omega)
    · exact .inr (by omega)
  · refine told (by decide) ?_
    cases prot with
    | true => exact .inl h
    | false => exact .inr h
  · exact ⟨fun h => absurd rfl h, fun _ => .inl ⟨e, mem_entries he, hu, hw⟩⟩
  · rcases h with ⟨rfl, rfl, h⟩ | ⟨rfl, rfl, h⟩ | ⟨rfl, h⟩ | ⟨rfl, e, he, h⟩
    · exact told (by decide) (.inl h)
    · exact told (by decide) h
    · refine told (by decide) ?_
      cases prot with
      | true =>
        rw [hp rfl] at h
        rcases h with ⟨-, h⟩ | ⟨-, h⟩ | ⟨-, h⟩ | ⟨-, h | h⟩ <;> exact absurd rfl h
      | false =>
        obtain ⟨h4, h5, h6, h3⟩ := facts_has (hp2 rfl)
        rcases h with ⟨h, hn⟩ | ⟨h, hn⟩ | ⟨h, hn⟩ | ⟨h, hn⟩
        · exact ⟨4, by simp, h4 hn, h⟩
        · exact ⟨5, by simp, h5 hn, h⟩
        · exact ⟨6, by simp, h6 hn, h⟩
        · exact ⟨3, by simp, h3 hn, h⟩
    · exact told (by decide) ⟨e, mem_entries he, h⟩
  · exact critReason_told hroom h

theorem bodyReason_told {v : MsgView} {y : Err} (h : BodyReason cfg P v pay y) :
    Told cfg P (callOf me aad pay) v y := by
  have hui : (unknownInts v.entries).length =
      (unknownInts v.protEntries).length + (unknownInts v.unprotEntries).length := by
    simp [unknownInts, MsgView.entries, intLabels]
  have hut : (textLabels v.entries).length =
      (textLabels v.protEntries).length + (textLabels v.unprotEntries).length := by
    simp [MsgView.entries, textLabels]
  rcases h with h | ⟨p1, crit1, xs, hf, -, hn, h⟩ | ⟨rfl, ⟨w, rfl⟩, h⟩ | ⟨rfl, ⟨p, rfl⟩, h⟩
  · refine headerReason_told (prot := true) (room := 12) (fun _ => rfl) (fun _ => rfl) (by simp)
      ?_ ?_ h
    · simp only [if_true, List.length_nil, countInts_filter]; omega
    · simp only [if_true, List.length_nil, noteTstrs_labels]; omega
  · obtain ⟨hst, -⟩ := noteLabels_some _ _ _ hn
    simp only [List.nil_append] at hst
    subst hst
    refine headerReason_told (prot := false) (room := 13) (by simp) (by simp) (fun _ => hf)
      ?_ ?_ h
    · have := noteInts_le (otherLabels v.protEntries)
      rw [countInts_filter] at this
      simp only [Bool.false_eq_true, if_false, countInts_filter]; omega
    · simp only [Bool.false_eq_true, if_false, noteTstrs_labels]; omega
  · exact told (by decide) ⟨rfl, h⟩
  · exact told (by decide) ⟨by simp [callOf], h⟩

theorem checkCritical_told {v : MsgView} {x : Decoded} {p1 : Params} (hm : HeadersMean cfg P v x p1)
    (h : (checkCritical x.crit x.unk).1 ≠ .ok ()) :
    ∃ ces, IsCritList P v ces ∧ ((∃ i ∈ ints ces, i ∉ knownLabels ∧ Has i v.entries) ∨
      ∃ t ∈ texts ces, t ∈ textLabels v.entries) := by
  have happ : otherLabels v.protEntries ++ otherLabels v.unprotEntries = otherLabels v.entries := by
    simp [otherLabels, MsgView.entries]
  have htw : ∀ (l : List Int) (i : Int), i ∈ l.takeWhile (· != 0) → i ∈ l :=
    fun l i hi => (List.takeWhile_sublist _).subset hi
  have hunk := hm.unk
  rw [happ] at hunk
  rcases hm.crit.mean with ⟨hno, hcl⟩ | ⟨e, k, ces, cEnd, hf, -, hv, hel, -, -, -, hcl, -⟩
  · exfalso
    apply h
    unfold checkCritical
    rw [hcl, hunk, mkLL_intPrefix, mkLL_intPrefix, mkLL_tstrPrefix, mkLL_tstrPrefix]
    simp
  · have hmem : e ∈ v.protEntries.filter (fun e => decide (e.key = some 2)) := by rw [hf]; simp
    rw [List.mem_filter, decide_eq_true_iff] at hmem
    refine ⟨ces, ⟨e, hmem.1, key_iff.mp hmem.2, k, cEnd, hv, hel⟩, ?_⟩
    unfold checkCritical at h
    rw [hcl, hunk, mkLL_intPrefix, mkLL_intPrefix, mkLL_tstrPrefix, mkLL_tstrPrefix, ints_eq,
      texts_eq] at h
    simp only at h
    split at h
    · rename_i hany
      rw [List.any_eq_true] at hany
      obtain ⟨i, hi, hany⟩ := hany
      rw [List.any_eq_true] at hany
      obtain ⟨j, hj, hij⟩ := hany
      have : j = i := by simpa using hij
      subst this
      have hi := htw _ _ hi
      rw [noteInts_filter, List.mem_filter, decide_eq_true_iff] at hi
      refine .inl ⟨j, htw _ _ hj, hi.2.1, ?_⟩
      have h1 := hi.1
      rw [intLabels_eq, List.mem_filterMap] at h1
      obtain ⟨e', he', hk'⟩ := h1
      exact ⟨e', he', key_iff.mp hk'⟩
    · split at h
      · rename_i hany
        rw [List.any_eq_true] at hany
        obtain ⟨i, hi, hany⟩ := hany
        rw [List.any_eq_true] at hany
        obtain ⟨j, hj, hij⟩ := hany
        have : j = i := by simpa using hij
        subst this
        refine .inr ⟨j, hj, ?_⟩
        rw [List.mem_map] at hi
        obtain ⟨s, hs, rfl⟩ := hi
        unfold noteTstrs otherLabels at hs
        rw [List.mem_filterMap] at hs
        obtain ⟨l, hl, hls⟩ := hs
        rw [List.mem_map] at hl
        obtain ⟨e', he', rfl⟩ := hl
        rw [List.mem_filter] at he'
        unfold textLabels
        rw [List.mem_filterMap]
        refine ⟨e', he'.1, ?_⟩
        split at hls
        · rename_i s' hs'
          cases hls
          rw [hs']
        · cases hls
      · exact absurd rfl h

/-- **C64, partial.** When a message that has the form of a COSE_Sign1 is refused with
one of the codes about messages, then what that code says holds for the message.
For CBOR_NOT_WELL_FORMED less is true than its name: a parameter that is used was
read as not well-formed, or an element of the crit list could not be read, for
whatever reason (see `C64_claim_false`). -/
theorem C64_codes_partial (hP : P.maxTags ≤ 4) (hC : Quiet C) (hargs : ArgsOk aad pay)
    (v : MsgView) (hv : IsView P msg v) (y : Err)
    (h : (verifyInternal cfg P C junk me msg aad pay want).res = .error y) :
    (y ≠ .cborNotWellFormed → Meaning cfg P (callOf me aad pay) v y) ∧
    (y = .cborNotWellFormed →
      (∃ e ∈ v.entries, e.Used ∧ e.NotWellFormed) ∨
      ∃ ces, IsCritList P v ces ∧ ∃ e ∈ ces, e.Unreadable) := by
  show Told cfg P (callOf me aad pay) v y
  have hmsg : ∀ z ∉ messageCodes, Told cfg P (callOf me aad pay) v z := by
    intro z hz
    refine told (fun hc => by subst hc; exact hz (by decide)) ?_
    cases z <;> first | trivial | exact absurd (by decide) hz
  have hext : (y ∈ messageCodes → False) → Told cfg P (callOf me aad pay) v y := fun h => hmsg y h
  obtain ⟨-, n, c1, -, -, -, -, -, -, -, hen, -⟩ := id hv
  have hda := enterArray_intro_msg hv.1 hen
  have he : ((Dec.init msg).enterArray P).err = none := by rw [hda]
  have hvt : ((Dec.init msg).enterArray P).tags = v.tags := by rw [hda]
  have htl : ((Dec.init msg).enterArray P).tags.length ≤ P.maxTags := by
    rw [hvt]; exact hv.tags_le
  by_cases hpol : TagPolicy me.flags v.tags
  case neg =>
    unfold verifyInternal at h
    simp only [decodeErr_ok.mpr he] at h
    rcases processTags_eq (me := me) he htl hP with ⟨hpol', -⟩ | ⟨-, hpt⟩
    · rw [hvt] at hpol'
      exact absurd hpol' hpol
    · rw [hpt] at h
      simp only [VRes.fail, Except.error.injEq] at h
      subst h
      refine told (by decide) ?_
      by_cases h2 : me.flags.testBit 2 = true ∧ v.tags.head? ≠ some 18
      · exact .inl h2
      · refine .inr ⟨?_, ?_⟩
        · refine Classical.byContradiction fun hc => hpol ⟨fun h => ?_, fun h => absurd h hc⟩
          exact Classical.byContradiction fun hh => h2 ⟨h, hh⟩
        · refine Classical.byContradiction fun hc => hpol ⟨fun h => ?_, fun _ => hc⟩
          exact absurd ⟨h, hc⟩ h2
  rcases decodeBody_cases (cfg := cfg) (pay := pay) junk hv with ⟨x, hx⟩ | ⟨z, st, hb, hre⟩
  case inr =>
    unfold verifyInternal at h
    simp only [decodeErr_ok.mpr he] at h
    rcases processTags_eq (me := me) he htl hP with ⟨-, hpt⟩ | ⟨hpol', -⟩
    · rw [hpt] at h
      simp only [hb, VRes.fail, Except.error.injEq] at h
      subst h
      exact bodyReason_told hre
    · rw [hvt] at hpol'
      exact absurd hpol hpol'
  · obtain ⟨p1, hm⟩ := hx.headersMean
    rw [verify_run hP hv hpol hx junk want] at h
    generalize hck : checkDecoded cfg C (me.withTags v) aad x = z at h
    obtain ⟨r, me', ub⟩ := z
    cases r with
    | ok u => cases h
    | error z =>
      simp only [VRes.fail, Except.error.injEq] at h
      subst h
      rcases checkDecoded_error (hx.wf hargs.1 hargs.2) hck with
        ⟨rfl, h1, h2⟩ | ⟨rfl, h1, h2⟩ | ⟨rfl, h1, h2, h3⟩ | ⟨hs, hed, h1⟩ | ⟨k, kid, t, s, h1⟩ |
        ⟨a, k, kid, d, s, h1⟩ | ⟨a, h1⟩ | ⟨hh, m, h1⟩ | rfl | rfl
      · refine told (by decide) ⟨h1, ?_⟩
        rw [← hm.kid.1, h2]
      · exact told (by decide) ⟨h1, checkCritical_told hm h2⟩
      · exact told (by decide) ⟨h3, h2, (isShortCircuit_iff hx).mp h1⟩
      · have hwe : WithEddsa cfg v :=
          ⟨((isEddsa_iff hx).mp hed).1, ((isEddsa_iff hx).mp hed).2,
            fun hh => hs ((isShortCircuit_iff hx).mpr hh)⟩
        rcases h1 with ⟨rfl, h1⟩ | ⟨rfl, h1, h2⟩
        · refine told (by decide) ⟨hwe, ?_⟩
          have hp := isPayload_of hx
          refine ⟨x.payload.ub.bytes, ?_, ?_⟩
          · cases pay with
            | inline w => exact hp
            | detached p => exact hp
          · rw [tbs_eq hx hp] at h1
            exact h1
        · exact told (by decide) ⟨hwe, h1, h2⟩
      · exact hext fun hc => hC.verifyEddsa k kid t s _ hc h1
      · exact hext fun hc => hC.verify a k kid d s _ hc h1
      · exact hext fun hc => hC.start a _ hc h1
      · exact hext fun hc => hC.finish hh m _ hc h1
      · exact hmsg _ (by decide)
      · exact hmsg _ (by decide)

/-- The adapter of the examples leaves these codes alone. -/
theorem toy_quiet : Quiet toyCrypto where
  start a y hy h := by
    simp only [toyCrypto] at h
    split at h <;> cases h
    exact absurd hy (by decide)
  finish hh n y hy h := by
    simp only [toyCrypto] at h
    split at h <;> cases h
    exact absurd hy (by decide)
  verify a k kid d s y hy h := by
    simp only [toyCrypto] at h
    split at h <;> cases h
    exact absurd hy (by decide)
  verifyEddsa k kid t s y hy h := by
    simp only [toyCrypto] at h
    split at h <;> cases h
    exact absurd hy (by decide)

/-- A message with the given octets as protected header. -/
def rawProt (p : Bytes) : Bytes :=
  (Item.arr [.bstr p, .map [], .bstr [1], .bstr [2]]).enc

-- messages that are laid open, and are refused with each of the codes
example :
    [toyMsg true (es256Hdr ++ [(.uint 4, .bstr [1])]) [(.uint 4, .bstr [1])] [1],
     toyMsg true es256Hdr [(.uint 1, .nint 6)] [1],
     toyMsg true es256Hdr (manyUnknown 11) [1],
     toyMsg true [(.uint 1, .uint 0)] [] [1],
     toyMsg true es256Hdr [(.uint 3, .uint 65536)] [1],
     toyMsg true (critHdr [] (.uint 9)) [] [1],
     toyMsg true (critHdr [.uint 9] (.uint 9)) [] [1],
     toyMsg true es256Hdr [(.uint 4, .uint 1)] [1],
     rawProt [0xa1, 0x04, 0xf8, 0x10],
     toyMsgDetached es256Hdr [] [] [1],
     toyMsg true es256Hdr [(.uint 4, .bstr scKid)] [1],
     toyMsgEddsa [] [1]].map (fun m => ((viewOf QParams.std m).isSome, (toyVerify 0 m).res)) =
    [(true, .error .duplicateParameter), (true, .error .parameterNotProtected),
     (true, .error .tooManyParameters), (true, .error .nonIntegerAlgId),
     (true, .error .badContentType), (true, .error .critParameter),
     (true, .error .unknownCriticalParameter), (true, .error .parameterCbor),
     (true, .error .cborNotWellFormed), (true, .error .sign1Format),
     (true, .error .shortCircuitSig), (true, .error .needAuxiliaryBuffer)] := by decide +kernel

example : (toyVerify 2 (toyMsg true es256Hdr [] [1])).res = .error .noKid ∧
    (toyVerify 4 (toyMsg false es256Hdr [] [1])).res = .error .incorrectlyTagged ∧
    (sign1VerifyDetached Config.full QParams.std toyCrypto noJunk (VerifyCtx.init 0)
      (toyMsg true es256Hdr [] [1]) .nil (.data [1]) true).res = .error .cborFormatting := by
  decide +kernel

/-- A crit list with one element, an integer with five tags. -/
def taggedCrit : Bytes := toyMsg true [(.uint 1, .nint 6),
  (.uint 2, .arr [.tag 9 (.tag 9 (.tag 9 (.tag 9 (.tag 9 (.uint 1)))))])] [] [1]

/-- **C64, the full claim is false**: the crit list `[9(9(9(9(9(1)))))]` is well-formed CBOR, and
so is everything else in the message, yet the refusal says CBOR_NOT_WELL_FORMED
(src/t_cose_parameters.c:157-184 turns every error of QCBORDecode_GetNext into it). -/
theorem C64_claim_false :
    ¬ ∀ (cfg : Config) (C : Crypto) (junk : Junk) (me : VerifyCtx) (msg : Bytes) (v : MsgView)
      (y : Err), Quiet C → IsView QParams.std msg v →
      (sign1Verify cfg QParams.std C junk me msg true true).res = .error y →
      Meaning cfg QParams.std (callOf me .nil (.inline true)) v y := by
  intro h
  obtain ⟨v, hv⟩ : ∃ v, viewOf QParams.std taggedCrit = some v :=
    Option.isSome_iff_exists.mp (by decide +kernel)
  have h1 : (toyVerify 0 taggedCrit).res = .error .cborNotWellFormed := by decide +kernel
  have hm := h Config.full toyCrypto noJunk (VerifyCtx.init 0) taggedCrit v _ toy_quiet
    (viewOf_sound hv) h1
  have hes : (viewOf QParams.std taggedCrit).map (fun v => v.entries.all fun e =>
      decide (e.itm.err = none)) = some true := by decide +kernel
  rw [hv, Option.map_some, Option.some.injEq, List.all_eq_true] at hes
  have hce : (viewOf QParams.std taggedCrit).map (fun v => v.protEntries.all fun e =>
      match e.itm.val with
      | .arr k => match elements QParams.std false 11 k e.cur with
        | .ok (ces, _) => ces.all fun c => match c.itm.err with
          | some x => !x.notWellFormed
          | none => true
        | .error _ => true
      | _ => true) = some true := by decide +kernel
  rw [hv, Option.map_some, Option.some.injEq, List.all_eq_true] at hce
  rcases hm with ⟨e, he, x, hx, -⟩ | ⟨ces, ⟨e, he, -, k, cEnd, hval, hel⟩, c, hc, x, hx, hw⟩
  · have := of_decide_eq_true (hes e he)
    rw [this] at hx
    cases hx
  · have := hce e he
    simp only [hval, hel] at this
    rw [List.all_eq_true] at this
    have := this c hc
    rw [hx] at this
    simp only [hw] at this
    cases this

/-! ## A message that is no array -/

/-- The first octet cannot start a data item (RFC 8949 appendix C): additional
information 28 to 30, an indefinite length where there is none, or a break. -/
def BadFirst (b : UInt8) : Prop :=
  (28 ≤ b.toNat % 32 ∧ b.toNat % 32 ≤ 30) ∨ b = 0x1f ∨ b = 0x3f ∨ b = 0xdf ∨ b = 0xff

/-- The first octet is that of an item of one octet that is a number or a simple value,
or of a map. -/
def NoArray (b : UInt8) : Prop :=
  b.toNat % 32 < 24 ∧ (b.toNat / 32 = 0 ∨ b.toNat / 32 = 1 ∨ b.toNat / 32 = 5 ∨ b.toNat / 32 = 7)

theorem verify_of_err {x : QErr} (hx : ((Dec.init msg).enterArray P).err = some x) :
    (verifyInternal cfg P C junk me msg aad pay want).res =
      (match decodeErr (some x) with | .error y => .error y | .ok () => .ok ()) := by
  unfold verifyInternal
  simp only [hx]
  unfold decodeErr
  by_cases h1 : x = .fuel
  · simp only [if_pos h1, VRes.fail]
  · by_cases h2 : x = .tooManyTags
    · simp only [if_neg h1, if_pos h2, VRes.fail]
    · by_cases h3 : x.notWellFormed = true
      · simp only [if_neg h1, if_neg h2, if_pos h3, VRes.fail]
      · simp only [if_neg h1, if_neg h2, if_neg h3, VRes.fail]

theorem enterArray_err {b : UInt8} {rest : Bytes} (hlen : rest.length + 1 ≤ maxDecodeInput)
    {x : QErr}
    (h : (∃ c1, entry P false ⟨0, b :: rest⟩ = (.error x, c1)) ∨
      (∃ l it c1, entry P false ⟨0, b :: rest⟩ = (.ok (l, it), c1) ∧ it.err = some x) ∨
      (x = .unexpectedType ∧ ∃ l it c1, entry P false ⟨0, b :: rest⟩ = (.ok (l, it), c1) ∧
        it.err = none ∧ ∀ n, it.val ≠ .arr n)) :
    ((Dec.init (b :: rest)).enterArray P).err = some x := by
  have hi : Dec.init (b :: rest) = ⟨⟨0, b :: rest⟩, [], none, []⟩ := by
    unfold Dec.init
    simp only [List.length_cons]
    rw [if_neg (by omega)]
  rw [hi]
  unfold Dec.enterArray Dec.fetch
  simp only [Option.isSome_none, Bool.false_eq_true, if_false, Dec.atEnd, List.isEmpty_cons,
    Bool.or_self]
  rcases h with ⟨c1, h⟩ | ⟨l, it, c1, h, hx⟩ | ⟨rfl, l, it, c1, h, hx, hn⟩
  · rw [h]
  · rw [h]; simp only [hx]
  · rw [h]; simp only [hx]

/-- **C64 (no array).** Whatever follows, a message is refused with
CBOR_NOT_WELL_FORMED if its first octet cannot start a data item, and with
SIGN1_FORMAT if it starts a number, a simple value or a map. -/
theorem C64_first (b : UInt8) (rest : Bytes) (hlen : rest.length + 1 ≤ maxMessage) :
    (BadFirst b → (verifyInternal cfg P C junk me (b :: rest) aad pay want).res =
      .error .cborNotWellFormed) ∧
    (NoArray b → (verifyInternal cfg P C junk me (b :: rest) aad pay want).res =
      .error .sign1Format) := by
  constructor
  · intro h
    have key : ∀ x, decodeErr (some x) = .error .cborNotWellFormed →
        ((∃ c1, entry P false ⟨0, b :: rest⟩ = (.error x, c1)) ∨
        (∃ l it c1, entry P false ⟨0, b :: rest⟩ = (.ok (l, it), c1) ∧ it.err = some x)) →
        (verifyInternal cfg P C junk me (b :: rest) aad pay want).res =
          .error .cborNotWellFormed := by
      intro x hx h
      rw [verify_of_err (enterArray_err hlen (h.elim .inl (fun h => .inr (.inl h)))), hx]
    have recov : ∀ x c1, decodeAtom ⟨0, b :: rest⟩ = (.error x, c1) → x.unrec = false →
        ∃ l it c1, entry P false ⟨0, b :: rest⟩ = (.ok (l, it), c1) ∧ it.err = some x := by
      intro x c1 h1 h2
      unfold entry nextItem nextRaw
      simp only [nextTagged, h1, h2, Bool.false_eq_true, if_false, tagContent,
        Option.isSome_some, Bool.true_or, if_true]
      exact ⟨_, _, _, rfl, rfl⟩
    rcases h with ⟨h1, h2⟩ | h | h | h | h
    · refine key .unsupported (by decide) (.inr (recov _ ⟨0 + 1, rest⟩ ?_ rfl))
      unfold decodeAtom decodeHead
      simp only
      rw [if_neg (by omega), if_neg (by omega), if_pos (by omega)]
    all_goals subst h
    · exact key .badInt (by decide) (.inr (recov _ ⟨0 + 1, rest⟩ rfl rfl))
    · exact key .badInt (by decide) (.inr (recov _ ⟨0 + 1, rest⟩ rfl rfl))
    · exact key .badInt (by decide) (.inr (recov _ ⟨0 + 1, rest⟩ rfl rfl))
    · refine key .badBreak (by decide) (.inl ⟨⟨0 + 1, rest⟩, ?_⟩)
      have h1 : decodeAtom ⟨0, 0xff :: rest⟩ = (.ok (.val .brk), ⟨0 + 1, rest⟩) := rfl
      unfold entry nextItem nextRaw
      simp only [nextTagged, h1, Bool.false_eq_true, if_false, tagContent,
        Option.isSome_none, List.isEmpty_nil, Bool.false_or, if_true]
  · rintro ⟨h1, h2⟩
    have hv : ∃ v, decodeAtom ⟨0, b :: rest⟩ = (.ok (.val v), ⟨0 + 1, rest⟩) ∧ v ≠ .brk ∧
        ∀ n, v ≠ .arr n := by
      unfold decodeAtom decodeHead
      simp only
      rw [if_pos h1]
      simp only
      generalize b.toNat % 32 = ai at h1
      rcases h2 with h | h | h | h <;> rw [h]
      · simp only [if_true, if_neg (show ¬ ai = 31 by omega),
          if_pos (show ai ≤ int64Max by unfold int64Max; omega)]
        exact ⟨_, rfl, by simp, by simp⟩
      · simp only [if_true, Nat.one_ne_zero, if_false, if_neg (show ¬ ai = 31 by omega),
          if_pos (show ai ≤ int64Max by unfold int64Max; omega)]
        exact ⟨_, rfl, by simp, by simp⟩
      · rw [if_neg (by omega), if_neg (by omega), if_neg (by omega), if_neg (by omega),
          if_neg (by omega), if_pos rfl, if_neg (by omega), if_neg (by omega)]
        exact ⟨_, rfl, by simp, by simp⟩
      · rw [if_neg (by omega), if_neg (by omega), if_neg (by omega), if_neg (by omega),
          if_neg (by omega), if_neg (by omega), if_neg (by omega)]
        unfold decodeType7
        rw [if_neg (by omega)]
        by_cases h22 : ai = 22
        · rw [if_pos h22]; exact ⟨_, rfl, by simp, by simp⟩
        · rw [if_neg h22, if_neg (by omega)]; exact ⟨_, rfl, by simp, by simp⟩
    obtain ⟨v, hd, hb, hn⟩ := hv
    have hen : entry P false ⟨0, b :: rest⟩ = (.ok (none, ⟨v, [], none⟩), ⟨0 + 1, rest⟩) := by
      unfold entry nextItem nextRaw
      simp only [nextTagged, hd, Bool.false_eq_true, if_false, tagContent,
        Option.isSome_none, List.isEmpty_nil, Bool.false_or, if_true, if_neg hb]
    rw [verify_of_err (enterArray_err hlen (.inr (.inr ⟨rfl, _, _, _, hen, rfl, hn⟩)))]
    rfl

example : BadFirst 0xff ∧ BadFirst 0x9c ∧ NoArray 0xf6 ∧ NoArray 0xa4 := by
  refine ⟨.inr (.inr (.inr (.inr rfl))), .inl ⟨by decide, by decide⟩, ⟨by decide, by decide⟩,
    ⟨by decide, by decide⟩⟩

end TCose.Props
