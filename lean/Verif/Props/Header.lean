import Verif.Lemmas.Returned
import Verif.Lemmas.ViewOf
import Verif.Crypto.ToyMsg
import Verif.Props.Verify

/-!
# C18, C21–C28: what an accepted message looks like

Stated about the message laid open (`IsView`, Spec/View.lean) and its header
parameters (Spec/Header.lean).
-/

namespace TCose.Props
open TCose Spec

variable (cfg : Config) (P : QParams) (C : Crypto) (junk : Junk) (me : VerifyCtx)
  (msg : Bytes) (aad : UB) (pay : VPayload) (want : Bool)

/-! ## C18 -/

/-- **C18.** On success every header string returned is a contiguous part of the
message, and so is the payload. -/
theorem C18_slices (hP : P.maxTags ≤ 4)
    (h : (verifyInternal cfg P C junk me msg aad pay want).res = .ok ()) :
    (∀ p, (verifyInternal cfg P C junk me msg aad pay want).params = some p →
      (∀ s, p.kid = some s → Slice msg s) ∧ (∀ s, p.iv = some s → Slice msg s) ∧
      (∀ s, p.partialIv = some s → Slice msg s) ∧ (∀ s, p.ctTstr = some s → Slice msg s)) ∧
    ∀ b, (verifyInternal cfg P C junk me msg aad pay want).payload = some b →
      ∃ s, b = .slice s ∧ Slice msg s := by
  obtain ⟨v, x, me', ub, hacc, heq⟩ := verify_ok hP h
  obtain ⟨p1, hm⟩ := hacc.decodes.headersMean
  obtain ⟨-, -, hpl, hpe, hue⟩ := hacc.view.slices
  have hall : ∀ e ∈ v.entries, ValIn ⟨0, msg⟩ e.itm.val := by
    intro e he
    rcases List.mem_append.mp he with he | he
    · exact hpe e he
    · exact hue e he
  have hb : ∀ i s, (param i v.entries).bind Val.asBstr = some s → Slice msg s := by
    intro i s hs
    cases hp : param i v.entries with
    | none => rw [hp] at hs; cases hs
    | some w =>
      rw [hp] at hs
      obtain ⟨e, he, -, rfl⟩ := param_some hp
      have := hall e he
      cases hv : e.itm.val with
      | bstr t =>
        rw [hv] at hs this
        cases hs
        exact slice_of_strIn this
      | _ => rw [hv] at hs; cases hs
  constructor
  · intro p hp
    rw [heq] at hp
    have hp' : p = x.params := by
      cases want with
      | false => cases hp
      | true => exact (Option.some.inj hp).symm
    subst hp'
    refine ⟨fun s hs => hb 4 s (by rw [← hs, hm.kid.1]; rfl),
      fun s hs => hb 5 s (by rw [← hs, hm.iv.1]; rfl),
      fun s hs => hb 6 s (by rw [← hs, hm.piv.1]; rfl), ?_⟩
    intro s hs
    have key : ∀ es (q q' : Params) (b : Bool), HeaderFacts cfg b es q q' →
        (∀ e ∈ es, ValIn ⟨0, msg⟩ e.itm.val) → (∀ s, q.ctTstr = some s → Slice msg s) →
        ∀ s, q'.ctTstr = some s → Slice msg s := by
      intro es q q' b hf hin hq s hs
      by_cases hno : cfg.disableContentType = true ∨ ∀ e ∈ es, e.label ≠ some (.int 3)
      · exact hq s (by rw [← (hf.noCt hno).1]; exact hs)
      · rw [not_or] at hno
        obtain ⟨h1, h2⟩ := hno
        have : ∃ e, e ∈ es ∧ e.label = some (.int 3) := by
          apply Classical.byContradiction
          intro hc
          exact h2 fun e he hl => hc ⟨e, he, hl⟩
        obtain ⟨e, he, hl⟩ := this
        rcases hf.ct (by simpa using h1) e he hl with ⟨t, hv, -, ht, -⟩ | ⟨i, -, -, -, -, -, ht⟩
        · rw [ht] at hs
          cases hs
          have := hin e he
          rw [hv] at this
          exact slice_of_strIn this
        · exact hq s (by rw [← ht]; exact hs)
    exact key _ _ _ _ hm.unprot hue (key _ _ _ _ hm.prot hpe (by intro s hs; cases hs)) s hs
  · intro b hb
    rw [heq] at hb
    simp only at hb
    split at hb
    · rename_i hpay
      cases hb
      have := hacc.decodes.payload
      rw [hpay] at this
      obtain ⟨s, h1, -, h3⟩ := this
      refine ⟨s, h3, ?_⟩
      rw [h1] at hpl
      exact slice_of_strIn hpl
    · cases hb

example : (toyVerify 0 (toyMsg true es256Hdr [(.uint 4, .bstr [1, 2]), (.uint 3, .tstr [0x61])]
    [0x68, 0x69])).params = some ⟨-7, some ⟨9, [1, 2]⟩, none, none, some ⟨13, [0x61]⟩, 65536⟩ ∧
    (toyVerify 0 (toyMsg true es256Hdr [(.uint 4, .bstr [1, 2]), (.uint 3, .tstr [0x61])]
    [0x68, 0x69])).payload = some (.slice ⟨15, [0x68, 0x69]⟩) := by decide +kernel

/-! ## C21 -/

/-- **C21, partial.** On success there is no algorithm id in the unprotected
header.  The one reported is the low 32 bits of the integer in the protected
header, and equal to it unless that is below -2^31; if there is none, nothing was
verified (decode-only) and 0 is reported.  Missing from the full claim: integers
below -2^31 (see `C21_claim_false`). -/
theorem C21_alg_partial (hP : P.maxTags ≤ 4)
    (h : (verifyInternal cfg P C junk me msg aad pay want).res = .ok ()) :
    ∃ v, IsView P msg v ∧ ¬ Has 1 v.unprotEntries ∧
      ∀ p, (verifyInternal cfg P C junk me msg aad pay want).params = some p →
        (¬ Has 1 v.protEntries ∧ p.alg = 0 ∧ Spec.Opt.decodeOnly me.flags = true) ∨
        ∃ i, param 1 v.protEntries = some (.int i) ∧ Int32Of i p.alg ∧ i ≤ 2147483647 ∧
          (-2147483648 ≤ i → p.alg = i) := by
  obtain ⟨v, x, me', ub, hacc, heq⟩ := verify_ok hP h
  obtain ⟨p1, hm⟩ := hacc.decodes.headersMean
  refine ⟨v, hacc.view, fun ⟨e, he, hl⟩ => hm.alg.1 e he hl, ?_⟩
  intro p hp
  rw [heq] at hp
  have hp' : p = x.params := by
    cases want with
    | false => cases hp
    | true => exact (Option.some.inj hp).symm
  subst hp'
  rcases hm.alg.2 with ⟨-, h0, hno⟩ | ⟨i, hi, -, hle, ha⟩
  · refine .inl ⟨fun ⟨e, he, hl⟩ => hno e he hl, h0, ?_⟩
    obtain ⟨-, -, hsig⟩ := checkDecoded_ok hacc.check
    rcases hsig with ⟨-, -, hv⟩ | ⟨-, hed, -⟩ | ⟨-, -, -, hv⟩
    · rcases verifyShortCircuit_ok hv with hd | ⟨-, hash, hh, -⟩
      · exact hd
      · exact absurd h0 (createTbsHash_supported hh).2.1
    · rw [hed.2] at h0; cases h0
    · rcases verifyDefault_ok hv with hd | ⟨hash, hh, -⟩
      · exact hd
      · exact absurd h0 (createTbsHash_supported hh).2.1
  · refine .inr ⟨i, ?_, by rw [ha]; exact toInt32_of i, hle, fun hge => ?_⟩
    · unfold MsgView.alg at hi
      cases hp : param 1 v.protEntries with
      | none => rw [hp] at hi; cases hi
      | some w =>
        rw [hp] at hi
        cases w with
        | int j => cases hi; rfl
        | _ => cases hi
    · rw [ha, toInt32_eq hge hle]

example : (toyVerify 0 (toyMsg true es256Hdr [] [1])).params.map (·.alg) = some (-7) ∧
    (toyVerify 0 (toyMsg true [] es256Hdr [1])).res = .error .parameterNotProtected := by
  decide +kernel

/-- A header whose algorithm id is -7 - 2^32. -/
def bigAlgHdr : List (Item × Item) := [(.uint 1, .nint 4294967302)]

/-- **C21, the full claim is false.** A message with algorithm -7 - 2^32 in its
protected header is accepted and reported as -7 (ES256). -/
theorem C21_claim_false :
    ¬ ∀ (cfg : Config) (C : Crypto) (junk : Junk) (me : VerifyCtx) (msg : Bytes) (v : MsgView)
      (p : Params), IsView QParams.std msg v →
      (sign1Verify cfg QParams.std C junk me msg true true).res = .ok () →
      (sign1Verify cfg QParams.std C junk me msg true true).params = some p →
      param 1 v.protEntries = some (.int p.alg) := by
  intro h
  have hv : (viewOf QParams.std (toyMsg true bigAlgHdr [] [1])).isSome = true := by decide +kernel
  obtain ⟨v, hv⟩ := Option.isSome_iff_exists.mp hv
  have := h Config.full toyCrypto noJunk (VerifyCtx.init 0) (toyMsg true bigAlgHdr [] [1]) v
    ⟨-7, none, none, none, none, 65536⟩ (viewOf_sound hv) (by decide +kernel) (by decide +kernel)
  have h2 : ∀ v, viewOf QParams.std (toyMsg true bigAlgHdr [] [1]) = some v →
      param 1 v.protEntries ≠ some (.int (-7)) := by
    have : ((viewOf QParams.std (toyMsg true bigAlgHdr [] [1])).map
        (fun v => param 1 v.protEntries)) = some (some (.int (-4294967303))) := by decide +kernel
    intro v hv
    rw [hv] at this
    simp only [Option.map_some, Option.some.injEq] at this
    rw [this]; decide
  exact h2 v hv this

/-! ## C22, C23: crit -/

theorem noteInts_mem {es : List Entry} {i : Int} (hi : i ∉ knownLabels) (h0 : i ≠ 0)
    (hh : Has i es) : i ∈ noteInts (otherLabels es) := by
  obtain ⟨e, he, hl⟩ := hh
  unfold noteInts otherLabels
  rw [List.mem_filterMap]
  refine ⟨e.label, ?_, ?_⟩
  · rw [List.mem_map]
    refine ⟨e, ?_, rfl⟩
    rw [List.mem_filter]
    refine ⟨he, ?_⟩
    unfold wanted
    rw [key_iff.mpr hl]
    simp only [knownLabels, List.mem_cons, List.not_mem_nil, or_false, not_or] at hi
    obtain ⟨h1, h2, h3, h4, h5, h6⟩ := hi
    simp [headerQs, List.lookup, beq_eq_false_iff_ne.mpr h1, beq_eq_false_iff_ne.mpr h3,
      beq_eq_false_iff_ne.mpr h4, beq_eq_false_iff_ne.mpr h5, beq_eq_false_iff_ne.mpr h6]
  · rw [hl]
    have : i ≠ 2 := by intro hc; exact hi (by simp [knownLabels, hc])
    simp [this, h0]

theorem noteTstrs_mem {es : List Entry} {e : Entry} {s : Str} (he : e ∈ es)
    (hl : e.label = some (.tstr s)) : s ∈ noteTstrs (otherLabels es) := by
  unfold noteTstrs otherLabels
  rw [List.mem_filterMap]
  refine ⟨e.label, ?_, by rw [hl]⟩
  rw [List.mem_map]
  refine ⟨e, ?_, rfl⟩
  rw [List.mem_filter]
  refine ⟨he, ?_⟩
  have : e.key = none := by unfold Spec.Entry.key; rw [hl]
  unfold wanted
  rw [this]; rfl

theorem ints_eq (ces : List Entry) : intsOf ces = ints ces := by
  unfold intsOf ints
  congr 1

theorem texts_eq (ces : List Entry) : (tstrsOf ces).map (·.bytes) = texts ces := by
  unfold tstrsOf texts
  rw [List.map_filterMap]
  congr 1
  funext e
  cases e.itm.val <;> rfl

theorem critList_ok {es : List Entry} {l' : LabelList} {P : QParams}
    (h : CritOk P 12 true es LabelList.clear l') {e : Entry} (he : e ∈ es)
    (hl : e.label = some (.int 2)) :
    ∃ k ces cEnd, es.filter (fun e => e.key = some 2) = [e] ∧
      e.itm.val = .arr k ∧
      elements P false 11 k e.cur = .ok (ces, cEnd) ∧ (∀ e ∈ ces, isLabelItem e) ∧
      (ints ces).length ≤ 10 ∧ (texts ces).length ≤ 10 ∧
      l' = mkLL (intsOf ces) (tstrsOf ces) ∧ l'.isClear = false := by
  rcases h.mean with ⟨hno, -⟩ | ⟨e', k, ces, cEnd, h1, h2, h3, h4, h5, h6, h7, h8, h9⟩
  · exact absurd hl (hno e he)
  · have hmem : e ∈ es.filter (fun e => e.key = some 2) := by
      rw [List.mem_filter]; exact ⟨he, by simpa using key_iff.mpr hl⟩
    rw [h1] at hmem
    have : e = e' := by simpa using hmem
    subst this
    refine ⟨k, ces, cEnd, h1, h3, h4, h5, ?_, ?_, h8, h9⟩
    · rw [← ints_eq]; exact h6
    · rw [← texts_eq, List.length_map]; exact h7

theorem intLabels_eq (es : List Entry) : intLabels es = es.filterMap Spec.Entry.key := by
  unfold intLabels
  congr 1

theorem count_labels (es : List Entry) (i : Int) : (intLabels es).count i =
    (es.filter (fun e => e.key = some i)).length := by
  rw [intLabels_eq]
  induction es with
  | nil => rfl
  | cons e es ih =>
    by_cases hk : e.key = some i
    · rw [List.filter_cons_of_pos (by simpa using hk), List.length_cons, ← ih,
        List.filterMap_cons_some hk, List.count_cons_self]
    · rw [List.filter_cons_of_neg (by simpa using hk), ← ih]
      cases hc : e.key with
      | none => rw [List.filterMap_cons_none hc]
      | some j =>
        rw [List.filterMap_cons_some hc, List.count_cons_of_ne]
        intro hji
        subst hji
        exact hk hc

/-- **C22, partial.** Without UNKNOWN_CRIT_ALLOWED a message is refused if its crit
list names, before the first 0 in it, an integer label, or anywhere a text label,
that is in one of the headers and is not one t_cose processes.  Missing from the
full claim: the label 0 and integers behind it (see `C22_claim_false`). -/
theorem C22_unknown_critical_partial (hP : P.maxTags ≤ 4) (v : MsgView) (hv : IsView P msg v)
    (hflag : Spec.Opt.unknownCritAllowed me.flags = false)
    (ces : List Entry) (hces : IsCritList P v ces)
    (hbad : (∃ i ∈ (ints ces).takeWhile (· != 0), i ∉ knownLabels ∧ Has i v.entries) ∨
      ∃ t ∈ texts ces, t ∈ textLabels v.entries) :
    (verifyInternal cfg P C junk me msg aad pay want).res ≠ .ok () := by
  have hflag : hasFlag me.flags optUnknownCritAllowed = false := hflag
  intro h
  obtain ⟨v', x, me', ub, hacc, heq⟩ := verify_ok hP h
  have := hv.unique hacc.view
  subst this
  obtain ⟨p1, hm⟩ := hacc.decodes.headersMean
  obtain ⟨-, hcc, -⟩ := checkDecoded_ok hacc.check
  rcases hcc with hf | hcc
  · rw [show (me.withTags v).flags = me.flags from rfl, hflag] at hf; cases hf
  · obtain ⟨e, he, hl, k, cEnd, hval, hel⟩ := hces
    obtain ⟨k', ces', cEnd', -, hval', hel', -, -, -, hcrit, -⟩ := critList_ok hm.crit he hl
    rw [hval] at hval'
    cases hval'
    rw [hel] at hel'
    cases hel'
    unfold checkCritical at hcc
    rw [hcrit, hm.unk, mkLL_intPrefix, mkLL_intPrefix, mkLL_tstrPrefix, mkLL_tstrPrefix, ints_eq,
      texts_eq] at hcc
    have hnoz : ∀ l : List Int, (0 : Int) ∉ l → l.takeWhile (· != 0) = l := by
      intro l
      induction l with
      | nil => intro _; rfl
      | cons y ys ih =>
        intro hn
        rw [List.mem_cons, not_or] at hn
        rw [List.takeWhile_cons, if_pos (by simpa using Ne.symm hn.1), ih hn.2]
    have happ : ∀ (a b : List Entry), noteInts (otherLabels a ++ otherLabels b) =
        noteInts (otherLabels (a ++ b)) := by
      intro a b; simp [noteInts, otherLabels]
    have happ2 : ∀ (a b : List Entry), noteTstrs (otherLabels a ++ otherLabels b) =
        noteTstrs (otherLabels (a ++ b)) := by
      intro a b; simp [noteTstrs, otherLabels]
    rw [hnoz _ hm.unkOk.2.1, happ, happ2] at hcc
    rcases hbad with ⟨i, hi, hunk, hhas⟩ | ⟨t, ht, htl⟩
    · have h0 : i ≠ 0 := by
        intro h0
        subst h0
        have : ∀ l : List Int, (0 : Int) ∉ l.takeWhile (· != 0) := by
          intro l
          induction l with
          | nil => simp
          | cons y ys ih =>
            rw [List.takeWhile_cons]
            split
            · rename_i hy
              rw [List.mem_cons, not_or]
              exact ⟨by intro hc; rw [← hc] at hy; simp at hy, ih⟩
            · simp
        exact this _ hi
      have hm1 := noteInts_mem hunk h0 hhas
      rw [if_pos] at hcc
      · cases hcc
      · rw [List.any_eq_true]
        refine ⟨i, hm1, ?_⟩
        rw [List.any_eq_true]
        exact ⟨i, hi, by simp⟩
    · split at hcc
      · cases hcc
      · rw [if_pos] at hcc
        · cases hcc
        · unfold textLabels at htl
          rw [List.mem_filterMap] at htl
          obtain ⟨e', he', hl'⟩ := htl
          split at hl'
          · rename_i s hs
            simp only [Option.some.injEq] at hl'
            subst hl'
            rw [List.any_eq_true]
            refine ⟨s.bytes, ?_, ?_⟩
            · rw [List.mem_map]
              exact ⟨s, noteTstrs_mem he' hs, rfl⟩
            · rw [List.any_eq_true]
              exact ⟨s.bytes, ht, by simp⟩
          · cases hl'

/-- The full claim holds for crit lists without the integer 0. -/
theorem C22_no_zero (hP : P.maxTags ≤ 4) (v : MsgView) (hv : IsView P msg v)
    (hflag : Spec.Opt.unknownCritAllowed me.flags = false)
    (ces : List Entry) (hces : IsCritList P v ces) (h0 : (0 : Int) ∉ ints ces)
    (hbad : (∃ i ∈ ints ces, i ∉ knownLabels ∧ Has i v.entries) ∨
      ∃ t ∈ texts ces, t ∈ textLabels v.entries) :
    (verifyInternal cfg P C junk me msg aad pay want).res ≠ .ok () := by
  have hflag : hasFlag me.flags optUnknownCritAllowed = false := hflag
  refine C22_unknown_critical_partial cfg P C junk me msg aad pay want hP v hv hflag ces hces ?_
  rcases hbad with h | h
  · left
    have hnoz : ∀ l : List Int, (0 : Int) ∉ l → l.takeWhile (· != 0) = l := by
      intro l
      induction l with
      | nil => intro _; rfl
      | cons y ys ih =>
        intro hn
        rw [List.mem_cons, not_or] at hn
        rw [List.takeWhile_cons, if_pos (by simpa using Ne.symm hn.1), ih hn.2]
    rw [hnoz _ h0]
    exact h
  · exact .inr h

/-- A protected header with algorithm ES256, a crit list and another parameter. -/
def critHdr (crit : List Item) (label : Item) : List (Item × Item) :=
  [(.uint 1, .nint 6), (.uint 2, .arr crit), (label, .uint 1)]

/-- Computable test for the hypotheses of C22. -/
def critCase (msg : Bytes) : Option (List Int × List Bytes × List Int × List Bytes) := do
  let v ← viewOf QParams.std msg
  let e ← v.protEntries.find? (fun e => decide (e.label = some (.int 2)))
  match e.itm.val with
  | .arr k =>
    match elements QParams.std false 11 k e.cur with
    | .ok (ces, _) => some (ints ces, texts ces, intLabels v.entries, textLabels v.entries)
    | _ => none
  | _ => none

theorem critCase_spec {msg : Bytes} {a b c d} (h : critCase msg = some (a, b, c, d)) :
    ∃ v ces, IsView QParams.std msg v ∧ IsCritList QParams.std v ces ∧ ints ces = a ∧
      texts ces = b ∧ intLabels v.entries = c ∧ textLabels v.entries = d := by
  unfold critCase at h
  cases hv : viewOf QParams.std msg with
  | none => rw [hv] at h; cases h
  | some v =>
    rw [hv] at h
    simp only [Option.bind_eq_bind, Option.bind_some] at h
    cases he : v.protEntries.find? (fun e => decide (e.label = some (.int 2))) with
    | none => rw [he] at h; cases h
    | some e =>
      rw [he] at h
      simp only [Option.bind_some] at h
      cases hk : e.itm.val with
      | arr k =>
        rw [hk] at h
        simp only at h
        generalize hel : elements QParams.std false 11 k e.cur = y at h
        cases y with
        | error q => cases h
        | ok q =>
          obtain ⟨ces, cEnd⟩ := q
          simp only [Option.some.injEq, Prod.mk.injEq] at h
          have hf := List.find?_some he
          exact ⟨v, ces, viewOf_sound hv, ⟨e, List.mem_of_find?_eq_some he, by simpa using hf,
            k, cEnd, hk, hel⟩, h⟩
      | _ => rw [hk] at h; cases h

example : critCase (toyMsg true (critHdr [.uint 99] (.uint 99)) [] [1]) =
    some ([99], [], [1, 2, 99], []) := by decide +kernel

example : critCase (toyMsg true (critHdr [.tstr [0x61]] (.tstr [0x61])) [] [1]) =
    some ([], [[0x61]], [1, 2], [[0x61]]) := by decide +kernel

example :
    (toyVerify 0 (toyMsg true (critHdr [.uint 99] (.uint 99)) [] [1])).res =
      .error .unknownCriticalParameter ∧
    (toyVerify 0 (toyMsg true (critHdr [.tstr [0x61]] (.tstr [0x61])) [] [1])).res =
      .error .unknownCriticalParameter ∧
    (toyVerify 32 (toyMsg true (critHdr [.uint 99] (.uint 99)) [] [1])).res = .ok () := by
  decide +kernel

/-- **C22, the full claim is false**, even for labels other than 0: with crit list
[100, 0, 99] an unknown parameter 99 is not noticed. -/
theorem C22_claim_false :
    ¬ ∀ (cfg : Config) (C : Crypto) (junk : Junk) (me : VerifyCtx) (msg : Bytes) (v : MsgView)
      (ces : List Entry) (i : Int), IsView QParams.std msg v →
      Spec.Opt.unknownCritAllowed me.flags = false → IsCritList QParams.std v ces →
      i ∈ ints ces → i ∉ knownLabels → i ≠ 0 → i ∈ intLabels v.entries →
      (sign1Verify cfg QParams.std C junk me msg true true).res ≠ .ok () := by
  intro h
  have hc : critCase (toyMsg true (critHdr [.uint 100, .uint 0, .uint 99] (.uint 99)) [] [1]) =
      some ([100, 0, 99], [], [1, 2, 99], []) := by decide +kernel
  obtain ⟨v, ces, hv, hces, h1, -, h3, -⟩ := critCase_spec hc
  exact h Config.full toyCrypto noJunk (VerifyCtx.init 0) _ v ces 99 hv (by decide) hces
    (by rw [h1]; decide) (by decide) (by decide) (by rw [h3]; decide) (by decide +kernel)

/-- Also the unknown label 0 itself is not noticed (behind another label). -/
theorem C22_label_zero_false :
    ∃ v ces, IsView QParams.std (toyMsg true (critHdr [.uint 100, .uint 0] (.uint 0)) [] [1]) v ∧
      IsCritList QParams.std v ces ∧ (0 : Int) ∈ ints ces ∧ (0 : Int) ∈ intLabels v.entries ∧
      (toyVerify 0 (toyMsg true (critHdr [.uint 100, .uint 0] (.uint 0)) [] [1])).res = .ok () := by
  have hc : critCase (toyMsg true (critHdr [.uint 100, .uint 0] (.uint 0)) [] [1]) =
      some ([100, 0], [], [1, 2, 0], []) := by decide +kernel
  obtain ⟨v, ces, hv, hces, h1, -, h3, -⟩ := critCase_spec hc
  exact ⟨v, ces, hv, hces, by rw [h1]; decide, by rw [h3]; decide, by decide +kernel⟩

/-- **C23.** On success there is no crit parameter in the unprotected header, and a
crit parameter in the protected header is the only one there, and its value is a
non-empty array of integers and text strings, at most ten of each. -/
theorem C23_crit (hP : P.maxTags ≤ 4)
    (h : (verifyInternal cfg P C junk me msg aad pay want).res = .ok ()) :
    ∃ v, IsView P msg v ∧ ¬ Has 2 v.unprotEntries ∧
      ∀ e ∈ v.protEntries, e.label = some (.int 2) →
        (intLabels v.protEntries).count 2 = 1 ∧
        ∃ k ces cEnd, e.itm.val = .arr k ∧ elements P false 11 k e.cur = .ok (ces, cEnd) ∧
          ces ≠ [] ∧
          (∀ c ∈ ces, (∃ i, c.itm.val = .int i) ∨ ∃ s, c.itm.val = .tstr s) ∧
          (ints ces).length ≤ 10 ∧ (texts ces).length ≤ 10 := by
  obtain ⟨v, x, me', ub, hacc, heq⟩ := verify_ok hP h
  obtain ⟨p1, hm⟩ := hacc.decodes.headersMean
  refine ⟨v, hacc.view, fun ⟨e, he, hl⟩ => hm.noCrit e he hl, ?_⟩
  intro e he hl
  obtain ⟨k, ces, cEnd, hone, hval, hel, hall, hi, ht, hcr, hclear⟩ := critList_ok hm.crit he hl
  refine ⟨?_, k, ces, cEnd, hval, hel, ?_, fun c hc => (hall c hc).2, hi, ht⟩
  · rw [count_labels, hone]; rfl
  · intro hnil
    subst hnil
    rw [hcr] at hclear
    exact absurd hclear (by decide)

example :
    (toyVerify 0 (toyMsg true (critHdr [.uint 100, .tstr [0x61]] (.uint 99)) [] [1])).res = .ok () ∧
    (toyVerify 0 (toyMsg true (critHdr [] (.uint 99)) [] [1])).res =
      .error .critParameter ∧
    (toyVerify 0 (toyMsg true es256Hdr [(.uint 2, .arr [.uint 100])] [1])).res ≠ .ok () := by
  decide +kernel

/-! ## C24: limits -/

theorem noteInts_filter (es : List Entry) : noteInts (otherLabels es) =
    (intLabels es).filter (fun i => decide (i ∉ knownLabels ∧ i ≠ 0)) := by
  rw [intLabels_eq]
  induction es with
  | nil => rfl
  | cons e es ih =>
    have hcons : otherLabels (e :: es) =
        if wanted headerQs e = true then otherLabels es else e.label :: otherLabels es := by
      unfold otherLabels
      rw [List.filter_cons]
      cases wanted headerQs e <;> rfl
    rw [hcons]
    cases hk : e.key with
    | none =>
      have hw : wanted headerQs e = false := by unfold wanted; rw [hk]
      rw [hw, if_neg (by decide), List.filterMap_cons_none hk, ← ih]
      unfold noteInts
      rw [List.filterMap_cons_none]
      split
      · rename_i i hl
        rw [key_iff.mpr hl] at hk; cases hk
      · rfl
    | some i =>
      have hl := key_iff.mp hk
      rw [List.filterMap_cons_some hk, List.filter_cons]
      by_cases hkn : i ∈ ([1, 4, 5, 6, 3] : List Int)
      · have hw : wanted headerQs e = true := by
          unfold wanted; rw [hk]
          simp only [List.mem_cons, List.not_mem_nil, or_false] at hkn
          rcases hkn with rfl | rfl | rfl | rfl | rfl <;> rfl
        rw [hw, if_pos rfl, ih, if_neg]
        simp only [List.mem_cons, List.not_mem_nil, or_false] at hkn
        simp only [knownLabels, decide_eq_true_eq, not_and, List.mem_cons, List.not_mem_nil,
          or_false]
        intro h; omega
      · have hw : wanted headerQs e = false := by
          unfold wanted; rw [hk]
          simp only [List.mem_cons, List.not_mem_nil, or_false, not_or] at hkn
          obtain ⟨h1, h4, h5, h6, h3⟩ := hkn
          simp [headerQs, List.lookup, beq_eq_false_iff_ne.mpr h1, beq_eq_false_iff_ne.mpr h3,
            beq_eq_false_iff_ne.mpr h4, beq_eq_false_iff_ne.mpr h5, beq_eq_false_iff_ne.mpr h6]
        rw [hw, if_neg (by decide), hl]
        simp only [List.mem_cons, List.not_mem_nil, or_false] at hkn
        by_cases h20 : i = 2 ∨ i = 0
        · rw [if_neg]
          · rw [← ih]
            unfold noteInts
            rw [List.filterMap_cons_none]
            simp [h20]
          · simp only [knownLabels, decide_eq_true_eq, List.mem_cons, List.not_mem_nil, or_false]
            omega
        · rw [if_pos, ← ih]
          · unfold noteInts
            rw [List.filterMap_cons_some (b := i)]
            simp [h20]
          · simp only [knownLabels, decide_eq_true_eq, List.mem_cons, List.not_mem_nil, or_false]
            omega

theorem noteTstrs_labels (es : List Entry) :
    (noteTstrs (otherLabels es)).length = (textLabels es).length := by
  induction es with
  | nil => rfl
  | cons e es ih =>
    have hcons : otherLabels (e :: es) =
        if wanted headerQs e = true then otherLabels es else e.label :: otherLabels es := by
      unfold otherLabels
      rw [List.filter_cons]
      cases wanted headerQs e <;> rfl
    rw [hcons]
    by_cases ht : ∃ s, e.label = some (.tstr s)
    · obtain ⟨s, hs⟩ := ht
      have hk : e.key = none := by unfold Spec.Entry.key; rw [hs]
      have hw : wanted headerQs e = false := by unfold wanted; rw [hk]
      rw [hw, if_neg (by decide), hs]
      unfold noteTstrs textLabels at *
      simp only [List.filterMap_cons, hs, List.length_cons, ih]
    · have h1 : textLabels (e :: es) = textLabels es := by
        unfold textLabels
        rw [List.filterMap_cons_none]
        split
        · rename_i s hs; exact absurd ⟨s, hs⟩ ht
        · rfl
      rw [h1, ← ih]
      split
      · rfl
      · unfold noteTstrs
        rw [List.filterMap_cons_none]
        split
        · rename_i s hs; exact absurd ⟨s, hs⟩ ht
        · rfl

/-- **C24 (limits).** An accepted message has at most ten parameters with an
unknown integer label other than 0, and at most ten with a text label, over both
headers; and every label is an integer or a text string. -/
theorem C24_limits (hP : P.maxTags ≤ 4)
    (h : (verifyInternal cfg P C junk me msg aad pay want).res = .ok ()) :
    ∃ v, IsView P msg v ∧
      ((intLabels v.entries).filter (fun i => decide (i ∉ knownLabels ∧ i ≠ 0))).length ≤ 10 ∧
      (textLabels v.entries).length ≤ 10 ∧
      ∀ e ∈ v.entries, (∃ i, e.label = some (.int i)) ∨ ∃ s, e.label = some (.tstr s) := by
  obtain ⟨v, x, me', ub, hacc, heq⟩ := verify_ok hP h
  obtain ⟨p1, hm⟩ := hacc.decodes.headersMean
  have happ : otherLabels v.protEntries ++ otherLabels v.unprotEntries = otherLabels v.entries := by
    simp [otherLabels, MsgView.entries]
  refine ⟨v, hacc.view, ?_, ?_, ?_⟩
  · rw [← noteInts_filter, ← happ]; exact hm.unkOk.1
  · rw [← noteTstrs_labels, ← happ]; exact hm.unkOk.2.2
  · intro e he
    by_cases hw : wanted headerQs e = true
    · unfold wanted at hw
      cases hk : e.key with
      | none => rw [hk] at hw; cases hw
      | some i => exact .inl ⟨i, key_iff.mp hk⟩
    · refine hm.labels e.label ?_
      rw [happ]
      unfold otherLabels
      rw [List.mem_map]
      exact ⟨e, List.mem_filter.mpr ⟨he, by simpa using hw⟩, rfl⟩

/-- Ten unknown labels of each kind, and label 0. -/
def manyUnknown (k : Nat) : List (Item × Item) :=
  (List.range k).map (fun i => (.uint (100 + i), .uint i)) ++ [(.uint 0, .uint 0)] ++
    (List.range 10).map (fun i => (.tstr [0x61 + UInt8.ofNat i], .uint i))

example : (toyVerify 0 (toyMsg true es256Hdr (manyUnknown 9) [1])).res = .ok () ∧
    (toyVerify 0 (toyMsg true es256Hdr (manyUnknown 11) [1])).res = .error .tooManyParameters ∧
    (toyVerify 0 (toyMsg true es256Hdr [(.bstr [1], .uint 0)] [1])).res ≠ .ok () := by
  decide +kernel

/-! ## C25: duplicates -/

/-- **C25, partial.** In an accepted message each of alg, kid, iv and partial iv
occurs at most once over both headers, and crit and content type at most once in
each header; and (if the build processes content types) a content type in each
header can only be two of different type or an empty text first.  Missing from the
full claim: those cases of content type (see `C25_claim_false`). -/
theorem C25_duplicates_partial (hP : P.maxTags ≤ 4)
    (h : (verifyInternal cfg P C junk me msg aad pay want).res = .ok ()) :
    ∃ v, IsView P msg v ∧
      (∀ i ∈ [1, 4, 5, 6], (intLabels v.entries).count i ≤ 1) ∧
      (∀ i ∈ [2, 3], (intLabels v.protEntries).count i ≤ 1 ∧
        (intLabels v.unprotEntries).count i ≤ 1) ∧
      (cfg.disableContentType = false → ∀ a b, param 3 v.protEntries = some a →
        param 3 v.unprotEntries = some b →
        (∃ s i, a = .tstr s ∧ b = .int i) ∨ (∃ i s, a = .int i ∧ b = .tstr s) ∨
        ∃ s s', a = .tstr s ∧ s.bytes = [] ∧ b = .tstr s') := by
  obtain ⟨v, x, me', ub, hacc, heq⟩ := verify_ok hP h
  obtain ⟨p1, hm⟩ := hacc.decodes.headersMean
  have hnone : ∀ (es : List Entry) (i : Int), (∀ e ∈ es, e.label ≠ some (.int i)) →
      (intLabels es).count i = 0 := by
    intro es i hn
    rw [count_labels]
    have := (filter_key_nil (es := es) (i := i)).mpr hn
    rw [this]; rfl
  have hsum : ∀ i : Int, (intLabels v.entries).count i =
      (intLabels v.protEntries).count i + (intLabels v.unprotEntries).count i := by
    intro i
    rw [intLabels_eq, intLabels_eq, intLabels_eq, ← List.count_append, ← List.filterMap_append]
    rfl
  have hboth : ∀ i : Int, i ∈ ([1, 3, 4, 5, 6] : List Int) →
      (∀ e ∈ v.protEntries, ∀ e' ∈ v.unprotEntries, e.label = some (.int i) →
        e'.label ≠ some (.int i)) → (intLabels v.entries).count i ≤ 1 := by
    intro i hi hx
    rw [hsum]
    have h1 := hm.prot.once i hi
    have h2 := hm.unprot.once i hi
    rw [← count_labels] at h1 h2
    by_cases hp : ∀ e ∈ v.protEntries, e.label ≠ some (.int i)
    · rw [hnone _ _ hp]; omega
    · have : ∃ e ∈ v.protEntries, e.label = some (.int i) := by
        apply Classical.byContradiction
        intro hc
        exact hp fun e he hl => hc ⟨e, he, hl⟩
      obtain ⟨e, he, hl⟩ := this
      rw [hnone v.unprotEntries i fun e' he' => hx e he e' he' hl]; omega
  refine ⟨v, hacc.view, ?_, ?_, ?_⟩
  · intro i hi
    simp only [List.mem_cons, List.not_mem_nil, or_false] at hi
    rcases hi with rfl | rfl | rfl | rfl
    · exact hboth 1 (by decide) fun e _ e' he' _ => hm.alg.1 e' he'
    · exact hboth 4 (by decide) hm.kid.2
    · exact hboth 5 (by decide) hm.iv.2
    · exact hboth 6 (by decide) hm.piv.2
  · intro i hi
    simp only [List.mem_cons, List.not_mem_nil, or_false] at hi
    rcases hi with rfl | rfl
    · refine ⟨?_, by rw [hnone _ _ hm.noCrit]; omega⟩
      rcases hm.crit.mean with ⟨hno, -⟩ | ⟨e, k, ces, cEnd, h1, -⟩
      · rw [hnone _ _ hno]; omega
      · rw [count_labels, h1]; exact Nat.le_refl _
    · have h1 := hm.prot.once 3 (by decide)
      have h2 := hm.unprot.once 3 (by decide)
      rw [← count_labels] at h1 h2
      exact ⟨h1, h2⟩
  · intro hct a b ha hb
    obtain ⟨e, he, hl, rfl⟩ := param_some ha
    obtain ⟨e', he', hl', rfl⟩ := param_some hb
    rcases hm.prot.ct hct e he hl with ⟨s, hv, -, hp, -⟩ | ⟨i, hv, hi, hi', -, hp, -⟩
    · rcases hm.unprot.ct hct e' he' hl' with ⟨s', hv', hn, -⟩ | ⟨i', hv', -⟩
      · refine .inr (.inr ⟨s, s', hv, ?_, hv'⟩)
        rw [hp] at hn
        obtain ⟨o, bs⟩ := s
        cases bs with
        | nil => rfl
        | cons b bs => simp [Str.ub, UB.isNullOrEmpty] at hn
      · exact .inl ⟨s, i', hv, hv'⟩
    · rcases hm.unprot.ct hct e' he' hl' with ⟨s', hv', hn, -⟩ | ⟨i', hv', -, -, hn, -⟩
      · exact .inr (.inl ⟨i, s', hv, hv'⟩)
      · rw [hp] at hn
        unfold emptyContentType at hn
        omega

/-- ES256 and content type 50. -/
def ctHdr : List (Item × Item) := [(.uint 1, .nint 6), (.uint 3, .uint 50)]

example : (toyVerify 0 (toyMsg true ctHdr [(.uint 4, .bstr [1])] [1])).res = .ok () ∧
    (toyVerify 0 (toyMsg true ctHdr [(.uint 3, .uint 50)] [1])).res = .error .duplicateParameter ∧
    (toyVerify 0 (toyMsg true es256Hdr [(.uint 4, .bstr [1]), (.uint 4, .bstr [1])] [1])).res ≠
      .ok () ∧
    (toyVerify 0 (toyMsg true [(.uint 1, .nint 6), (.uint 4, .bstr [1])] [(.uint 4, .bstr [1])]
      [1])).res = .error .duplicateParameter := by decide +kernel

/-- The integer labels of both headers, for the witnesses. -/
abbrev allLabels (msg : Bytes) : Option (List Int) :=
  (viewOf QParams.std msg).map fun v => intLabels v.entries

/-- **C25, the full claim is false.** A numeric content type in the protected and a
text content type in the unprotected header are accepted together. -/
theorem C25_claim_false :
    ¬ ∀ (cfg : Config) (C : Crypto) (junk : Junk) (me : VerifyCtx) (msg : Bytes) (v : MsgView),
      IsView QParams.std msg v →
      (sign1Verify cfg QParams.std C junk me msg true true).res = .ok () →
      ∀ i ∈ [1, 3, 4, 5, 6], (intLabels v.entries).count i ≤ 1 := by
  intro h
  have hl : allLabels (toyMsg true ctHdr [(.uint 3, .tstr [0x61])] [1]) = some [1, 3, 3] := by
    decide +kernel
  unfold allLabels at hl
  rw [Option.map_eq_some_iff] at hl
  obtain ⟨v, hv, hl⟩ := hl
  have := h Config.full toyCrypto noJunk (VerifyCtx.init 0) _ v (viewOf_sound hv)
    (by decide +kernel) 3 (by decide)
  rw [hl] at this
  exact absurd this (by decide)

/-! ## C26: content type -/

/-- **C26, partial.** In an accepted message every content type is a text string or
an integer from 0 to 65535, and if there is only one content type it is returned
unchanged in its output field, with the other left empty; both are empty if there
is none.  Missing from the full claim: one content type in each header (see
`C26_claim_false`), and builds that do not process content types. -/
theorem C26_content_type_partial (hP : P.maxTags ≤ 4) (hct : cfg.disableContentType = false)
    (h : (verifyInternal cfg P C junk me msg aad pay want).res = .ok ()) :
    ∃ v, IsView P msg v ∧
      (∀ e ∈ v.entries, e.label = some (.int 3) →
        (∃ s, e.itm.val = .tstr s) ∨ ∃ i, e.itm.val = .int i ∧ 0 ≤ i ∧ i ≤ 65535) ∧
      ∀ p, (verifyInternal cfg P C junk me msg aad pay want).params = some p →
        (param 3 v.entries = none → p.ctTstr = none ∧ p.ctUint = 65536) ∧
        ((intLabels v.entries).count 3 ≤ 1 → ∀ a, param 3 v.entries = some a →
          (∃ s, a = .tstr s ∧ p.ctTstr = some s ∧ p.ctUint = 65536) ∨
          ∃ i : Int, a = .int i ∧ (p.ctUint : Int) = i ∧ p.ctTstr = none) := by
  obtain ⟨v, x, me', ub, hacc, heq⟩ := verify_ok hP h
  obtain ⟨p1, hm⟩ := hacc.decodes.headersMean
  have hsum : (intLabels v.entries).count 3 =
      (intLabels v.protEntries).count 3 + (intLabels v.unprotEntries).count 3 := by
    rw [intLabels_eq, intLabels_eq, intLabels_eq, ← List.count_append, ← List.filterMap_append]
    rfl
  refine ⟨v, hacc.view, ?_, ?_⟩
  · intro e he hl
    rcases List.mem_append.mp he with he | he
    · rcases hm.prot.ct hct e he hl with ⟨s, hv, -⟩ | ⟨i, hv, h0, h1, -⟩
      · exact .inl ⟨s, hv⟩
      · exact .inr ⟨i, hv, h0, h1⟩
    · rcases hm.unprot.ct hct e he hl with ⟨s, hv, -⟩ | ⟨i, hv, h0, h1, -⟩
      · exact .inl ⟨s, hv⟩
      · exact .inr ⟨i, hv, h0, h1⟩
  · intro p hp
    rw [heq] at hp
    have hp' : p = x.params := by
      cases want with
      | false => cases hp
      | true => exact (Option.some.inj hp).symm
    subst hp'
    have hclear : (∀ e ∈ v.protEntries, e.label ≠ some (.int 3)) →
        p1.ctTstr = none ∧ p1.ctUint = 65536 := fun hn => hm.prot.noCt (.inr hn)
    constructor
    · intro hn
      have hn := param_none hn
      obtain ⟨h1, h2⟩ := hclear fun e he => hn e (List.mem_append_left _ he)
      obtain ⟨h3, h4⟩ := hm.unprot.noCt (.inr fun e he => hn e (List.mem_append_right _ he))
      exact ⟨h3.trans h1, h4.trans h2⟩
    · intro hone a ha
      obtain ⟨e, he, hl, rfl⟩ := param_some ha
      have hpos : ∀ es : List Entry, e ∈ es → 0 < (intLabels es).count 3 := by
        intro es hes
        rw [count_labels, List.length_pos_iff]
        exact List.ne_nil_of_mem (List.mem_filter.mpr ⟨hes, by simpa using key_iff.mpr hl⟩)
      have hno : ∀ es : List Entry, (intLabels es).count 3 = 0 →
          ∀ e ∈ es, e.label ≠ some (.int 3) := by
        intro es hz e' he' hl'
        rw [count_labels, List.length_eq_zero_iff] at hz
        have := (filter_key_nil (es := es) (i := 3)).mp hz
        exact this e' he' hl'
      rcases List.mem_append.mp he with he | he
      · have h1 := hpos _ he
        obtain ⟨k1, k2⟩ := hm.unprot.noCt (.inr (hno _ (by omega)))
        rcases hm.prot.ct hct e he hl with ⟨s, hv, -, h3, h4⟩ | ⟨i, hv, h0, -, -, h3, h4⟩
        · exact .inl ⟨s, hv, k1.trans h3, k2.trans h4⟩
        · exact .inr ⟨i, hv, by rw [k2, h3]; omega, k1.trans h4⟩
      · have h1 := hpos _ he
        obtain ⟨k1, k2⟩ := hclear (hno _ (by omega))
        rcases hm.unprot.ct hct e he hl with ⟨s, hv, -, h3, h4⟩ | ⟨i, hv, h0, -, -, h3, h4⟩
        · exact .inl ⟨s, hv, h3, h4.trans k2⟩
        · exact .inr ⟨i, hv, by rw [h3]; omega, h4.trans k1⟩

example : (toyVerify 0 (toyMsg true ctHdr [] [1])).params =
      some ⟨-7, none, none, none, none, 50⟩ ∧
    (toyVerify 0 (toyMsg true es256Hdr [(.uint 3, .uint 65536)] [1])).res =
      .error .badContentType ∧
    (toyVerify 0 (toyMsg true es256Hdr [(.uint 3, .nint 0)] [1])).res =
      .error .badContentType := by decide +kernel

/-- The text content type of a header. -/
def ctText (es : List Entry) : Option Str :=
  match param 3 es with
  | some (.tstr s) => some s
  | _ => none

/-- The number content type of a header. -/
def ctNumber (es : List Entry) : Option Int :=
  match param 3 es with
  | some (.int i) => some i
  | _ => none

theorem ct_step {prot : Bool} {es : List Entry} {p p' : Params} (hct : cfg.disableContentType = false)
    (hf : HeaderFacts cfg prot es p p') :
    p'.ctTstr = (ctText es).or p.ctTstr ∧ (p'.ctUint : Int) = (ctNumber es).getD p.ctUint := by
  unfold ctText ctNumber
  cases hq : param 3 es with
  | none =>
    obtain ⟨h1, h2⟩ := hf.noCt (.inr (param_none hq))
    exact ⟨h1, by simp [h2]⟩
  | some a =>
    obtain ⟨e, he, hl, rfl⟩ := param_some hq
    rcases hf.ct hct e he hl with ⟨s, hv, -, h3, h4⟩ | ⟨i, hv, h0, -, -, h3, h4⟩
    · rw [hv]; exact ⟨h3, by simp [h4]⟩
    · rw [hv]; exact ⟨h4, by simp only [Option.getD_some]; omega⟩

/-- **C26 (what is returned).** In every accepted message: the text returned is that of
the unprotected header, or else that of the protected one; the number returned is that
of the header that has one; a build that does not process content types returns neither.
-/
theorem C26_returned (hP : P.maxTags ≤ 4)
    (h : (verifyInternal cfg P C junk me msg aad pay want).res = .ok ()) :
    ∃ v, IsView P msg v ∧
      ∀ p, (verifyInternal cfg P C junk me msg aad pay want).params = some p →
        if cfg.disableContentType then p.ctTstr = none ∧ p.ctUint = 65536
        else p.ctTstr = (ctText v.unprotEntries).or (ctText v.protEntries) ∧
          (p.ctUint : Int) = ((ctNumber v.unprotEntries).or (ctNumber v.protEntries)).getD 65536 := by
  obtain ⟨v, x, me', ub, hacc, heq⟩ := verify_ok hP h
  obtain ⟨p1, hm⟩ := hacc.decodes.headersMean
  refine ⟨v, hacc.view, fun p hp => ?_⟩
  rw [heq] at hp
  have hp' : p = x.params := by
    cases want with
    | false => cases hp
    | true => exact (Option.some.inj hp).symm
  subst hp'
  cases hct : cfg.disableContentType with
  | true =>
    obtain ⟨h1, h2⟩ := hm.prot.noCt (.inl hct)
    obtain ⟨h3, h4⟩ := hm.unprot.noCt (.inl hct)
    exact ⟨h3.trans h1, h4.trans h2⟩
  | false =>
    obtain ⟨h1, h2⟩ := ct_step cfg hct hm.prot
    obtain ⟨h3, h4⟩ := ct_step cfg hct hm.unprot
    refine ⟨by rw [h3, h1]; simp [Params.clear], ?_⟩
    rw [h4, h2]
    cases ctNumber v.unprotEntries <;> simp [Params.clear, emptyContentType]

/-- A text in the unprotected header and a number in the protected one: both are returned.
-/
example : (toyVerify 0 (toyMsg true ctHdr [(.uint 3, .tstr [0x61])] [1])).params =
    some ⟨-7, none, none, none, some ⟨12, [0x61]⟩, 50⟩ := by decide +kernel

/-- **C26, the full claim is false.** With one content type in each header both
output fields are filled. -/
theorem C26_claim_false :
    ¬ ∀ (cfg : Config) (C : Crypto) (junk : Junk) (me : VerifyCtx) (msg : Bytes) (p : Params),
      (sign1Verify cfg QParams.std C junk me msg true true).res = .ok () →
      (sign1Verify cfg QParams.std C junk me msg true true).params = some p →
      p.ctTstr = none ∨ p.ctUint = 65536 := by
  intro h
  have := h Config.full toyCrypto noJunk (VerifyCtx.init 0)
    (toyMsg true ctHdr [(.uint 3, .tstr [0x61])] [1])
    ⟨-7, none, none, none, some ⟨12, [0x61]⟩, 50⟩ (by decide +kernel) (by decide +kernel)
  exact absurd this (by decide)

/-! ## C27 -/

/-- **C27.** With REQUIRE_KID a success means that a kid is in the message, and it
is returned. -/
theorem C27_require_kid (hP : P.maxTags ≤ 4) (hf : Spec.Opt.requireKid me.flags = true)
    (h : (verifyInternal cfg P C junk me msg aad pay want).res = .ok ()) :
    ∃ v, IsView P msg v ∧ ∃ s, param 4 v.entries = some (.bstr s) ∧
      ∀ p, (verifyInternal cfg P C junk me msg aad pay want).params = some p → p.kid = some s := by
  have hf : hasFlag me.flags optRequireKid = true := hf
  obtain ⟨v, x, me', ub, hacc, heq⟩ := verify_ok hP h
  obtain ⟨p1, hm⟩ := hacc.decodes.headersMean
  obtain ⟨hk, -⟩ := checkDecoded_ok hacc.check
  have hk := hk hf
  rw [hm.kid.1] at hk
  obtain ⟨s, hs⟩ := Option.ne_none_iff_exists'.mp hk
  refine ⟨v, hacc.view, s, ?_, ?_⟩
  · unfold MsgView.kid at hs
    cases hp : param 4 v.entries with
    | none => rw [hp] at hs; cases hs
    | some w =>
      rw [hp] at hs
      cases w with
      | bstr t => cases hs; rfl
      | _ => cases hs
  · intro p hp
    rw [heq] at hp
    have hp' : p = x.params := by
      cases want with
      | false => cases hp
      | true => exact (Option.some.inj hp).symm
    rw [hp', hm.kid.1, hs]

example : (toyVerify 2 (toyMsg true es256Hdr [(.uint 4, .bstr [1])] [1])).res = .ok () ∧
    (toyVerify 2 (toyMsg true es256Hdr [] [1])).res = .error .noKid := by decide +kernel

/-! ## C28 -/

/-- **C28, partial.** A message accepted is one CBOR array and nothing more,
starting with an untagged byte string, a map, an untagged byte string (or null, if
the caller has the payload) and an untagged byte string.  Missing from the full
claim: that the array ends there (see `C28_claim_false`). -/
theorem C28_four_elements_partial (hP : P.maxTags ≤ 4)
    (h : (verifyInternal cfg P C junk me msg aad pay want).res = .ok ()) :
    ∃ tags n c1 es cEnd, entry P false ⟨0, msg⟩ = (.ok (none, ⟨.arr n, tags, none⟩), c1) ∧
      elements P false 14 n c1 = .ok (es, cEnd) ∧ cEnd.rest = [] ∧
      ∃ e0 e1 e2 e3 extra, es = e0 :: e1 :: e2 :: e3 :: extra ∧
        (∃ s, e0.itm = ⟨.bstr s, [], none⟩) ∧ (∃ m, e1.itm.val = .map m) ∧
        (match pay with
          | .inline _ => ∃ s, e2.itm = ⟨.bstr s, [], none⟩
          | .detached _ => e2.itm.val = .null) ∧
        ∃ s, e3.itm = ⟨.bstr s, [], none⟩ := by
  obtain ⟨v, x, me', ub, hacc, heq⟩ := verify_ok hP h
  obtain ⟨-, n, c1, e0, e1, e2, e3, cEnd, m, c2, h1, h2, h3, h4, -, h6, -, -, h9, h10⟩ := hacc.view
  refine ⟨v.tags, n, c1, _, cEnd, h1, h2, h3, e0, e1, e2, e3, v.extra, rfl, ⟨_, h4⟩, ⟨m, h6⟩, ?_,
    ⟨_, h10⟩⟩
  have := hacc.decodes.payload
  cases pay with
  | inline w =>
    obtain ⟨s, k1, k2, -⟩ := this
    exact ⟨s, by rw [h9, k1, k2]⟩
  | detached p => rw [h9]; exact this.1

/-- A message with a fifth element. -/
def fiveElements : Bytes :=
  let p := (Item.map es256Hdr).enc
  (Item.tag 18 (.arr [.bstr p, .map [], .bstr [1],
    .bstr (toySig (toyDigest algSHA256 (sigStructure p [] [1]))), .uint 5])).enc

example : (toyVerify 0 (toyMsg true es256Hdr [] [1])).res = .ok () ∧
    (toyVerify 0 (toyMsg true es256Hdr [] [1] ++ [0])).res ≠ .ok () := by decide +kernel

/-- **C28, the full claim is false.** An array of five elements is accepted. -/
theorem C28_claim_false :
    ¬ ∀ (cfg : Config) (C : Crypto) (junk : Junk) (me : VerifyCtx) (msg : Bytes) (v : MsgView),
      IsView QParams.std msg v →
      (sign1Verify cfg QParams.std C junk me msg true true).res = .ok () → v.extra = [] := by
  intro h
  have hl : (viewOf QParams.std fiveElements).map (fun v => v.extra.length) = some 1 := by
    decide +kernel
  rw [Option.map_eq_some_iff] at hl
  obtain ⟨v, hv, hl⟩ := hl
  have := h Config.full toyCrypto noJunk (VerifyCtx.init 0) _ v (viewOf_sound hv)
    (by decide +kernel)
  rw [this] at hl
  cases hl

end TCose.Props
