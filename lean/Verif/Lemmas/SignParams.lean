import Verif.Lemmas.SignRun

/-! Helper lemmas: `encodeParametersInternal` against the ideal encoder. -/

namespace TCose
open Enc (PRef Place maxStart)

namespace Enc

theorem insert_small_mono {e : Enc} {s : UB} {p : Nat} (h : (e.insert s p).small = false) :
    e.small = false := by
  cases hs : e.small with
  | false => rfl
  | true => rw [insert_small_of_small hs] at h; rw [h] at hs; cases hs

theorem bump_small (e : Enc) : e.bump.small = e.small := by
  unfold bump; repeat' split
  all_goals rfl

theorem addItem_small_mono {e : Enc} {h : Bytes} {s : UB} (hs : (e.addItem h s).small = false) :
    e.small = false := by
  unfold addItem at hs
  repeat' split at hs
  · exact hs
  · exact hs
  · rw [bump_small] at hs
    exact insert_small_mono (insert_small_mono hs)

theorem addTag_small_mono {e : Enc} {t : Nat} (hs : (e.addTag t).small = false) :
    e.small = false := by
  unfold addTag at hs
  repeat' split at hs
  · exact hs
  · exact hs
  · exact insert_small_mono hs

theorem openLevel_small (e : Enc) (k : NKind) : (e.openLevel k).small = e.small := by
  unfold openLevel
  simp only []
  repeat' split
  all_goals simp [bump_small]

theorem closeLevel_small_mono {e : Enc} {k : NKind} {f : Nest → Bytes}
    (hs : (e.closeLevel k f).small = false) : e.small = false := by
  unfold closeLevel at hs
  repeat' split at hs
  all_goals first | exact hs | exact insert_small_mono (by simpa using hs)

end Enc

namespace Rel
variable {cap : Nat} {nul : Bool} {e : Enc}

theorem closeBstr_ref {o c : Bytes} {k : Nat} {ns : List Nest}
    (h : Rel cap nul e ⟨o ++ c, none, ⟨.bstr, o.length, k⟩ :: ns⟩)
    (hs : e.closeBstrWrap2.1.small = false) :
    e.closeBstrWrap2.2 = (if nul then .null c.length
      else .at (o.length + (encodeHead 2 c.length).length) c.length) := by
  have hr := closeBstr_rel h
  have hes : e.small = false := Enc.closeLevel_small_mono hs
  obtain ⟨g1, g2, g3, g4⟩ := h.good hes
  obtain ⟨r1, r2, r3, r4⟩ := hr.good hs
  have hcl : (Ideal.closeBstr ⟨o ++ c, none, ⟨.bstr, o.length, k⟩ :: ns⟩)
      = ⟨o ++ encodeHead 2 c.length ++ c, none, ns⟩ := by
    simp only [Ideal.closeBstr]
    rw [Ideal.closeLevel_ok]
    simp
  rw [hcl] at r1
  simp only [List.length_append] at r1 g1
  have hstart : e.curStart = o.length := by simp [Enc.curStart, g3]
  have hdef : e.closeBstrWrap2.2
      = e.closeBstrWrap2.1.outTail (e.curStart + (e.closeBstrWrap2.1.len - e.len)) := rfl
  rw [hdef, hstart]
  have hpos : o.length + (e.closeBstrWrap2.1.len - e.len)
      = o.length + (encodeHead 2 c.length).length := by omega
  rw [hpos]
  unfold Enc.outTail
  rw [hs]
  simp only [Bool.false_eq_true, if_false]
  rw [if_neg (by omega)]
  have hlen : e.closeBstrWrap2.1.len - (o.length + (encodeHead 2 c.length).length) = c.length := by
    omega
  have hn := hr.nul_eq
  rcases hm : e.closeBstrWrap2.1.mem with x | m
  · rw [hm] at hn; simp only [Mem.isNull] at hn; subst hn; simp [hlen]
  · rw [hm] at hn; simp only [Mem.isNull] at hn; subst hn; simp [hlen]

end Rel

/-- Octets before the array head position: what precedes the message. -/
def o1 (me : SignCtx) (o : Bytes) : Bytes := o ++ tagBytes (!hasFlag me.flags optOmitTag)

/-- Output after the headers, before the array head gets inserted. -/
def hdrOut (cfg : Config) (me : SignCtx) (o : Bytes) : Bytes :=
  o1 me o ++ (bstrBytes (protMap me.alg) ++ unprotBytes (kidArg me).bytes (ctArg cfg me))

theorem tagBytes_length_le (t : Bool) : (tagBytes t).length ≤ 1 := by
  cases t <;> decide

theorem bstrProt_length_le (alg : Int) : (bstrBytes (protMap alg)).length ≤ 12 := by
  have h := Ideal.protMap_length_le alg
  have h1 : (encodeHead 2 (protMap alg).length).length = 1 := by
    unfold encodeHead; rw [if_pos (by omega)]; rfl
  simp only [bstrBytes, List.length_append]; omega

theorem kidArg_src (nul : Bool) (me : SignCtx) (h : (kidArg me).isNullOrEmpty = false) :
    Src nul (kidArg me) (kidArg me).bytes := by
  cases hk : kidArg me with
  | null n => rw [hk] at h; simp [UB.isNullOrEmpty] at h
  | data b => exact Src.data nul b

theorem isNullOrEmpty_iff (u : UB) : u.isNullOrEmpty = u.bytes.isEmpty := by
  cases u <;> rfl

theorem addUnprotected_rel {cap : Nat} {nul : Bool} {e : Enc} {a : Ideal}
    (cfg : Config) (me : SignCtx) (h : Rel cap nul e a) (hct : ctArg cfg me ≠ .both) :
    ∃ e', addUnprotected cfg me (kidArg me) e = (.ok (), e') ∧
      Rel cap nul e' (a.unprot (kidArg me).bytes (ctArg cfg me)) ∧
      (e'.small = false → e.small = false) := by
  -- state after the kid
  have hk : ∃ e1, (if (kidArg me).isNullOrEmpty then e.openMap
        else (e.openMap.addInt 4).addBytes (kidArg me)) = e1 ∧
      Rel cap nul e1 (if (kidArg me).bytes.isEmpty then a.openMap
        else (a.openMap.addInt 4).addBytes (kidArg me).bytes) ∧
      (e1.small = false → e.small = false) := by
    refine ⟨_, rfl, ?_⟩
    rw [isNullOrEmpty_iff]
    split
    · exact ⟨h.openMap_rel, fun hs => by rw [Enc.openMap, Enc.openLevel_small] at hs; exact hs⟩
    · rename_i hne
      refine ⟨(h.openMap_rel.addInt_rel 4).addBytes_rel
        (kidArg_src nul me (by rw [isNullOrEmpty_iff]; simpa using hne)), ?_⟩
      intro hs
      have := Enc.addItem_small_mono (Enc.addItem_small_mono hs)
      rwa [Enc.openMap, Enc.openLevel_small] at this
  obtain ⟨e1, he1, hr1, hs1⟩ := hk
  unfold addUnprotected
  simp only [he1]
  unfold Ideal.unprot
  simp only []
  generalize (if (kidArg me).bytes.isEmpty then a.openMap
        else (a.openMap.addInt 4).addBytes (kidArg me).bytes) = a1 at hr1 ⊢
  unfold ctArg at hct ⊢
  by_cases hd : cfg.disableContentType
  · simp only [hd, if_true]
    exact ⟨_, rfl, hr1.closeMap_rel, fun hs => hs1 (Enc.closeLevel_small_mono hs)⟩
  · simp only [hd, Bool.false_eq_true, if_false] at hct ⊢
    by_cases hu : me.contentTypeUint = emptyContentType
    · simp only [hu, ne_eq, not_true_eq_false, if_false, false_and]
      cases ht : me.contentTypeTstr with
      | none => exact ⟨_, rfl, hr1.closeMap_rel, fun hs => hs1 (Enc.closeLevel_small_mono hs)⟩
      | some t =>
        exact ⟨_, rfl, ((hr1.addInt_rel 3).addText_rel t).closeMap_rel, fun hs =>
          hs1 (Enc.addItem_small_mono (Enc.addItem_small_mono (Enc.closeLevel_small_mono hs)))⟩
    · simp only [hu, ne_eq, not_false_eq_true, if_true, true_and] at hct ⊢
      cases ht : me.contentTypeTstr with
      | some t => simp [ht] at hct
      | none =>
        simp only [not_true_eq_false, if_false]
        exact ⟨_, rfl, ((hr1.addInt_rel 3).addUInt_rel _).closeMap_rel, fun hs =>
          hs1 (Enc.addItem_small_mono (Enc.addItem_small_mono (Enc.closeLevel_small_mono hs)))⟩

/-- What is known about the reference to the protected headers. -/
def PPok (nul : Bool) (me : SignCtx) (o : Bytes) (pp : PRef) : Prop :=
  pp = if nul then .null (protMap me.alg).length
    else .at ((o1 me o).length + 1) (protMap me.alg).length

theorem params_ok {cap : Nat} {nul : Bool} {e : Enc} {o : Bytes} {ns : List Nest}
    (cfg : Config) (me : SignCtx) (det : Bool)
    (h : Rel cap nul e ⟨o, none, ns⟩) (hl : LvlOk ns) (hd : ns.length ≤ 12)
    (ho : o.length + 32 ≤ maxStart)
    (halg : sigAlgSupported cfg me.alg = true)
    (hsc : ¬ (hasFlag me.flags optShortCircuit = true ∧ cfg.disableShortCircuit = true))
    (hct : ctArg cfg me ≠ .both) :
    ∃ pp e', encodeParametersInternal cfg me det e
        = (.ok (), { me with protectedParams := pp }, e') ∧
      Rel cap nul e' (if det then ⟨hdrOut cfg me o, none, ⟨.arr, (o1 me o).length, 2⟩ :: bumpN ns⟩
        else Ideal.bstrWrap ⟨hdrOut cfg me o, none, ⟨.arr, (o1 me o).length, 2⟩ :: bumpN ns⟩) ∧
      (e'.small = false → PPok nul me o pp) := by
  unfold encodeParametersInternal
  rw [if_neg (by simp [halg])]
  have ho1 : (o1 me o).length ≤ o.length + 1 := by
    have := tagBytes_length_le (!hasFlag me.flags optOmitTag)
    simp only [o1, List.length_append]; omega
  -- tag
  have htag : Rel cap nul (if hasFlag me.flags optOmitTag then e else e.addTag 18)
      ⟨o1 me o, none, ns⟩ := by
    unfold o1
    cases hasFlag me.flags optOmitTag with
    | true => simpa [tagBytes] using h
    | false =>
      have := h.addTag_rel 18
      rw [Ideal.addTag_ok hl] at this
      simpa [tagBytes] using this
  generalize (if hasFlag me.flags optOmitTag then e else e.addTag 18) = e0 at htag ⊢
  -- open array
  have harr := htag.openArray_rel
  rw [Ideal.openArray, Ideal.openLevel_ok _ hl (by omega) (by omega)] at harr
  simp only []
  generalize e0.openArray = e1 at harr ⊢
  -- protected
  have hm1 := harr.bstrWrap_rel
  rw [Ideal.bstrWrap, Ideal.openLevel_cons _ (by decide) (by decide) (by simp; omega) (by omega)] at hm1
  have hm2 := hm1.openMap_rel
  rw [Ideal.openMap, Ideal.openLevel_cons _ (by decide) (by decide) (by simp; omega) (by omega)] at hm2
  have hm3 := hm2.addInt_rel 1
  rw [Ideal.addInt, Ideal.addItem_cons (by decide) (by decide)] at hm3
  have hm4 := hm3.addInt_rel me.alg
  rw [Ideal.addInt, Ideal.addItem_cons (by decide) (by decide)] at hm4
  have hm5 := hm4.closeMap_rel
  simp only [List.append_nil] at hm5
  rw [Ideal.closeMap, List.append_assoc, Ideal.closeLevel_ok] at hm5
  have hpm : o1 me o ++ encodeHead 5 ((0 + 1 + 1) / 2) ++ (Enc.intHead 1 ++ Enc.intHead me.alg)
      = o1 me o ++ protMap me.alg := by simp [protMap]
  rw [hpm] at hm5
  have hm6 := hm5.closeBstr_rel
  have hcl : Ideal.closeBstr ⟨o1 me o ++ protMap me.alg, none,
        ⟨.bstr, (o1 me o).length, 0 + 1⟩ :: ⟨.arr, (o1 me o).length, 0 + 1⟩ :: bumpN ns⟩
      = ⟨o1 me o ++ bstrBytes (protMap me.alg), none, ⟨.arr, (o1 me o).length, 1⟩ :: bumpN ns⟩ := by
    simp only [Ideal.closeBstr]
    rw [Ideal.closeLevel_ok]
    simp [bstrBytes]
  rw [hcl] at hm6
  have href := fun hs => Rel.closeBstr_ref hm5 hs
  have henc : encodeProtected me.alg e1
      = ((((e1.bstrWrap.openMap).addInt 1).addInt me.alg).closeMap).closeBstrWrap2 := rfl
  rw [henc]
  generalize ((((e1.bstrWrap.openMap).addInt 1).addInt me.alg).closeMap).closeBstrWrap2 = q at hm6 href ⊢
  obtain ⟨e2, pp⟩ := q
  simp only [] at hm6 href ⊢
  rw [if_neg (by simpa using hsc)]
  have hkid : (if hasFlag me.flags optShortCircuit = true ∧ me.kid.isNullOrEmpty = true then
      UB.data shortCircuitKid else me.kid) = kidArg { me with protectedParams := pp } := rfl
  rw [hkid]
  obtain ⟨e3, h3, hr3, hs3⟩ := addUnprotected_rel cfg { me with protectedParams := pp } hm6 hct
  rw [h3]
  have hbl : (o1 me o ++ bstrBytes (protMap me.alg)).length < maxStart := by
    have := bstrProt_length_le me.alg
    simp only [List.length_append]; omega
  have hlo : LvlOk (⟨.arr, (o1 me o).length, 1⟩ :: bumpN ns) := ⟨by simp, by simp⟩
  rw [Ideal.unprot_ok _ _ hlo (by simp; omega) hbl] at hr3
  have hout : o1 me o ++ bstrBytes (protMap me.alg) ++
      unprotBytes (kidArg { me with protectedParams := pp }).bytes
        (ctArg cfg { me with protectedParams := pp }) = hdrOut cfg me o := by
    simp [hdrOut]; rfl
  rw [hout] at hr3
  have hbn : bumpN (⟨.arr, (o1 me o).length, 1⟩ :: bumpN ns)
      = ⟨.arr, (o1 me o).length, 2⟩ :: bumpN ns := rfl
  rw [hbn] at hr3
  have hhl : (encodeHead 2 (protMap me.alg).length).length = 1 := by
    have := Ideal.protMap_length_le me.alg
    unfold encodeHead; rw [if_pos (by omega)]; rfl
  refine ⟨pp, _, rfl, ?_, ?_⟩
  · cases det with
    | true => simpa using hr3
    | false =>
      have := hr3.bstrWrap_rel
      simpa using this
  · intro hs
    have hs' : e3.small = false := by
      cases det with
      | true => simpa using hs
      | false =>
        simp only [Bool.false_eq_true, if_false] at hs
        rwa [Enc.bstrWrap, Enc.openLevel_small] at hs
    have := href (hs3 hs')
    rw [hhl] at this
    exact this

end TCose
