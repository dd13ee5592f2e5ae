import Verif.Lemmas.VerifyMain

/-!
# What both headers of an accepted message say
-/

namespace TCose
open Spec

theorem noteLabels_append (a b : List (Option Val)) : ∀ (st : List Int × List Str),
    noteLabels (a ++ b) st = (noteLabels a st).bind (noteLabels b) := by
  induction a with
  | nil => intro st; rfl
  | cons l a ih =>
    intro st
    simp only [List.cons_append, noteLabels]
    cases noteLabel l st with
    | none => rfl
    | some st2 => exact ih st2

/-- Integer labels that count: neither 0 nor the one of crit. -/
def noteInts (ls : List (Option Val)) : List Int :=
  ls.filterMap fun l => match l with
    | some (.int i) => if i = 2 ∨ i = 0 then none else some i
    | _ => none

/-- Text labels. -/
def noteTstrs (ls : List (Option Val)) : List Str :=
  ls.filterMap fun l => match l with
    | some (.tstr s) => some s
    | _ => none

theorem noteLabels_some : ∀ (ls : List (Option Val)) (st st' : List Int × List Str),
    noteLabels ls st = some st' →
    st' = (st.1 ++ noteInts ls, st.2 ++ noteTstrs ls) ∧
    ∀ l ∈ ls, (∃ i, l = some (.int i)) ∨ ∃ s, l = some (.tstr s)
  | [], st, st', h => by
    simp only [noteLabels, Option.some.injEq] at h
    subst h
    exact ⟨by simp [noteInts, noteTstrs], by simp⟩
  | l :: ls, st, st', h => by
    simp only [noteLabels] at h
    cases hl : noteLabel l st with
    | none => rw [hl] at h; cases h
    | some st2 =>
      rw [hl] at h
      simp only at h
      obtain ⟨ih1, ih2⟩ := noteLabels_some ls st2 st' h
      unfold noteLabel at hl
      split at hl
      · rename_i i
        constructor
        · rw [ih1]
          split at hl
          · rename_i h2
            cases hl
            simp [noteInts, noteTstrs, h2]
          · rename_i h2
            split at hl
            · cases hl
            · cases hl
              by_cases h0 : i = 0
              · simp [noteInts, noteTstrs, h0]
              · simp [noteInts, noteTstrs, h0, h2]
        · intro l hl'
          rcases List.mem_cons.mp hl' with rfl | hl'
          · exact .inl ⟨i, rfl⟩
          · exact ih2 l hl'
      · rename_i s
        split at hl
        · cases hl
        · cases hl
          refine ⟨by rw [ih1]; simp [noteInts, noteTstrs], ?_⟩
          intro l hl'
          rcases List.mem_cons.mp hl' with rfl | hl'
          · exact .inr ⟨s, rfl⟩
          · exact ih2 l hl'
      · cases hl

/-- What both headers say. -/
structure HeadersMean (cfg : Config) (P : QParams) (v : MsgView) (x : Decoded) (p1 : Params) :
    Prop where
  prot : HeaderFacts cfg true v.protEntries Params.clear p1
  unprot : HeaderFacts cfg false v.unprotEntries p1 x.params
  unk : x.unk = mkLL (noteInts (otherLabels v.protEntries ++ otherLabels v.unprotEntries))
    (noteTstrs (otherLabels v.protEntries ++ otherLabels v.unprotEntries))
  unkOk : LLok (noteInts (otherLabels v.protEntries ++ otherLabels v.unprotEntries),
    noteTstrs (otherLabels v.protEntries ++ otherLabels v.unprotEntries))
  labels : ∀ l ∈ otherLabels v.protEntries ++ otherLabels v.unprotEntries,
    (∃ i, l = some (.int i)) ∨ ∃ s, l = some (.tstr s)
  crit : CritOk P 12 true v.protEntries LabelList.clear x.crit
  noCrit : ∀ e ∈ v.unprotEntries, e.label ≠ some (.int 2)

theorem DecodesTo.headersMean {cfg : Config} {P : QParams} {v : MsgView} {pay : VPayload}
    {x : Decoded} (h : DecodesTo cfg P v pay x) : ∃ p1, HeadersMean cfg P v x p1 := by
  obtain ⟨p1, crit1, unk1, h1, h2⟩ := h.headers
  rw [← mkLL_nil] at h1
  have h1' : HeaderOk cfg P 12 true v.protEntries Params.clear (mkLL [] [])
    (mkLL (([], []) : List Int × List Str).1 (([], []) : List Int × List Str).2) p1 crit1 unk1 := h1
  obtain ⟨f1, ⟨st1, hn1, rfl⟩, hc1⟩ := HeaderOk.facts LLok_nil h1'
  have hl1 := noteLabels_ok LLok_nil hn1
  obtain ⟨f2, ⟨st2, hn2, hu2⟩, hc2⟩ := HeaderOk.facts hl1 h2
  have hl2 := noteLabels_ok hl1 hn2
  have hboth : noteLabels (otherLabels v.protEntries ++ otherLabels v.unprotEntries) ([], [])
      = some st2 := by rw [noteLabels_append, hn1]; exact hn2
  obtain ⟨hst, hlab⟩ := noteLabels_some _ _ _ hboth
  simp only [List.nil_append] at hst
  subst hst
  rcases hc2 with ⟨hno, hceq⟩ | ⟨hfalse, -⟩
  · exact ⟨p1, f1, f2, hu2, hl2, hlab, by rw [hceq]; exact hc1, hno⟩
  · cases hfalse

/-- The crit list of an accepted message. -/
theorem CritOk.mean {P : QParams} {room : Nat} {es : List Entry} {l' : LabelList}
    (h : CritOk P room true es LabelList.clear l') :
    ((∀ e ∈ es, e.label ≠ some (.int 2)) ∧ l' = mkLL [] []) ∨
    ∃ e k ces cEnd, es.filter (fun e => e.key = some 2) = [e] ∧
      e.itm.err = none ∧ e.itm.val = .arr k ∧
      elements P false (room - 1) k e.cur = .ok (ces, cEnd) ∧ (∀ e ∈ ces, isLabelItem e) ∧
      (intsOf ces).length ≤ paramListMax ∧ (tstrsOf ces).length ≤ paramListMax ∧
      l' = mkLL (intsOf ces) (tstrsOf ces) ∧ l'.isClear = false := by
  rcases h with ⟨h1, h2⟩ | ⟨-, -, e, k, ces, cEnd, h1, h2, h3, h4, h5, h6⟩
  · exact .inl ⟨h1, h2⟩
  · have hf := (critFold_iff ces [] [] l' (by simp) (by simp)).mp (by rw [mkLL_nil]; exact h5)
    simp only [List.nil_append] at hf
    exact .inr ⟨e, k, ces, cEnd, h1, h2, h3, h4, hf.1, hf.2.1, hf.2.2.1, hf.2.2.2, h6⟩

/-! ## Slices -/

theorem StrIn.trans {c : Cur} {s s' : Str} (h : StrIn c s) (h' : StrIn ⟨s.off, s.bytes⟩ s') :
    StrIn c s' := by
  obtain ⟨k, n, h1, rfl⟩ := h
  obtain ⟨j, m, h2, rfl⟩ := h'
  simp only [List.length_take, List.length_drop] at h2
  refine ⟨k + j, m, by omega, ?_⟩
  simp only [Str.mk.injEq]
  refine ⟨by omega, ?_⟩
  rw [List.drop_take, List.take_take, List.drop_drop, Nat.min_eq_left (by omega)]

theorem elements_in {P : QParams} {m : Bool} {room : Nat} {n : Option Nat} {c cEnd : Cur}
    {es : List Entry} (h : elements P m room n c = .ok (es, cEnd)) :
    Adv c cEnd ∧ ∀ e ∈ es, EntryIn c e := by
  rw [elements_rem] at h
  obtain ⟨h1, h2⟩ := Rem_in h
  have ho := openLvl_adv n c
  exact ⟨ho.trans h1, fun e he => (h2 e he).of_adv ho⟩

/-- All strings of a view are slices of the message. -/
theorem Spec.IsView.slices {P : QParams} {msg : Bytes} {v : MsgView} (h : IsView P msg v) :
    StrIn ⟨0, msg⟩ v.prot ∧ StrIn ⟨0, msg⟩ v.sig ∧ ValIn ⟨0, msg⟩ v.payload ∧
    (∀ e ∈ v.protEntries, ValIn ⟨0, msg⟩ e.itm.val) ∧
    (∀ e ∈ v.unprotEntries, ValIn ⟨0, msg⟩ e.itm.val) := by
  obtain ⟨-, n, c1, e0, e1, e2, e3, cE, m, c2, a1, a2, -, a4, a5, a6, -, a8, a9, a10⟩ := h
  have hen := entry_ok P false ⟨0, msg⟩
  rw [a1] at hen
  have hc1 : Adv ⟨0, msg⟩ c1 := hen.1.adv
  have hel := (elements_in a2).2
  have hv : ∀ e ∈ e0 :: e1 :: e2 :: e3 :: v.extra, EntryIn ⟨0, msg⟩ e :=
    fun e he => (hel e he).of_adv hc1
  have hp : StrIn ⟨0, msg⟩ v.prot := by
    have := (hv e0 (by simp)).2.2.1
    rw [a4] at this
    exact this
  refine ⟨hp, ?_, ?_, ?_, ?_⟩
  · have := (hv e3 (by simp)).2.2.1
    rw [a10] at this
    exact this
  · have := (hv e2 (by simp)).2.2.1
    rw [a9] at this
    exact this
  · rcases a5 with ⟨-, h0⟩ | ⟨-, it, k, c3, c4, b1, -, -, b4⟩
    · rw [h0]; simp
    · intro e he
      have hen := entry_ok P false ⟨v.prot.off, v.prot.bytes⟩
      rw [b1] at hen
      have hc3 : Adv ⟨v.prot.off, v.prot.bytes⟩ c3 := hen.1.adv
      have := ((elements_in b4).2 e he).2.2.1.of_adv hc3
      revert this
      cases e.itm.val <;> first | exact fun h => hp.trans h | exact fun _ => trivial
  · intro e he
    have h1 := (hv e1 (by simp)).1.adv
    exact ((elements_in a8).2 e he).2.2.1.of_adv h1

end TCose
