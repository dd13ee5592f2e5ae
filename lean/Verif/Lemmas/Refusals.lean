import Verif.Spec.Codes
import Verif.Lemmas.HeaderIntro
import Verif.Props.Header

/-!
# What an error in a header comes from
-/

namespace TCose
open Spec

/-! ## Searching a map whose entries can all be read -/

/-- The search over the entries of a map that can be traversed. -/
theorem searchLoop_fold (P : QParams) (room : Nat) {σ : Type} (qs : List (Int × QTyp))
    (cb : σ → Option Val → σ × Bool) :
    ∀ (n : Nat) (left : Option Nat) (c c' : Cur) (es : List Entry) (f : Found) (s : σ),
    traverse P true room n left c = .ok (es, c') →
    searchLoop P room qs cb n left c f s =
      match searchFold qs cb es f s with
      | (.error x, s') => (.error x, s')
      | (.ok f', s') => (.ok (f', c'), s') := by
  intro n
  induction n with
  | zero => intro left c c' es f s h; cases h
  | succ n ih =>
    intro left c c' es f s h
    rw [traverse] at h
    rw [searchLoop]
    split at h
    · cases h
    · rename_i hne
      rw [if_neg hne]
      generalize entry P true c = x at h ⊢
      obtain ⟨r, c1⟩ := x
      cases r with
      | error e => cases h
      | ok p =>
        obtain ⟨lab, it⟩ := p
        simp only at h ⊢
        generalize hy : skipValue P room it.val c1 = y at h ⊢
        cases y with
        | error e => cases h
        | ok c2 =>
          simp only at h ⊢
          generalize ascend [⟨true, left⟩] c2 = z at h ⊢
          obtain ⟨s3, c3⟩ := z
          cases s3 with
          | nil =>
            simp only [Except.ok.injEq, Prod.mk.injEq] at h
            obtain ⟨rfl, rfl⟩ := h
            rw [searchFold]
            cases hss : searchStep qs cb lab it c1 f s with
            | mk r2 s2 => cases r2 <;> rfl
          | cons l' s3 =>
            simp only at h ⊢
            cases ht : traverse P true room n l'.left c3 with
            | error e => rw [ht] at h; cases h
            | ok q =>
              obtain ⟨es', c4⟩ := q
              rw [ht] at h
              simp only [Except.ok.injEq, Prod.mk.injEq] at h
              obtain ⟨rfl, rfl⟩ := h
              rw [searchFold]
              cases hss : searchStep qs cb lab it c1 f s with
              | mk r2 s2 =>
                cases r2 with
                | error e => rfl
                | ok f2 => exact ih _ _ _ _ _ _ ht

theorem Dec.mapSearch_fold {P : QParams} {d : Dec} {start : Cur} {cnt : Option Nat}
    {ls : List Lvl} {es : List Entry} {cEnd : Cur} (h : InMap P d start cnt ls es cEnd)
    {σ : Type} (qs : List (Int × QTyp)) (cb : σ → Option Val → σ × Bool) (s : σ) :
    d.mapSearch P qs cb s = searchFold qs cb es [] s := by
  rcases h.rem with ⟨rfl, rfl, rfl⟩ | ⟨h0, ht⟩
  · unfold mapSearch
    rw [h.lvls]
    rfl
  · have hm : d.mapSearch P qs cb s =
        match searchLoop P d.room qs cb (start.rest.length + 1) cnt start [] s with
          | (.error e, s) => (.error e, s)
          | (.ok (found, _), s) => (.ok found, s) := by
      unfold mapSearch
      rw [h.lvls]
      rcases cnt with _ | _ | n
      · rfl
      · exact absurd rfl h0
      · rfl
    rw [hm, searchLoop_fold P d.room qs cb _ _ _ _ _ _ _ ht]
    generalize searchFold qs cb es [] s = x
    obtain ⟨r, s'⟩ := x
    cases r <;> rfl

/-- A search over entries that fails: some entry is the first that does. -/
theorem searchFold_error {σ : Type} {qs : List (Int × QTyp)} {cb : σ → Option Val → σ × Bool} :
    ∀ {es : List Entry} {f : Found} {s s' : σ} {x : QErr},
    searchFold qs cb es f s = (.error x, s') →
    ∃ pre e post f1 s1, es = pre ++ e :: post ∧ searchFold qs cb pre f s = (.ok f1, s1) ∧
      searchStep qs cb e.label e.itm e.cur f1 s1 = (.error x, s')
  | [], f, s, s', x, h => by cases h
  | e :: es, f, s, s', x, h => by
    rw [searchFold] at h
    generalize hss : searchStep qs cb e.label e.itm e.cur f s = y at h
    obtain ⟨r, s2⟩ := y
    cases r with
    | error e' =>
      simp only [Prod.mk.injEq, Except.error.injEq] at h
      obtain ⟨rfl, rfl⟩ := h
      exact ⟨[], e, es, f, s, rfl, rfl, hss⟩
    | ok f2 =>
      simp only at h
      obtain ⟨pre, e1, post, f1, s1, rfl, h2, h3⟩ := searchFold_error h
      refine ⟨e :: pre, e1, post, f1, s1, rfl, ?_, h3⟩
      rw [searchFold, hss]
      exact h2

/-- What makes one step of a search fail. -/
theorem searchStep_error {σ : Type} {qs : List (Int × QTyp)} {cb : σ → Option Val → σ × Bool}
    {e : Entry} {f : Found} {s s' : σ} {x : QErr}
    (h : searchStep qs cb e.label e.itm e.cur f s = (.error x, s')) :
    (∃ i t, e.key = some i ∧ qs.lookup i = some t ∧
      ((x = .duplicateLabel ∧ i ∈ f.map (·.1)) ∨ e.itm.err = some x ∨
       (x = .unexpectedType ∧ t.ok e.itm.val = false))) ∨
    (wanted qs e = false ∧ x = .callbackFail ∧ cb s e.label = (s', false)) := by
  have hcb : ∀ (hw : wanted qs e = false), (match cb s e.label with
      | (s', true) => (Except.ok f, s')
      | (s', false) => (Except.error QErr.callbackFail, s')) = (Except.error x, s') →
      wanted qs e = false ∧ x = .callbackFail ∧ cb s e.label = (s', false) := by
    intro hw hh
    generalize cb s e.label = y at hh ⊢
    obtain ⟨s3, b⟩ := y
    cases b with
    | true => cases hh
    | false => cases hh; exact ⟨hw, rfl, rfl⟩
  have hk : ∀ v, e.label = some v → (∀ i, v ≠ .int i) → wanted qs e = false := by
    intro v hv hn
    unfold wanted Spec.Entry.key
    rw [hv]
    cases v with
    | int i => exact absurd rfl (hn i)
    | _ => rfl
  unfold searchStep at h
  simp only at h
  cases hl : e.label with
  | none =>
    rw [hl] at h
    have hw : wanted qs e = false := by unfold wanted Spec.Entry.key; rw [hl]
    exact .inr (by have := hcb hw (by rw [hl]; exact h); rw [hl] at this; exact this)
  | some v =>
    rw [hl] at h
    cases v with
    | int i =>
      simp only at h
      cases hq : qs.lookup i with
      | none =>
        rw [hq] at h
        have hw : wanted qs e = false := by
          unfold wanted Spec.Entry.key; rw [hl]; simp [hq]
        exact .inr (by have := hcb hw (by rw [hl]; exact h); rw [hl] at this; exact this)
      | some t =>
        rw [hq] at h
        simp only at h
        refine .inl ⟨i, t, key_iff.mpr hl, hq, ?_⟩
        split at h
        · rename_i hd
          cases h
          exact .inl ⟨rfl, (lookup_isSome_iff f i).mp hd⟩
        · split at h
          · rename_i e' he'
            cases h
            exact .inr (.inl he')
          · split at h
            · cases h
            · rename_i hok
              cases h
              exact .inr (.inr ⟨rfl, by simpa using hok⟩)
    | _ =>
      exact .inr (by
        have := hcb (hk _ hl (by intro i hh; cases hh)) (by rw [hl]; exact h)
        rw [hl] at this
        exact this)

/-- The entries were read by the item decoder. -/
theorem Rem_entry {P : QParams} {m : Bool} {room : Nat} :
    ∀ {es : List Entry} {left : Option Nat} {c cEnd : Cur}, Rem P m room left c es cEnd →
    ∀ e ∈ es, ∃ c0, entry P m c0 = (.ok (e.label, e.itm), e.cur)
  | [], _, _, _, _, e, he => by simp at he
  | a :: es, left, c, cEnd, h, e, he => by
    obtain ⟨-, -, hen, c2, -, hr⟩ := Rem_cons_iff.mp h
    rcases List.mem_cons.mp he with rfl | he
    · exact ⟨c, hen⟩
    · exact Rem_entry hr e he

theorem Rem_err {P : QParams} {m : Bool} {room : Nat} {es : List Entry} {left : Option Nat}
    {c cEnd : Cur} (h : Rem P m room left c es cEnd) {e : Entry} (he : e ∈ es) {x : QErr}
    (hx : e.itm.err = some x) : x ≠ .fuel ∧ x ≠ .callbackFail ∧ x ≠ .labelNotFound ∧ x ≠ .noMoreItems := by
  obtain ⟨c0, hen⟩ := Rem_entry h e he
  have := entry_ok P m c0
  rw [hen] at this
  have := this.2.2.2.2 x hx
  refine ⟨?_, ?_, ?_, ?_⟩ <;> rintro rfl
  · cases this.1
  · cases this.2
  · cases this.2
  · cases this.2

/-! ## One header -/

/-- Recording labels fails only for too many of them or for an odd one. -/
theorem noteLabel_none {l : Option Val} {st : List Int × List Str} (h : noteLabel l st = none) :
    ((∃ i, l = some (.int i) ∧ i ≠ 2) ∧ st.1.length = paramListMax) ∨
    ((∃ s, l = some (.tstr s)) ∧ st.2.length = paramListMax) ∨
    ((∀ i, l ≠ some (.int i)) ∧ ∀ s, l ≠ some (.tstr s)) := by
  cases l with
  | none => exact .inr (.inr ⟨by simp, by simp⟩)
  | some v =>
    cases v with
    | int i =>
      unfold noteLabel at h
      simp only at h
      split at h
      · cases h
      · rename_i h2
        split at h
        · rename_i hm
          exact .inl ⟨⟨i, rfl, h2⟩, hm⟩
        · cases h
    | tstr s =>
      unfold noteLabel at h
      simp only at h
      split at h
      · rename_i hm; exact .inr (.inl ⟨⟨s, rfl⟩, hm⟩)
      · cases h
    | _ => exact .inr (.inr ⟨by simp, by simp⟩)

/-- What the first failing entry of a header is. -/
theorem headerSearch_error {P : QParams} {room : Nat} {left : Option Nat} {c cEnd : Cur}
    {es : List Entry} (hr : Rem P true room left c es cEnd) {st : List Int × List Str}
    (hst : LLok st) {x : QErr} {s' : CbCtx}
    (h : searchFold headerQs headerCb es [] ⟨mkLL st.1 st.2, .ok ()⟩ = (.error x, s')) :
    (x = .callbackFail ∧
      ((s'.ret = .error .tooManyParameters ∧
          (paramListMax < st.1.length + (countInts (otherLabels es)).length ∨
           paramListMax < st.2.length + (noteTstrs (otherLabels es)).length)) ∨
       (s'.ret = .error .parameterCbor ∧ ∃ e ∈ es, e.OddLabel))) ∨
    (x ≠ .callbackFail ∧ x ≠ .fuel ∧
      ((∃ e ∈ es, e.Used ∧ e.itm.err = some x) ∨
       (x.notWellFormed = false ∧ ((∃ e ∈ es, e.WrongType) ∨
        ∃ i ∈ [(1 : Int), 3, 4, 5, 6], 1 < (intLabels es).count i)))) := by
  obtain ⟨pre, e, post, f1, s1, rfl, hpre, hstep⟩ := searchFold_error h
  have hmem : e ∈ pre ++ e :: post := by simp
  rw [searchFold_iff] at hpre
  obtain ⟨-, hnd, -, hcb, rfl⟩ := hpre
  obtain ⟨st1, hn1, rfl⟩ := (cbFold_header _ hst _).mp hcb
  rcases searchStep_error hstep with ⟨i, t, hk, hq, hc⟩ | ⟨hw, rfl, hcb2⟩
  · right
    have hi : i ∈ [(1 : Int), 3, 4, 5, 6] := by
      have := (headerQs_wanted i).mp (by rw [hq]; rfl)
      simpa using this
    have hl := key_iff.mp hk
    rcases hc with ⟨rfl, hdup⟩ | herr | ⟨rfl, hty⟩
    · refine ⟨by simp, by simp, .inr ⟨rfl, .inr ⟨i, hi, ?_⟩⟩⟩
      rw [List.append_nil, List.map_reverse, List.mem_reverse, List.map_map, List.mem_map] at hdup
      obtain ⟨e1, he1, hk1⟩ := hdup
      rw [List.mem_filter] at he1
      have hk1' : e1.key = some i := by
        have hw1 := he1.2
        unfold wanted at hw1
        cases hke : e1.key with
        | none => rw [hke] at hw1; cases hw1
        | some j =>
          simp only [Function.comp, foundOf, hke, Option.getD_some] at hk1
          rw [hk1]
      rw [Props.count_labels, List.filter_append, List.length_append,
        List.filter_cons_of_pos (by simpa using hk), List.length_cons]
      have : 0 < (pre.filter (fun e => decide (e.key = some i))).length := by
        apply List.length_pos_of_mem (a := e1)
        rw [List.mem_filter]
        exact ⟨he1.1, by simpa using hk1'⟩
      omega
    · have := Rem_err hr hmem herr
      exact ⟨this.2.1, this.1, .inl ⟨e, hmem, ⟨i, hi, hl⟩, herr⟩⟩
    · refine ⟨by simp, by simp, .inr ⟨rfl, .inl ⟨e, hmem, ?_⟩⟩⟩
      simp only [List.mem_cons, List.not_mem_nil, or_false] at hi
      rcases hi with rfl | rfl | rfl | rfl | rfl
      · cases hq
        exact .inl ⟨hl, by intro n hn; rw [hn] at hty; cases hty⟩
      · cases hq
        cases hty
      all_goals
        cases hq
        exact .inr ⟨_, by simp, hl, by intro n hn; rw [hn] at hty; cases hty⟩
  · left
    refine ⟨rfl, ?_⟩
    have hl1 := noteLabels_ok hst hn1
    obtain ⟨hs1, -⟩ := noteLabels_some _ _ _ hn1
    rw [headerCb_mk e.label hl1] at hcb2
    cases hnl : noteLabel e.label st1 with
    | some st2 => rw [hnl] at hcb2; cases hcb2
    | none =>
      rw [hnl] at hcb2
      simp only [Prod.mk.injEq, and_true] at hcb2
      subst hcb2
      have hother : otherLabels (pre ++ e :: post) =
          otherLabels pre ++ e.label :: otherLabels post := by
        unfold otherLabels
        rw [List.filter_append, List.filter_cons_of_pos (by simp [hw]), List.map_append,
          List.map_cons]
      rw [hother]
      have hpre' : otherLabels pre = (pre.filter (fun e => !wanted headerQs e)).map (·.label) := rfl
      rw [← hpre'] at hs1
      rcases noteLabel_none hnl with ⟨⟨i, hl, h2⟩, hm⟩ | ⟨⟨s, hl⟩, hm⟩ | hodd
      · left
        rw [hl]
        refine ⟨rfl, .inl ?_⟩
        have hle := noteInts_le (otherLabels pre)
        have hc : (countInts (otherLabels pre ++ some (.int i) :: otherLabels post)).length =
            (countInts (otherLabels pre)).length + (countInts (otherLabels post)).length + 1 := by
          unfold countInts
          rw [List.filterMap_append, List.length_append, List.filterMap_cons]
          simp only [if_neg h2, List.length_cons]
          omega
        rw [hs1] at hm
        simp only [List.length_append] at hm
        omega
      · left
        rw [hl]
        refine ⟨rfl, .inr ?_⟩
        have hc : (noteTstrs (otherLabels pre ++ some (.tstr s) :: otherLabels post)).length =
            (noteTstrs (otherLabels pre)).length + (noteTstrs (otherLabels post)).length + 1 := by
          unfold noteTstrs
          rw [List.filterMap_append, List.length_append, List.filterMap_cons]
          simp only [List.length_cons]
          omega
        rw [hs1] at hm
        simp only [List.length_append] at hm
        omega
      · right
        refine ⟨?_, e, hmem, hodd⟩
        cases hl : e.label with
        | none => rfl
        | some v =>
          cases v with
          | int i => exact absurd hl (hodd.1 i)
          | tstr s => exact absurd hl (hodd.2 s)
          | _ => rfl

/-! ## Copying the values -/

theorem takeAlg_fields {prot : Bool} {f : Found} {p p' : Params} (h : takeAlg prot f p = .ok p') :
    p'.kid = p.kid ∧ p'.iv = p.iv ∧ p'.partialIv = p.partialIv ∧ p'.ctTstr = p.ctTstr ∧
      p'.ctUint = p.ctUint := by
  unfold takeAlg at h
  repeat' split at h
  all_goals first | (cases h; done) | (cases h; exact ⟨rfl, rfl, rfl, rfl, rfl⟩)

theorem takeKid_fields {f : Found} {p p' : Params} (h : takeKid f p = .ok p') :
    p'.iv = p.iv ∧ p'.partialIv = p.partialIv ∧ p'.ctTstr = p.ctTstr ∧ p'.ctUint = p.ctUint := by
  unfold takeKid at h
  repeat' split at h
  all_goals first | (cases h; done) | (cases h; exact ⟨rfl, rfl, rfl, rfl⟩)

theorem takeIv_fields {f : Found} {p p' : Params} (h : takeIv f p = .ok p') :
    p'.partialIv = p.partialIv ∧ p'.ctTstr = p.ctTstr ∧ p'.ctUint = p.ctUint := by
  unfold takeIv at h
  repeat' split at h
  all_goals first | (cases h; done) | (cases h; exact ⟨rfl, rfl, rfl⟩)

theorem takePartialIv_fields {f : Found} {p p' : Params} (h : takePartialIv f p = .ok p') :
    p'.ctTstr = p.ctTstr ∧ p'.ctUint = p.ctUint := by
  unfold takePartialIv at h
  repeat' split at h
  all_goals first | (cases h; done) | (cases h; exact ⟨rfl, rfl⟩)

/-- What makes copying the values fail. -/
def CopyReason (prot : Bool) (es : List Entry) (p : Params) (y : Err) : Prop :=
  (y = .parameterNotProtected ∧ prot = false ∧ Has 1 es) ∨
  (y = .nonIntegerAlgId ∧ prot = true ∧
    ∃ e ∈ es, e.label = some (.int 1) ∧ ∃ i, e.itm.val = .int i ∧ (i = 0 ∨ 2147483647 < i)) ∨
  (y = .duplicateParameter ∧
    ((Has 4 es ∧ p.kid ≠ none) ∨ (Has 5 es ∧ p.iv ≠ none) ∨ (Has 6 es ∧ p.partialIv ≠ none) ∨
     (Has 3 es ∧ (p.ctTstr ≠ none ∨ p.ctUint ≠ emptyContentType)))) ∨
  (y = .badContentType ∧ ∃ e ∈ es, e.label = some (.int 3) ∧ (∀ s, e.itm.val ≠ .tstr s) ∧
    ∀ i, e.itm.val = .int i → i < 0 ∨ 65535 < i)

theorem copyParams_error {cfg : Config} {prot : Bool} {es : List Entry} {f : Found} {p : Params}
    {s s' : CbCtx} (hf : searchFold headerQs headerCb es [] s = (.ok f, s')) {y : Err}
    (h : copyParams cfg prot f p = .error y) : CopyReason prot es p y := by
  rw [searchFold_iff] at hf
  obtain ⟨-, hnd, -, -, hf⟩ := hf
  have hlk : ∀ i ∈ [(1 : Int), 3, 4, 5, 6], ∀ v c, f.lookup i = some (v, c) →
      ∃ e ∈ es, e.label = some (.int i) ∧ e.itm.val = v := by
    intro i hi v c hl
    rw [hf] at hl
    obtain ⟨e, he, h1, h2, -⟩ := (found_lookup (headerQs_lookup hi) hnd).mp hl
    exact ⟨e, he, h1, h2⟩
  have hhas : ∀ i ∈ [(1 : Int), 3, 4, 5, 6], ∀ v c, f.lookup i = some (v, c) → Has i es := by
    intro i hi v c hl
    obtain ⟨e, he, h1, -⟩ := hlk i hi v c hl
    exact ⟨e, he, h1⟩
  have hnn : ∀ o : Option Str, ¬ o.isNone = true → o ≠ none := by
    intro o h1 h2; rw [h2] at h1; exact h1 rfl
  unfold copyParams at h
  cases ha : takeAlg prot f p with
  | error x =>
    rw [ha] at h
    cases h
    unfold takeAlg at ha
    split at ha
    · rename_i i c hl
      split at ha
      · rename_i hp
        cases ha
        exact .inl ⟨rfl, by simpa using hp, hhas 1 (by simp) _ _ hl⟩
      · rename_i hp
        split at ha
        · rename_i hi
          cases ha
          obtain ⟨e, he, h1, h2⟩ := hlk 1 (by simp) _ _ hl
          exact .inr (.inl ⟨rfl, by simpa using hp, e, he, h1, i, h2, hi⟩)
        · cases ha
    · cases ha
  | ok p1 =>
    obtain ⟨a1, a2, a3, a4, a5⟩ := takeAlg_fields ha
    rw [ha] at h
    simp only at h
    cases hk : takeKid f p1 with
    | error x =>
      rw [hk] at h
      cases h
      unfold takeKid at hk
      split at hk
      · rename_i s c hl
        split at hk
        · cases hk
        · rename_i hn
          cases hk
          exact .inr (.inr (.inl ⟨rfl, .inl ⟨hhas 4 (by simp) _ _ hl, a1 ▸ hnn _ hn⟩⟩))
      · cases hk
    | ok p2 =>
      obtain ⟨b2, b3, b4, b5⟩ := takeKid_fields hk
      rw [hk] at h
      simp only at h
      cases hi : takeIv f p2 with
      | error x =>
        rw [hi] at h
        cases h
        unfold takeIv at hi
        split at hi
        · rename_i s c hl
          split at hi
          · cases hi
          · rename_i hn
            cases hi
            exact .inr (.inr (.inl ⟨rfl, .inr (.inl ⟨hhas 5 (by simp) _ _ hl,
              (b2.trans a2) ▸ hnn _ hn⟩)⟩))
        · cases hi
      | ok p3 =>
        obtain ⟨c3, c4, c5⟩ := takeIv_fields hi
        rw [hi] at h
        simp only at h
        cases hp : takePartialIv f p3 with
        | error x =>
          rw [hp] at h
          cases h
          unfold takePartialIv at hp
          split at hp
          · rename_i s c hl
            split at hp
            · cases hp
            · rename_i hn
              cases hp
              exact .inr (.inr (.inl ⟨rfl, .inr (.inr (.inl ⟨hhas 6 (by simp) _ _ hl,
                (c3.trans (b3.trans a3)) ▸ hnn _ hn⟩))⟩))
          · cases hp
        | ok p4 =>
          obtain ⟨d4, d5⟩ := takePartialIv_fields hp
          have t4 : p4.ctTstr = p.ctTstr := d4.trans (c4.trans (b4.trans a4))
          have t5 : p4.ctUint = p.ctUint := d5.trans (c5.trans (b5.trans a5))
          rw [hp] at h
          simp only at h
          unfold takeContentType at h
          split at h
          · cases h
          · split at h
            · cases h
            · rename_i s c hl
              split at h
              · rename_i hne
                cases h
                refine .inr (.inr (.inl ⟨rfl, .inr (.inr (.inr ⟨hhas 3 (by simp) _ _ hl, .inl ?_⟩))⟩))
                rw [← t4]
                intro hn
                rw [hn] at hne
                cases hne
              · cases h
            · rename_i i c hl
              split at h
              · rename_i hr
                cases h
                obtain ⟨e, he, h1, h2⟩ := hlk 3 (by simp) _ _ hl
                refine .inr (.inr (.inr ⟨rfl, e, he, h1, ?_, ?_⟩))
                · intro s hs; rw [h2] at hs; cases hs
                · intro j hj; rw [h2] at hj; cases hj; exact hr
              · split at h
                · rename_i hne
                  cases h
                  exact .inr (.inr (.inl ⟨rfl, .inr (.inr (.inr
                    ⟨hhas 3 (by simp) _ _ hl, .inr (t5 ▸ hne)⟩))⟩))
                · cases h
            · rename_i q hq1 hq2 hl
              cases h
              obtain ⟨v, c⟩ := q
              obtain ⟨e, he, h1, h2⟩ := hlk 3 (by simp) _ _ hl
              refine .inr (.inr (.inr ⟨rfl, e, he, h1, ?_, ?_⟩))
              · intro s hs
                rw [hs] at h2
                subst h2
                exact hq1 s c rfl
              · intro j hj
                rw [hj] at h2
                subst h2
                exact (hq2 j c rfl).elim

/-! ## The crit list -/

theorem Dec.fetch_rem_err {P : QParams} {d : Dec} {left : Option Nat} {ls : List Lvl} {room : Nat}
    {e : Entry} {es : List Entry} {cEnd : Cur}
    (hl : d.lvls = .arr left :: ls) (hr : Rem P false room left d.cur (e :: es) cEnd) {x : QErr}
    (he : e.itm.err = some x) : d.fetch P = (.error x, e.cur) := by
  obtain ⟨h1, h2, h3, -⟩ := Rem_cons_iff.mp hr
  have hend : d.atEnd = false := by
    unfold Dec.atEnd
    rw [hl]
    rcases left with _ | _ | n
    · rfl
    · exact absurd rfl h1
    · rfl
  unfold Dec.fetch
  rw [hend, h3]
  have : d.cur.rest.isEmpty = false := by simpa using h2
  simp only [this, Bool.or_self, Bool.false_eq_true, if_false, he]

/-- What makes reading a crit list fail; `ni` and `nt` labels were there before. -/
def CritLoopReason (ces : List Entry) (ni nt : Nat) (y : Err) : Prop :=
  (y = .cborNotWellFormed ∧ ∃ c ∈ ces, c.itm.err ≠ none) ∨
  (y = .critParameter ∧
    ((∃ c ∈ ces, (∀ i, c.itm.val ≠ .int i) ∧ ∀ s, c.itm.val ≠ .tstr s) ∨
      paramListMax < ni + (intsOf ces).length ∨ paramListMax < nt + (tstrsOf ces).length))

theorem critLoop_cases (P : QParams) : ∀ (n : Nat) (d : Dec) (ni nt : Nat) (l : LabelList)
    (left : Option Nat) (ls : List Lvl) (ces : List Entry) (cEnd : Cur),
    d.lvls = .arr left :: ls → d.cur.rest.length < n →
    Rem P false d.room left d.cur ces cEnd →
    (∃ l', critFold ces ni nt l = some l') ∨
    ∃ y l' d', critLoop P n d ni nt l = (.error y, l', d') ∧ CritLoopReason ces ni nt y := by
  intro n
  induction n with
  | zero => intro d ni nt l left ls ces cEnd hl hn; omega
  | succ n ih =>
    intro d ni nt l left ls ces cEnd hl hn hr
    rw [critLoop]
    cases ces with
    | nil => exact .inl ⟨l, rfl⟩
    | cons e ces =>
      cases hie : e.itm.err with
      | some x =>
        have hf := Dec.fetch_rem_err hl hr hie
        have hx := Rem_err hr (List.mem_cons_self ..) hie
        right
        have hg : d.getNext P = (.error x, { d with cur := e.cur }) := by
          unfold Dec.getNext
          rw [hf]
        rw [hg]
        have hre : CritLoopReason (e :: ces) ni nt .cborNotWellFormed :=
          .inl ⟨rfl, e, List.mem_cons_self .., by rw [hie]; simp⟩
        cases x <;> first
          | exact absurd rfl hx.2.2.2
          | exact ⟨_, _, _, rfl, hre⟩
      | none =>
        have hf := Dec.fetch_rem hl hr hie
        rw [Dec.getNext_intro hf]
        obtain ⟨hz, hne, hen, c2, hsk, hr2⟩ := Rem_cons_iff.mp hr
        have hadv := (Dec.fetch_adv hf).1
        have hlv : ({ d.done e.cur with tags := e.itm.tags } : Dec).lvls =
            .arr (stepLeft left e.cur).1 :: ls := by
          simp only [Dec.done, hl, itemDone_arr]
        have hcur : ({ d.done e.cur with tags := e.itm.tags } : Dec).cur =
            (stepLeft left e.cur).2 := by
          simp only [Dec.done, hl, itemDone_arr]
        have hroom : ({ d.done e.cur with tags := e.itm.tags } : Dec).room = d.room := by
          simp only [Dec.room, Dec.done, hl, itemDone_arr, List.length_cons]
        have hlen := (hadv.trans_adv (stepLeft_adv left e.cur)).length_lt
        have key : ∀ ni' nt' l1, e.itm.val.isSimple = true →
            (∀ y, CritLoopReason ces ni' nt' y → CritLoopReason (e :: ces) ni nt y) →
            (∃ l', critFold ces ni' nt' l1 = some l') ∨
            ∃ y l' d', critLoop P n { d.done e.cur with tags := e.itm.tags } ni' nt' l1 =
              (.error y, l', d') ∧ CritLoopReason (e :: ces) ni nt y := by
          intro ni' nt' l1 hs hre
          rw [skipValue_simple P _ hs] at hsk
          cases hsk
          rcases ih { d.done e.cur with tags := e.itm.tags } ni' nt' l1 _ ls ces cEnd hlv
            (by rw [hcur]; omega) (by rw [hcur, hroom]; exact hr2) with h | ⟨y, l', d', h1, h2⟩
          · exact .inl h
          · exact .inr ⟨y, l', d', h1, hre y h2⟩
        simp only
        rw [critFold]
        rw [if_neg (by rw [hie]; simp)]
        cases hv : e.itm.val with
        | int i =>
          simp only
          have hi : intsOf (e :: ces) = i :: intsOf ces := by simp [intsOf, hv]
          have ht : tstrsOf (e :: ces) = tstrsOf ces := by simp [tstrsOf, hv]
          split
          · rename_i hm
            refine .inr ⟨_, _, _, rfl, .inr ⟨rfl, .inr (.inl ?_)⟩⟩
            rw [hi, List.length_cons]; omega
          · refine key _ _ _ (by rw [hv]; rfl) ?_
            rintro y (⟨rfl, c, hc, h⟩ | ⟨rfl, (⟨c, hc, h⟩ | h | h)⟩)
            · exact .inl ⟨rfl, c, List.mem_cons_of_mem _ hc, h⟩
            · exact .inr ⟨rfl, .inl ⟨c, List.mem_cons_of_mem _ hc, h⟩⟩
            · refine .inr ⟨rfl, .inr (.inl ?_)⟩
              rw [hi, List.length_cons]; omega
            · refine .inr ⟨rfl, .inr (.inr ?_)⟩
              rw [ht]; exact h
        | tstr s =>
          simp only
          have hi : intsOf (e :: ces) = intsOf ces := by simp [intsOf, hv]
          have ht : tstrsOf (e :: ces) = s :: tstrsOf ces := by simp [tstrsOf, hv]
          split
          · rename_i hm
            refine .inr ⟨_, _, _, rfl, .inr ⟨rfl, .inr (.inr ?_)⟩⟩
            rw [ht, List.length_cons]; omega
          · refine key _ _ _ (by rw [hv]; rfl) ?_
            rintro y (⟨rfl, c, hc, h⟩ | ⟨rfl, (⟨c, hc, h⟩ | h | h)⟩)
            · exact .inl ⟨rfl, c, List.mem_cons_of_mem _ hc, h⟩
            · exact .inr ⟨rfl, .inl ⟨c, List.mem_cons_of_mem _ hc, h⟩⟩
            · refine .inr ⟨rfl, .inr (.inl ?_)⟩
              rw [hi]; exact h
            · refine .inr ⟨rfl, .inr (.inr ?_)⟩
              rw [ht, List.length_cons]; omega
        | _ =>
          exact .inr ⟨_, _, _, rfl, .inr ⟨rfl, .inl ⟨e, List.mem_cons_self ..,
            by rw [hv]; simp, by rw [hv]; simp⟩⟩⟩

/-- What is wrong with the crit parameter of a header. -/
def CritReason (P : QParams) (room : Nat) (prot : Bool) (es : List Entry) (y : Err) : Prop :=
  (y = .parameterNotProtected ∧ prot = false ∧ Has 2 es) ∨
  (y = .critParameter ∧
    (1 < (intLabels es).count 2 ∨
     ∃ e ∈ es, e.label = some (.int 2) ∧
      (e.itm.err ≠ none ∨ (∀ k, e.itm.val ≠ .arr k) ∨
        (prot = true ∧ ∃ k ces cEnd, e.itm.val = .arr k ∧
          elements P false (room - 1) k e.cur = .ok (ces, cEnd) ∧ BadCritList ces)))) ∨
  (y = .cborNotWellFormed ∧ prot = true ∧
    ∃ e ∈ es, e.label = some (.int 2) ∧ ∃ k ces cEnd, e.itm.val = .arr k ∧
      elements P false (room - 1) k e.cur = .ok (ces, cEnd) ∧ ∃ c ∈ ces, c.itm.err ≠ none)

/-- A search for one label that fails. -/
theorem mapSearch_single_error {P : QParams} {d : Dec} {start : Cur} {cnt : Option Nat}
    {ls : List Lvl} {es : List Entry} {cEnd : Cur} (h : InMap P d start cnt ls es cEnd)
    {i : Int} {t : QTyp} {x : QErr} {u : Unit}
    (hx : d.mapSearch P [(i, t)] (fun (s : Unit) _ => (s, true)) () = (.error x, u)) :
    1 < (intLabels es).count i ∨ ∃ e ∈ es, e.label = some (.int i) ∧
      (e.itm.err ≠ none ∨ t.ok e.itm.val = false) := by
  rw [Dec.mapSearch_fold h] at hx
  obtain ⟨pre, e, post, f1, s1, rfl, hpre, hstep⟩ := searchFold_error hx
  rw [searchFold_iff] at hpre
  obtain ⟨-, -, -, -, rfl⟩ := hpre
  have hmem : e ∈ pre ++ e :: post := by simp
  rcases searchStep_error hstep with ⟨j, t', hk, hq, hc⟩ | ⟨-, -, hcb⟩
  · have hji : j = i ∧ t' = t := by
      simp only [List.lookup] at hq
      by_cases hb : (j == i) = true
      · rw [hb] at hq
        cases hq
        exact ⟨by simpa using hb, rfl⟩
      · have hb : (j == i) = false := by simpa using hb
        rw [hb] at hq
        cases hq
    obtain ⟨rfl, rfl⟩ := hji
    rcases hc with ⟨-, hdup⟩ | herr | ⟨-, hty⟩
    · left
      rw [List.append_nil, List.map_reverse, List.mem_reverse, List.map_map, List.mem_map] at hdup
      obtain ⟨e1, he1, hk1⟩ := hdup
      rw [List.mem_filter] at he1
      have hk1' : e1.key = some j := by
        have hw1 := he1.2
        unfold wanted at hw1
        cases hke : e1.key with
        | none => rw [hke] at hw1; cases hw1
        | some j =>
          simp only [Function.comp, foundOf, hke, Option.getD_some] at hk1
          rw [hk1]
      rw [Props.count_labels, List.filter_append, List.length_append,
        List.filter_cons_of_pos (by simpa using hk), List.length_cons]
      have : 0 < (pre.filter (fun e => decide (e.key = some j))).length := by
        apply List.length_pos_of_mem (a := e1)
        rw [List.mem_filter]
        exact ⟨he1.1, by simpa using hk1'⟩
      omega
    · exact .inr ⟨e, hmem, key_iff.mp hk, .inl (by rw [herr]; simp)⟩
    · exact .inr ⟨e, hmem, key_iff.mp hk, .inr hty⟩
  · simp at hcb

/-- The values of a map that can be traversed can be stepped over. -/
theorem Rem_skip {P : QParams} {m : Bool} {room : Nat} :
    ∀ {es : List Entry} {left : Option Nat} {c cEnd : Cur}, Rem P m room left c es cEnd →
    ∀ e ∈ es, ∃ c2, skipValue P room e.itm.val e.cur = .ok c2
  | [], _, _, _, _, e, he => by simp at he
  | a :: es, left, c, cEnd, h, e, he => by
    obtain ⟨-, -, -, c2, hs, hr⟩ := Rem_cons_iff.mp h
    rcases List.mem_cons.mp he with rfl | he
    · exact ⟨c2, hs⟩
    · exact Rem_skip hr e he

theorem decodeCritical_cases {P : QParams} {d : Dec} {start : Cur} {cnt : Option Nat}
    {ls : List Lvl} {es : List Entry} {cEnd : Cur} {prot : Bool}
    (h : InMap P d start cnt ls es cEnd) (hd : d.err = none) (hroom : d.room ≠ 0) :
    (∃ l', CritOk P d.room prot es LabelList.clear l') ∨
    ∃ y l' d', decodeCritical P d prot LabelList.clear = (.error y, l', d') ∧
      CritReason P d.room prot es y := by
  have hs := mapSearch_single h 2 .arr
  have hnf : ∀ u, d.mapSearch P [(2, .arr)] (fun (s : Unit) _ => (s, true)) () ≠
    (.error .labelNotFound, u) := fun u => Dec.mapSearch_notFound
  unfold decodeCritical Dec.enterArrayFromMap
  rw [hd]
  simp only [Option.isSome_none, Bool.false_eq_true, if_false]
  cases hms : d.mapSearch P [(2, .arr)] (fun (s : Unit) _ => (s, true)) () with
  | mk r u =>
  rw [hms] at hs hnf
  cases r with
  | error x =>
    right
    have hre : CritReason P d.room prot es .critParameter := by
      rcases mapSearch_single_error h hms with h1 | ⟨e, he, hl, h1⟩
      · exact .inr (.inl ⟨rfl, .inl h1⟩)
      · refine .inr (.inl ⟨rfl, .inr ⟨e, he, hl, ?_⟩⟩)
        rcases h1 with h1 | h1
        · exact .inl h1
        · exact .inr (.inl (by intro k hk; rw [hk] at h1; cases h1))
    cases x <;> first
      | exact absurd rfl (hnf u)
      | exact ⟨_, _, _, rfl, hre⟩
  | ok f =>
    rcases (hs f).mp rfl with ⟨h0, rfl⟩ | ⟨e, h0, hie, ht, rfl⟩
    · exact .inl ⟨_, .inl ⟨filter_key_nil.mp h0, rfl⟩⟩
    · have hmem : e ∈ es.filter (fun e => decide (e.key = some 2)) := by rw [h0]; simp
      rw [List.mem_filter, decide_eq_true_iff] at hmem
      have hl := key_iff.mp hmem.2
      simp only [List.lookup, BEq.rfl]
      cases hv : e.itm.val with
      | arr k =>
        simp only [if_neg hroom]
        cases prot with
        | false => exact .inr ⟨_, _, _, rfl, .inl ⟨rfl, rfl, e, hmem.1, hl⟩⟩
        | true =>
          obtain ⟨c2, hsk⟩ := Rem_skip h.rem e hmem.1
          have hr1 : d.room = (d.room - 1) + 1 := by omega
          rw [hv, hr1, skipValue_arr] at hsk
          obtain ⟨ces, hel⟩ := hsk
          have hroom' : (Dec.mk (Dec.openLvl k e.cur).2 (.arr (Dec.openLvl k e.cur).1 :: d.lvls)
              none d.tags).room = d.room - 1 := by
            simp only [Dec.room, List.length_cons]; omega
          have hr := elements_rem.mp hel
          rw [← hroom'] at hr
          rcases critLoop_cases P ((Dec.openLvl k e.cur).2.rest.length + 1) _ 0 0 LabelList.clear
            _ _ ces c2 rfl (Nat.lt_succ_self _) hr with ⟨l', hcf⟩ | ⟨y, l', d', hc, hre⟩
          · cases hcl : l'.isClear with
            | false =>
              exact .inl ⟨l', .inr ⟨rfl, hroom, e, k, ces, c2, h0, hie, hv, hel, hcf, hcl⟩⟩
            | true =>
              right
              obtain ⟨d', t, h1, h2⟩ := critLoop_intro P ((Dec.openLvl k e.cur).2.rest.length + 1)
                _ 0 0 _ l' _ _ ces c2 rfl rfl (Nat.lt_succ_self _) hr hcf
              simp only [Bool.not_true, Bool.false_eq_true, if_false, h1, hcl, if_true]
              refine ⟨_, _, _, rfl, .inr (.inl ⟨rfl, .inr ⟨e, hmem.1, hl, .inr (.inr
                ⟨rfl, k, ces, c2, hv, hel, ?_⟩)⟩⟩)⟩
              have hf := (critFold_iff ces [] [] l' (by simp) (by simp)).mp
                (by rw [mkLL_nil]; exact hcf)
              simp only [List.nil_append] at hf
              rw [hf.2.2.2, isClear_mk] at hcl
              refine .inr (.inr (.inr ⟨by rw [← Props.ints_eq]; exact hcl.1, ?_⟩))
              rw [← Props.texts_eq]
              have := hcl.2
              cases hts : tstrsOf ces with
              | nil => rfl
              | cons a b => rw [hts] at this; exact this
          · right
            simp only [Bool.not_true, Bool.false_eq_true, if_false, hc]
            refine ⟨_, _, _, rfl, ?_⟩
            rcases hre with ⟨rfl, c, hc, he⟩ | ⟨rfl, hbad⟩
            · exact .inr (.inr ⟨rfl, rfl, e, hmem.1, hl, k, ces, c2, hv, hel, c, hc, he⟩)
            · refine .inr (.inl ⟨rfl, .inr ⟨e, hmem.1, hl, .inr (.inr
                ⟨rfl, k, ces, c2, hv, hel, ?_⟩)⟩⟩)
              rcases hbad with hb | hb | hb
              · exact .inl hb
              · refine .inr (.inl ?_)
                rw [← Props.ints_eq]
                have : paramListMax = 10 := rfl
                omega
              · refine .inr (.inr (.inl ?_))
                rw [← Props.texts_eq, List.length_map]
                have : paramListMax = 10 := rfl
                omega
      | _ => rw [hv] at ht; cases ht

/-- What an error in a header comes from. -/
def HeaderReason (P : QParams) (room : Nat) (prot : Bool) (es : List Entry) (p : Params)
    (st : List Int × List Str) (y : Err) : Prop :=
  (y = .tooManyParameters ∧
    (paramListMax < st.1.length + (countInts (otherLabels es)).length ∨
     paramListMax < st.2.length + (noteTstrs (otherLabels es)).length)) ∨
  (y = .parameterCbor ∧ BadFormat es) ∨
  (y = .cborNotWellFormed ∧ ∃ e ∈ es, e.Used ∧ e.NotWellFormed) ∨
  CopyReason prot es p y ∨ CritReason P room prot es y

theorem parseHeader_cases {cfg : Config} {P : QParams} {prot : Bool} {st : Parse}
    {it : Itm} {n : Option Nat} {c1 cEnd : Cur} {es : List Entry} {xs : List Int × List Str}
    (h0 : st.d.err = none) (hroom : st.d.room - 1 ≠ 0) (hf : st.d.fetch P = (.ok it, c1))
    (hv : it.val = .map n) (hel : elements P true (st.d.room - 1) n c1 = .ok (es, cEnd))
    (hxs : LLok xs) (hunk : st.unk = mkLL xs.1 xs.2)
    (hcrit : prot = true → st.crit = LabelList.clear) :
    (∃ p' crit' unk', HeaderOk cfg P (st.d.room - 1) prot es st.params st.crit st.unk p' crit'
      unk') ∨
    ∃ y st', parseHeader cfg P prot st = (.error y, st') ∧
      HeaderReason P (st.d.room - 1) prot es st.params xs y := by
  have hd1 := Dec.enterMap_intro h0 hf hv (by omega)
  have hlv : (st.d.enterMap P).lvls =
    .map (Dec.openLvl n c1).2 (Dec.openLvl n c1).1 :: st.d.lvls := by rw [hd1]
  have hrm : (st.d.enterMap P).room = st.d.room - 1 := by
    simp only [Dec.room, hlv, List.length_cons]; omega
  have herr : (st.d.enterMap P).err = none := by rw [hd1]; exact h0
  have hr := elements_rem.mp hel
  rw [← hrm] at hr
  have hin : InMap P (st.d.enterMap P) (Dec.openLvl n c1).2 (Dec.openLvl n c1).1 st.d.lvls es
    cEnd := ⟨hlv, hr⟩
  unfold parseHeader Dec.getItemsInMap
  simp only [herr, Option.isSome_none, Bool.false_eq_true, if_false,
    Dec.mapSearch_fold hin, hunk]
  cases hsf : searchFold headerQs headerCb es [] ⟨mkLL xs.1 xs.2, .ok ()⟩ with
  | mk r s' =>
  cases r with
  | error x =>
    right
    simp only
    rcases headerSearch_error hr hxs hsf with ⟨rfl, hre⟩ | ⟨hx1, hx2, hre⟩
    · simp only
      rcases hre with ⟨h1, h2⟩ | ⟨h1, e, he, h2⟩
      · rw [h1]; exact ⟨_, _, rfl, .inl ⟨rfl, h2⟩⟩
      · rw [h1]; exact ⟨_, _, rfl, .inr (.inl ⟨rfl, .inl ⟨e, he, .inl h2⟩⟩)⟩
    · have hgoal : ∃ st', (Except.error (ε := Err) (α := Unit) (paramErr x),
          ({ st with d := { st.d.enterMap P with err := some x }, unk := s'.unk } : Parse)) =
          (.error (paramErr x), st') ∧
          HeaderReason P (st.d.room - 1) prot es st.params xs (paramErr x) := by
        refine ⟨_, rfl, ?_⟩
        unfold paramErr
        rw [if_neg hx2]
        cases hw : x.notWellFormed with
        | true =>
          simp only [if_true]
          rcases hre with ⟨e, he, hu, hie⟩ | ⟨hf, -⟩
          · exact .inr (.inr (.inl ⟨rfl, e, he, hu, x, hie, hw⟩))
          · rw [hw] at hf; cases hf
        | false =>
          simp only [Bool.false_eq_true, if_false]
          refine .inr (.inl ⟨rfl, ?_⟩)
          rcases hre with ⟨e, he, hu, hie⟩ | ⟨-, (⟨e, he, hw⟩ | h)⟩
          · exact .inl ⟨e, he, .inr (.inr ⟨hu, by rw [hie]; simp⟩)⟩
          · exact .inl ⟨e, he, .inr (.inl hw)⟩
          · exact .inr h
      obtain ⟨st', h1, h2⟩ := hgoal
      refine ⟨paramErr x, st', ?_, h2⟩
      rw [← h1]
      cases x <;> first | exact absurd rfl hx1 | rfl
  | ok f =>
    simp only [herr]
    cases hcp : copyParams cfg prot f st.params with
    | error y =>
      exact .inr ⟨y, _, rfl, .inr (.inr (.inr (.inl (copyParams_error hsf hcp))))⟩
    | ok p' =>
      simp only
      cases prot with
      | true =>
        rw [hcrit rfl]
        rcases decodeCritical_cases (prot := true) hin herr (by omega) with
          ⟨l', hcr⟩ | ⟨y, l', d', hdc, hre⟩
        · rw [hrm] at hcr
          exact .inl ⟨p', l', s'.unk, ⟨f, s'.ret, hsf, hcp⟩, hcr⟩
        · rw [hdc]
          rw [hrm] at hre
          exact .inr ⟨y, _, rfl, .inr (.inr (.inr (.inr hre)))⟩
      | false =>
        rcases decodeCritical_cases (prot := false) hin herr (by omega) with
          ⟨l', hcr⟩ | ⟨y, l', d', hdc, hre⟩
        · rcases hcr with ⟨hno, -⟩ | ⟨hff, -⟩
          · exact .inl ⟨p', st.crit, s'.unk, ⟨f, s'.ret, hsf, hcp⟩, .inl ⟨hno, rfl⟩⟩
          · cases hff
        · right
          have hindep : ∃ l2 d2, decodeCritical P (st.d.enterMap P) false st.crit =
              (.error y, l2, d2) := by
            unfold decodeCritical at hdc ⊢
            simp only at hdc ⊢
            generalize ((st.d.enterMap P).enterArrayFromMap P 2).err = oe at hdc ⊢
            cases oe with
            | none =>
              simp only [Bool.not_false, if_true, Prod.mk.injEq] at hdc ⊢
              exact ⟨_, _, hdc.1, rfl, rfl⟩
            | some e =>
              cases e <;> simp only [Prod.mk.injEq] at hdc ⊢ <;>
                first | (exact ⟨_, _, hdc.1, rfl, rfl⟩) | (cases hdc.1)
          obtain ⟨l2, d2, h2⟩ := hindep
          rw [h2]
          rw [hrm] at hre
          exact ⟨y, _, rfl, .inr (.inr (.inr (.inr hre)))⟩

end TCose
