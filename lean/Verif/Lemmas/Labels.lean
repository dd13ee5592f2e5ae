import Verif.TCose.Parameters
import Verif.Lemmas.Search

/-!
# The fixed-size label lists
-/

namespace TCose
open Spec

/-- The label list holding `xs` and `ts`. -/
def mkLL (xs : List Int) (ts : List Str) : LabelList :=
  { ints := xs ++ List.replicate (paramListMax + 1 - xs.length) 0,
    tstrs := ts.map some ++ List.replicate (paramListMax + 1 - ts.length) none, ub := false }

theorem mkLL_nil : mkLL [] [] = LabelList.clear := rfl

theorem mkLL_ints_length {xs : List Int} (ts : List Str) (h : xs.length ≤ paramListMax) :
    (mkLL xs ts).ints.length = paramListMax + 1 := by
  simp only [mkLL, List.length_append, List.length_replicate]
  omega

theorem mkLL_tstrs_length (xs : List Int) {ts : List Str} (h : ts.length ≤ paramListMax) :
    (mkLL xs ts).tstrs.length = paramListMax + 1 := by
  simp only [mkLL, List.length_append, List.length_map, List.length_replicate]
  omega

theorem set_append_replicate {α : Type} (xs : List α) (k : Nat) (z a : α) (hk : 0 < k) :
    (xs ++ List.replicate k z).set xs.length a = (xs ++ [a]) ++ List.replicate (k - 1) z := by
  obtain ⟨k, rfl⟩ : ∃ m, k = m + 1 := ⟨k - 1, by omega⟩
  rw [List.set_append_right _ _ (Nat.le_refl _)]
  simp [List.replicate_succ]

theorem mkLL_setInt {xs : List Int} {ts : List Str} (i : Int) (h : xs.length < paramListMax + 1) :
    (mkLL xs ts).setInt xs.length i = mkLL (xs ++ [i]) ts := by
  have hl := mkLL_ints_length (xs := xs) ts (by omega)
  unfold LabelList.setInt
  rw [if_pos (by omega)]
  simp only [mkLL, LabelList.mk.injEq, and_true]
  rw [set_append_replicate _ _ _ _ (by omega)]
  simp only [List.length_append, List.length_singleton]
  congr 2

theorem mkLL_setTstr {xs : List Int} {ts : List Str} (s : Str)
    (h : ts.length < paramListMax + 1) :
    (mkLL xs ts).setTstr ts.length s = mkLL xs (ts ++ [s]) := by
  have hl := mkLL_tstrs_length (ts := ts) xs (by omega)
  unfold LabelList.setTstr
  rw [if_pos (by omega)]
  simp only [mkLL, LabelList.mk.injEq, and_true, true_and]
  have := set_append_replicate (ts.map some) (paramListMax + 1 - ts.length) none (some s)
    (by omega)
  rw [List.length_map] at this
  rw [this]
  simp only [List.length_append, List.length_singleton, List.map_append, List.map_cons,
    List.map_nil]
  congr 2

theorem findIdx_append_replicate {α : Type} (p : α → Bool) (xs : List α) (z : α) (k : Nat)
    (hk : 0 < k) (hz : p z = true) (hx : ∀ x ∈ xs, p x = false) :
    (xs ++ List.replicate k z).findIdx p = xs.length := by
  induction xs with
  | nil =>
    obtain ⟨k, rfl⟩ : ∃ m, k = m + 1 := ⟨k - 1, by omega⟩
    simp [List.replicate_succ, List.findIdx_cons, hz]
  | cons x xs ih =>
    rw [List.cons_append, List.findIdx_cons, hx x (by simp),
      ih (fun y hy => hx y (List.mem_cons_of_mem _ hy))]
    rfl

theorem mkLL_findInt {xs : List Int} (ts : List Str) (h0 : (0 : Int) ∉ xs)
    (h : xs.length ≤ paramListMax) :
    (mkLL xs ts).ints.findIdx (· == 0) = xs.length := by
  refine findIdx_append_replicate _ _ _ _ (by omega) rfl ?_
  intro x hx
  simp only [beq_eq_false_iff_ne, ne_eq]
  rintro rfl
  exact h0 hx

theorem mkLL_findTstr (xs : List Int) {ts : List Str} (h : ts.length ≤ paramListMax) :
    (mkLL xs ts).tstrs.findIdx (·.isNone) = ts.length := by
  have := findIdx_append_replicate (fun o : Option Str => o.isNone) (ts.map some) none
    (paramListMax + 1 - ts.length) (by omega) rfl (by simp)
  rw [List.length_map] at this
  exact this

theorem mkLL_ints_set_zero {xs : List Int} (ts : List Str) (h : xs.length ≤ paramListMax) :
    (mkLL xs ts).setInt xs.length 0 = mkLL xs ts := by
  rw [mkLL_setInt 0 (by omega)]
  simp only [mkLL, LabelList.mk.injEq, and_true, List.append_assoc, List.append_cancel_left_eq]
  have : [(0 : Int)] = List.replicate 1 0 := rfl
  rw [this, List.replicate_append_replicate, List.length_append]
  congr 1
  simp only [List.length_replicate]
  omega

/-! ### Unknown labels -/

/-- What recording the label of an unprocessed parameter does: the label list is
`xs` (integers) and `ts` (text); `none` is refusal. -/
def noteLabel (label : Option Val) (st : List Int × List Str) : Option (List Int × List Str) :=
  match label with
  | some (.int i) =>
    if i = 2 then some st
    else if st.1.length = paramListMax then none
    else some (if i = 0 then st.1 else st.1 ++ [i], st.2)
  | some (.tstr s) => if st.2.length = paramListMax then none else some (st.1, st.2 ++ [s])
  | _ => none

/-- Recording one after the other. -/
def noteLabels : List (Option Val) → List Int × List Str → Option (List Int × List Str)
  | [], st => some st
  | l :: ls, st =>
    match noteLabel l st with
    | none => none
    | some st => noteLabels ls st

/-- The label list is one that can be held: at most ten of each, no zero. -/
def LLok (st : List Int × List Str) : Prop :=
  st.1.length ≤ paramListMax ∧ (0 : Int) ∉ st.1 ∧ st.2.length ≤ paramListMax

theorem LLok_nil : LLok ([], []) := ⟨by simp, by simp, by simp⟩

theorem noteLabel_ok {l : Option Val} {st st' : List Int × List Str} (h : LLok st)
    (hn : noteLabel l st = some st') : LLok st' := by
  obtain ⟨h1, h2, h3⟩ := h
  unfold noteLabel at hn
  split at hn
  · rename_i i
    split at hn
    · cases hn; exact ⟨h1, h2, h3⟩
    · split at hn
      · cases hn
      · cases hn
        by_cases h0 : i = 0
        · simp only [if_pos h0]; exact ⟨h1, h2, h3⟩
        · simp only [if_neg h0]
          refine ⟨?_, ?_, h3⟩
          · simp only [List.length_append, List.length_singleton]; omega
          · simp only [List.mem_append, List.mem_singleton, not_or]
            exact ⟨h2, fun h => h0 h.symm⟩
  · split at hn
    · cases hn
    · cases hn
      refine ⟨h1, h2, ?_⟩
      simp only [List.length_append, List.length_singleton]; omega
  · cases hn

theorem noteLabels_ok {ls : List (Option Val)} : ∀ {st st' : List Int × List Str}, LLok st →
    noteLabels ls st = some st' → LLok st' := by
  induction ls with
  | nil => intro st st' h hn; cases hn; exact h
  | cons l ls ih =>
    intro st st' h hn
    rw [noteLabels] at hn
    cases hx : noteLabel l st with
    | none => rw [hx] at hn; cases hn
    | some st2 => rw [hx] at hn; exact ih (noteLabel_ok h hx) hn

/-- The callback on a well-kept list. -/
theorem headerCb_mk (l : Option Val) {st : List Int × List Str} (h : LLok st)
    (r : Except Err Unit) :
    headerCb ⟨mkLL st.1 st.2, r⟩ l =
      match noteLabel l st with
      | some st' => (⟨mkLL st'.1 st'.2, .ok ()⟩, true)
      | none => (⟨mkLL st.1 st.2, .error (match l with
          | some (.int _) | some (.tstr _) => .tooManyParameters
          | _ => .parameterCbor)⟩, false) := by
  obtain ⟨xs, ts⟩ := st
  obtain ⟨h1, h2, h3⟩ := h
  simp only at h1 h2 h3
  have hil := mkLL_ints_length ts h1
  have htl := mkLL_tstrs_length xs h3
  unfold headerCb noteLabel
  cases l with
  | none => rfl
  | some v =>
    cases v with
    | int i =>
      by_cases h2' : i = 2
      · subst h2'; rfl
      · have hne : ¬ (some (Val.int i) = some (Val.int 2)) := by
          intro h; cases h; exact h2' rfl
        simp only [if_neg hne, if_neg h2', addLabel]
        rw [mkLL_findInt ts h2 h1]
        simp only [hil]
        rw [if_neg (by omega)]
        by_cases hm : xs.length = paramListMax
        · simp only [if_pos hm]
        · simp only [if_neg hm]
          by_cases h0 : i = 0
          · subst h0
            rw [mkLL_ints_set_zero ts h1]
            simp
          · rw [mkLL_setInt i (by omega)]
            simp [h0]
    | tstr s =>
      have hne : ¬ (some (Val.tstr s) = some (Val.int 2)) := by intro h; cases h
      simp only [if_neg hne, addLabel]
      rw [mkLL_findTstr xs h3]
      simp only [htl]
      rw [if_neg (by omega)]
      by_cases hm : ts.length = paramListMax
      · simp only [if_pos hm]
      · simp only [if_neg hm]
        rw [mkLL_setTstr s (by omega)]
    | _ => rfl

theorem cbFold_header (ls : List (Option Val)) : ∀ {st : List Int × List Str}, LLok st →
    ∀ (s' : CbCtx), cbFold headerCb ls ⟨mkLL st.1 st.2, .ok ()⟩ = (s', true) ↔
    ∃ st', noteLabels ls st = some st' ∧ s' = ⟨mkLL st'.1 st'.2, .ok ()⟩ := by
  induction ls with
  | nil =>
    intro st h s'
    simp only [cbFold, noteLabels, Prod.mk.injEq, and_true, Option.some.injEq, exists_eq_left']
    exact eq_comm
  | cons l ls ih =>
    intro st h s'
    rw [cbFold, noteLabels, headerCb_mk l h]
    cases hx : noteLabel l st with
    | none => simp
    | some st2 =>
      simp only
      exact ih (noteLabel_ok h hx) s'

/-- The state the callback works on always is a well-kept list, with an error
recorded only when the callback refused. -/
def CbOk (s : CbCtx) : Prop := (∃ st, LLok st ∧ s.unk = mkLL st.1 st.2) ∧ s.ret ≠ .error .modelHang

theorem headerCb_inv {s : CbCtx} (h : CbOk s) (l : Option Val) :
    CbOk (headerCb s l).1 ∧ ((headerCb s l).2 = false → ∃ x, (headerCb s l).1.ret = .error x) := by
  obtain ⟨⟨st, hst, hu⟩, -⟩ := h
  obtain ⟨unk, r⟩ := s
  subst hu
  rw [headerCb_mk l hst]
  cases hx : noteLabel l st with
  | some st2 => exact ⟨⟨⟨st2, noteLabel_ok hst hx, rfl⟩, by simp⟩, by simp⟩
  | none =>
    refine ⟨⟨⟨st, hst, rfl⟩, ?_⟩, fun _ => ⟨_, rfl⟩⟩
    simp only [ne_eq, Except.error.injEq]
    split <;> simp

/-- An invariant of the callback is one of the search. -/
theorem searchLoop_inv (P : QParams) (room : Nat) {σ : Type} (qs : List (Int × QTyp))
    (cb : σ → Option Val → σ × Bool) (I : σ → Prop) (hI : ∀ s l, I s → I (cb s l).1) :
    ∀ (n : Nat) (left : Option Nat) (c : Cur) (f : Found) (s : σ), I s →
    I (searchLoop P room qs cb n left c f s).2 := by
  have hstep : ∀ lab it c1 f s, I s → I (searchStep qs cb lab it c1 f s).2 := by
    intro lab it c1 f s hs
    have hu := hI s lab hs
    unfold searchStep
    generalize cb s lab = y at hu
    obtain ⟨s2, b⟩ := y
    cases lab with
    | none => cases b <;> exact hu
    | some v =>
      cases v with
      | int i =>
        simp only
        cases qs.lookup i with
        | none => cases b <;> exact hu
        | some t =>
          simp only
          split
          · exact hs
          · split
            · exact hs
            · split <;> exact hs
      | _ => cases b <;> exact hu
  intro n
  induction n with
  | zero => intro left c f s hs; exact hs
  | succ n ih =>
    intro left c f s hs
    rw [searchLoop]
    split
    · exact hs
    · generalize entry P true c = x
      obtain ⟨r, c1⟩ := x
      cases r with
      | error e => exact hs
      | ok p =>
        obtain ⟨lab, it⟩ := p
        have h2 := hstep lab it c1 f s hs
        simp only
        generalize searchStep qs cb lab it c1 f s = y at h2
        obtain ⟨r2, s2⟩ := y
        cases r2 with
        | error e => exact h2
        | ok f2 =>
          simp only
          cases skipValue P room it.val c1 with
          | error e => exact h2
          | ok c2 =>
            simp only
            generalize ascend [⟨true, left⟩] c2 = z
            obtain ⟨st3, c3⟩ := z
            cases st3 with
            | nil => exact h2
            | cons l st3 => exact ih _ _ _ _ h2

/-! ### The crit list -/

/-- The loop over the crit list, on the elements of the array. -/
def critFold : List Entry → Nat → Nat → LabelList → Option LabelList
  | [], _, _, l => some l
  | e :: es, ni, nt, l =>
    if e.itm.err.isSome then none
    else
      match e.itm.val with
      | .int i => if ni ≥ paramListMax then none else critFold es (ni + 1) nt (l.setInt ni i)
      | .tstr s => if nt ≥ paramListMax then none else critFold es ni (nt + 1) (l.setTstr nt s)
      | _ => none

/-- Integer elements of an array, in order. -/
def intsOf (es : List Entry) : List Int :=
  es.filterMap fun e => match e.itm.val with | .int i => some i | _ => none

/-- Text elements of an array, in order. -/
def tstrsOf (es : List Entry) : List Str :=
  es.filterMap fun e => match e.itm.val with | .tstr s => some s | _ => none

/-- The element is an integer or a text string, fetched without error. -/
def isLabelItem (e : Entry) : Prop :=
  e.itm.err = none ∧ ((∃ i, e.itm.val = .int i) ∨ ∃ s, e.itm.val = .tstr s)

theorem critFold_iff (es : List Entry) : ∀ (xs : List Int) (ts : List Str) (l' : LabelList),
    xs.length ≤ paramListMax → ts.length ≤ paramListMax →
    (critFold es xs.length ts.length (mkLL xs ts) = some l' ↔
    (∀ e ∈ es, isLabelItem e) ∧ (xs ++ intsOf es).length ≤ paramListMax ∧
      (ts ++ tstrsOf es).length ≤ paramListMax ∧
      l' = mkLL (xs ++ intsOf es) (ts ++ tstrsOf es)) := by
  induction es with
  | nil =>
    intro xs ts l' h1 h2
    simp only [critFold, Option.some.injEq, List.not_mem_nil, false_implies, implies_true,
      intsOf, tstrsOf, List.filterMap_nil, List.append_nil, h1, h2, true_and]
    exact eq_comm
  | cons e es ih =>
    intro xs ts l' h1 h2
    rw [critFold]
    cases he : e.itm.err with
    | some x =>
      simp only [Option.isSome_some, if_true, reduceCtorEq, List.mem_cons, forall_eq_or_imp,
        false_iff, not_and, and_imp]
      intro h
      rw [h.1] at he; cases he
    | none =>
      simp only [Option.isSome_none, Bool.false_eq_true, if_false, List.mem_cons,
        forall_eq_or_imp]
      cases hv : e.itm.val with
      | int i =>
        have hlab : isLabelItem e := ⟨he, .inl ⟨i, hv⟩⟩
        have hi : intsOf (e :: es) = i :: intsOf es := by simp [intsOf, hv]
        have ht : tstrsOf (e :: es) = tstrsOf es := by simp [tstrsOf, hv]
        simp only [hi, ht, hlab, true_and]
        by_cases hm : xs.length ≥ paramListMax
        · simp only [if_pos hm, reduceCtorEq, List.length_append, List.length_cons, false_iff,
            not_and]
          intros; omega
        · simp only [if_neg hm]
          rw [mkLL_setInt i (by omega)]
          have := ih (xs ++ [i]) ts l' (by simp only [List.length_append, List.length_singleton]; omega) h2
          simp only [List.length_append, List.append_assoc,
            List.singleton_append, List.length_cons] at this ⊢
          exact this
      | tstr s =>
        have hlab : isLabelItem e := ⟨he, .inr ⟨s, hv⟩⟩
        have hi : intsOf (e :: es) = intsOf es := by simp [intsOf, hv]
        have ht : tstrsOf (e :: es) = s :: tstrsOf es := by simp [tstrsOf, hv]
        simp only [hi, ht, hlab, true_and]
        by_cases hm : ts.length ≥ paramListMax
        · simp only [if_pos hm, reduceCtorEq, List.length_append, List.length_cons, false_iff,
            not_and]
          intros; omega
        · simp only [if_neg hm]
          rw [mkLL_setTstr s (by omega)]
          have := ih xs (ts ++ [s]) l' h1 (by simp only [List.length_append, List.length_singleton]; omega)
          simp only [List.length_append, List.append_assoc,
            List.singleton_append, List.length_cons] at this ⊢
          exact this
      | _ =>
        simp only [reduceCtorEq, false_iff, not_and]
        rintro ⟨⟨-, (⟨i, h⟩ | ⟨s, h⟩)⟩, -⟩ <;> (rw [hv] at h; cases h)

/-- `is_label_list_clear`: the crit list stores nothing, or starts with a zero
and an empty string. -/
theorem isClear_mk (xs : List Int) (ts : List Str) :
    (mkLL xs ts).isClear = true ↔
    (xs.headD 0 = 0) ∧ ((ts.head?.map (·.bytes)).getD [] = []) := by
  unfold LabelList.isClear mkLL
  have h1 : ((xs ++ List.replicate (paramListMax + 1 - xs.length) 0).head? == some (0 : Int)) =
      decide (xs.headD 0 = 0) := by
    cases xs with
    | nil => rfl
    | cons x xs => simp only [List.cons_append, List.head?_cons, List.headD_cons]; rfl
  have h2 : (Str.ub ((ts.map some ++ List.replicate (paramListMax + 1 - ts.length) none).headD
      none)).isNullOrEmpty = true ↔ (ts.head?.map (·.bytes)).getD [] = [] := by
    cases ts with
    | nil => exact ⟨fun _ => rfl, fun _ => rfl⟩
    | cons t ts => exact List.isEmpty_iff
  rw [h1, Bool.and_eq_true, h2]
  simp

theorem mkLL_intPrefix (xs : List Int) (ts : List Str) :
    (mkLL xs ts).intPrefix = xs.takeWhile (· != 0) := by
  unfold LabelList.intPrefix mkLL
  induction xs with
  | nil => simp [List.replicate_succ, paramListMax, List.takeWhile]
  | cons x xs ih =>
    simp only [List.cons_append, List.takeWhile_cons]
    split
    · congr 1
      simp only at ih
      have : ∀ k, (xs ++ List.replicate k (0 : Int)).takeWhile (· != 0) =
          xs.takeWhile (· != 0) := by
        intro k
        clear ih
        induction xs with
        | nil => cases k <;> simp [List.replicate_succ]
        | cons y ys ih => simp only [List.cons_append, List.takeWhile_cons, ih]
      exact this _
    · rfl

theorem mkLL_tstrPrefix (xs : List Int) (ts : List Str) :
    (mkLL xs ts).tstrPrefix = ts.map (·.bytes) := by
  unfold LabelList.tstrPrefix mkLL
  have : ∀ k, (ts.map some ++ List.replicate k (none : Option Str)).takeWhile (·.isSome) =
      ts.map some := by
    intro k
    induction ts with
    | nil => cases k <;> simp [List.replicate_succ]
    | cons y ys ih => simp only [List.map_cons, List.cons_append, List.takeWhile_cons, ih]; rfl
  rw [this]
  simp [Str.ub, UB.bytes]

theorem mkLL_terminated {xs : List Int} {ts : List Str} (h1 : xs.length ≤ paramListMax)
    (h2 : ts.length ≤ paramListMax) : (mkLL xs ts).terminated = true := by
  unfold LabelList.terminated mkLL
  simp only [Bool.and_eq_true, List.contains_eq_mem, List.mem_append, List.mem_replicate,
    decide_eq_true_eq]
  exact ⟨.inr ⟨by omega, trivial⟩, .inr ⟨by omega, trivial⟩⟩

end TCose
