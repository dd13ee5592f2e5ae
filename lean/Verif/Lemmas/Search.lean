import Verif.Lemmas.DecOps

/-!
# A successful map search in closed form
-/

namespace TCose
open Spec

/-- The integer label of an entry. -/
def Spec.Entry.key (e : Entry) : Option Int :=
  match e.label with
  | some (.int i) => some i
  | _ => none

/-- The entry has one of the wanted labels. -/
def wanted (qs : List (Int × QTyp)) (e : Entry) : Bool :=
  match e.key with
  | some i => (qs.lookup i).isSome
  | none => false

/-- What is recorded for a wanted entry. -/
def foundOf (e : Entry) : Int × Val × Cur := (e.key.getD 0, e.itm.val, e.cur)

/-- A wanted entry without error and of the type asked for. -/
def goodFor (qs : List (Int × QTyp)) (e : Entry) : Prop :=
  e.itm.err = none ∧ ∀ i t, e.key = some i → qs.lookup i = some t → t.ok e.itm.val = true

/-- The callback on labels in turn. -/
def cbFold {σ : Type} (cb : σ → Option Val → σ × Bool) : List (Option Val) → σ → σ × Bool
  | [], s => (s, true)
  | l :: ls, s =>
    match cb s l with
    | (s', true) => cbFold cb ls s'
    | (s', false) => (s', false)

theorem lookup_isSome_iff {α : Type} (f : List (Int × α)) (i : Int) :
    (f.lookup i).isSome = true ↔ i ∈ f.map (·.1) := by
  induction f with
  | nil => simp
  | cons a f ih =>
    obtain ⟨k, v⟩ := a
    by_cases h : i = k
    · subst h; simp [List.lookup]
    · have hb : (i == k) = false := by simpa using h
      simp only [List.lookup, hb, ih, List.map_cons, List.mem_cons, h, false_or]

theorem searchStep_wanted {σ : Type} {qs : List (Int × QTyp)} {cb : σ → Option Val → σ × Bool}
    {e : Entry} {f f' : Found} {s s' : σ} (hw : wanted qs e = true) :
    searchStep qs cb e.label e.itm e.cur f s = (.ok f', s') ↔
    s' = s ∧ goodFor qs e ∧ e.key.getD 0 ∉ f.map (·.1) ∧ f' = foundOf e :: f := by
  unfold wanted at hw
  unfold goodFor foundOf
  unfold Spec.Entry.key at hw ⊢
  unfold searchStep
  cases hl : e.label with
  | none => rw [hl] at hw; simp at hw
  | some v =>
    cases v with
    | int i =>
      rw [hl] at hw
      simp only at hw
      obtain ⟨t, ht⟩ := Option.isSome_iff_exists.mp hw
      simp only [ht]
      have hm := lookup_isSome_iff f i
      by_cases hdup : (List.lookup i f).isSome = true
      · simp only [if_pos hdup, Prod.mk.injEq, reduceCtorEq, false_and, Option.getD_some,
          false_iff, not_and]
        intro _ _ h
        exact absurd (hm.mp hdup) h
      · simp only [if_neg hdup]
        have hnm : i ∉ f.map (·.1) := fun h => hdup (hm.mpr h)
        cases he : e.itm.err with
        | some x => simp
        | none =>
          by_cases hok : t.ok e.itm.val = true
          · simp only [if_pos hok, Prod.mk.injEq, Except.ok.injEq, Option.getD_some, true_and]
            constructor
            · rintro ⟨rfl, rfl⟩
              refine ⟨rfl, ?_, hnm, rfl⟩
              intro j t' hj ht'
              cases hj
              rw [ht] at ht'
              cases ht'
              exact hok
            · rintro ⟨rfl, -, -, rfl⟩
              exact ⟨rfl, rfl⟩
          · simp only [if_neg hok, Prod.mk.injEq, reduceCtorEq, false_and, Option.getD_some,
              true_and, false_iff, not_and]
            intro _ h
            exact absurd (h i t rfl ht) hok
    | _ => rw [hl] at hw; simp at hw

theorem searchStep_unwanted {σ : Type} {qs : List (Int × QTyp)}
    {cb : σ → Option Val → σ × Bool}
    {e : Entry} {f f' : Found} {s s' : σ} (hw : wanted qs e = false) :
    searchStep qs cb e.label e.itm e.cur f s = (.ok f', s') ↔
    cb s e.label = (s', true) ∧ f' = f := by
  have hu : searchStep qs cb e.label e.itm e.cur f s =
      match cb s e.label with
      | (s', true) => (.ok f, s')
      | (s', false) => (.error .callbackFail, s') := by
    unfold wanted Spec.Entry.key at hw
    unfold searchStep
    cases hl : e.label with
    | none => rfl
    | some v =>
      cases v with
      | int i =>
        rw [hl] at hw
        simp only at hw
        have : qs.lookup i = none := by simpa using hw
        simp only [this]
        rfl
      | _ => rfl
  rw [hu]
  generalize cb s e.label = x
  obtain ⟨s2, b⟩ := x
  cases b with
  | true =>
    simp only [Prod.mk.injEq, Except.ok.injEq, and_true]
    constructor
    · rintro ⟨rfl, rfl⟩; exact ⟨rfl, rfl⟩
    · rintro ⟨rfl, rfl⟩; exact ⟨rfl, rfl⟩
  | false => simp

/-- A search over entries succeeds exactly if every wanted entry is good, wanted
labels are distinct, and the callback accepts every other label in turn; it
yields the wanted entries. -/
theorem searchFold_iff {σ : Type} (qs : List (Int × QTyp)) (cb : σ → Option Val → σ × Bool)
    (es : List Entry) : ∀ (f f' : Found) (s s' : σ),
    searchFold qs cb es f s = (.ok f', s') ↔
    (∀ e ∈ es.filter (wanted qs), goodFor qs e) ∧
    ((es.filter (wanted qs)).map (fun e => e.key.getD 0)).Nodup ∧
    (∀ e ∈ es.filter (wanted qs), e.key.getD 0 ∉ f.map (·.1)) ∧
    cbFold cb ((es.filter (fun e => !wanted qs e)).map (·.label)) s = (s', true) ∧
    f' = ((es.filter (wanted qs)).map foundOf).reverse ++ f := by
  induction es with
  | nil =>
    intro f f' s s'
    simp only [searchFold, Prod.mk.injEq, Except.ok.injEq, List.filter_nil, List.not_mem_nil,
      false_implies, implies_true, List.map_nil, List.nodup_nil, cbFold, and_true,
      List.reverse_nil, List.nil_append, true_and]
    constructor
    · rintro ⟨rfl, rfl⟩; exact ⟨rfl, rfl⟩
    · rintro ⟨rfl, rfl⟩; exact ⟨rfl, rfl⟩
  | cons e es ih =>
    intro f f' s s'
    rw [searchFold]
    cases hw : wanted qs e with
    | true =>
      have hst := fun f2 s2 => searchStep_wanted (cb := cb) (f := f) (f' := f2) (s := s)
        (s' := s2) hw
      simp only [List.filter_cons, hw, if_true, Bool.not_true, Bool.false_eq_true, if_false,
        List.map_cons, List.nodup_cons, List.reverse_cons, List.append_assoc, List.singleton_append,
        List.mem_cons, forall_eq_or_imp]
      generalize searchStep qs cb e.label e.itm e.cur f s = x at hst
      obtain ⟨r, s2⟩ := x
      cases r with
      | error x =>
        simp only [Prod.mk.injEq, reduceCtorEq, false_and, false_iff, not_and]
        simp only [Prod.mk.injEq, reduceCtorEq, false_and, false_iff, not_and] at hst
        rintro ⟨hg, -⟩ - ⟨hnin, -⟩
        exact absurd rfl (hst (foundOf e :: f) s rfl hg hnin)
      | ok f2 =>
        simp only [Prod.mk.injEq, Except.ok.injEq] at hst
        obtain ⟨rfl, hg, hnin, rfl⟩ := (hst f2 s2).mp ⟨rfl, rfl⟩
        simp only
        rw [ih]
        have hk : (foundOf e).1 = e.key.getD 0 := rfl
        simp only [List.map_cons, List.mem_cons, hk, not_or, hg, hnin, not_false_eq_true, true_and]
        constructor
        · rintro ⟨h1, h2, h3, h4, h5⟩
          refine ⟨h1, ⟨?_, h2⟩, fun e' he' => (h3 e' he').2, h4, h5⟩
          intro hmem
          obtain ⟨e', he', heq⟩ := List.mem_map.mp hmem
          exact (h3 e' he').1 heq
        · rintro ⟨h1, ⟨h2, h2'⟩, h3, h4, h5⟩
          refine ⟨h1, h2', fun e' he' => ⟨?_, h3 e' he'⟩, h4, h5⟩
          intro heq
          exact h2 (List.mem_map.mpr ⟨e', he', heq⟩)
    | false =>
      have hst := fun f2 s2 => searchStep_unwanted (cb := cb) (f := f) (f' := f2) (s := s)
        (s' := s2) hw
      simp only [List.filter_cons, hw, Bool.not_false, if_true, Bool.false_eq_true, if_false,
        List.map_cons, cbFold]
      generalize searchStep qs cb e.label e.itm e.cur f s = x at hst
      obtain ⟨r, s2⟩ := x
      generalize cb s e.label = y at hst
      obtain ⟨s3, b⟩ := y
      cases b with
      | false =>
        simp only [Prod.mk.injEq, Bool.false_eq_true, and_false, false_and, iff_false,
          not_and] at hst
        cases r with
        | error x => simp
        | ok f2 => exact absurd rfl (hst f2 s2 rfl)
      | true =>
        simp only [Prod.mk.injEq, and_true] at hst
        obtain ⟨h1, h2⟩ := (hst f s3).mpr ⟨rfl, rfl⟩
        cases r with
        | error x => cases h1
        | ok f2 =>
          cases h1
          subst h2
          simp only
          exact ih f f' s2 s'

/-- The label occurs as an integer label. -/
theorem key_iff {e : Entry} {i : Int} : e.key = some i ↔ e.label = some (.int i) := by
  unfold Spec.Entry.key
  cases e.label with
  | none => simp
  | some v => cases v <;> simp

theorem lookup_map_eq {α : Type} (l : List (Int × α)) (i : Int) (v : α)
    (hn : (l.map (·.1)).Nodup) : l.lookup i = some v ↔ (i, v) ∈ l := by
  induction l with
  | nil => simp
  | cons a l ih =>
    obtain ⟨k, w⟩ := a
    simp only [List.map_cons, List.nodup_cons] at hn
    by_cases h : i = k
    · subst h
      simp only [List.lookup, BEq.rfl, Option.some.injEq, List.mem_cons, Prod.mk.injEq, true_and]
      constructor
      · rintro rfl; exact .inl rfl
      · rintro (rfl | h)
        · rfl
        · exact absurd (List.mem_map.mpr ⟨_, h, rfl⟩) hn.1
    · have hb : (i == k) = false := by simpa using h
      simp only [List.lookup, hb, ih hn.2, List.mem_cons, Prod.mk.injEq, h, false_and, false_or]

/-- Looking up a wanted label in what a search from scratch found. -/
theorem found_lookup {qs : List (Int × QTyp)} {es : List Entry} {i : Int} {v : Val} {c : Cur}
    (hi : (qs.lookup i).isSome = true)
    (hn : ((es.filter (wanted qs)).map (fun e => e.key.getD 0)).Nodup) :
    (((es.filter (wanted qs)).map foundOf).reverse ++ []).lookup i = some (v, c) ↔
    ∃ e ∈ es, e.label = some (.int i) ∧ e.itm.val = v ∧ e.cur = c := by
  rw [List.append_nil]
  rw [lookup_map_eq]
  · rw [List.mem_reverse, List.mem_map]
    constructor
    · rintro ⟨e, he, hf⟩
      rw [List.mem_filter] at he
      have hk : ∃ j, e.key = some j := by
        have hw := he.2
        unfold wanted at hw
        cases hk : e.key with
        | none => rw [hk] at hw; simp at hw
        | some j => exact ⟨j, rfl⟩
      obtain ⟨j, hj⟩ := hk
      unfold foundOf at hf
      rw [hj] at hf
      simp only [Option.getD_some, Prod.mk.injEq] at hf
      obtain ⟨rfl, rfl, rfl⟩ := hf
      exact ⟨e, he.1, key_iff.mp hj, rfl, rfl⟩
    · rintro ⟨e, he, hl, rfl, rfl⟩
      refine ⟨e, ?_, ?_⟩
      · rw [List.mem_filter]
        refine ⟨he, ?_⟩
        unfold wanted
        rw [key_iff.mpr hl]
        exact hi
      · unfold foundOf
        rw [key_iff.mpr hl]
        rfl
  · rw [List.map_reverse, List.map_map]
    exact (List.reverse_perm _).nodup_iff.mpr hn

theorem found_lookup_none {qs : List (Int × QTyp)} {es : List Entry} {i : Int}
    (hi : (qs.lookup i).isSome = true)
    (hn : ((es.filter (wanted qs)).map (fun e => e.key.getD 0)).Nodup) :
    (((es.filter (wanted qs)).map foundOf).reverse ++ []).lookup i = none ↔
    ∀ e ∈ es, e.label ≠ some (.int i) := by
  constructor
  · intro h e he hl
    have := (found_lookup (v := e.itm.val) (c := e.cur) hi hn).mpr ⟨e, he, hl, rfl, rfl⟩
    rw [h] at this
    cases this
  · intro h
    cases hc : (((es.filter (wanted qs)).map foundOf).reverse ++ []).lookup i with
    | none => rfl
    | some p =>
      obtain ⟨v, c⟩ := p
      obtain ⟨e, he, hl, -⟩ := (found_lookup hi hn).mp hc
      exact absurd hl (h e he)

/-- Distinct wanted labels: no wanted label occurs twice. -/
theorem wanted_unique {qs : List (Int × QTyp)} {es : List Entry} {i : Int}
    (hi : (qs.lookup i).isSome = true)
    (hn : ((es.filter (wanted qs)).map (fun e => e.key.getD 0)).Nodup) :
    (es.filter (fun e => e.key = some i)).length ≤ 1 := by
  induction es with
  | nil => simp
  | cons e es ih =>
    simp only [List.filter_cons] at hn ⊢
    by_cases hk : e.key = some i
    · have hw : wanted qs e = true := by unfold wanted; rw [hk]; exact hi
      rw [if_pos hw] at hn
      simp only [List.map_cons, List.nodup_cons, hk, Option.getD_some] at hn
      rw [if_pos (by simpa using hk)]
      have : es.filter (fun e => e.key = some i) = [] := by
        rw [List.filter_eq_nil_iff]
        intro e' he' hk'
        have hk' : e'.key = some i := by simpa using hk'
        refine hn.1 (List.mem_map.mpr ⟨e', ?_, ?_⟩)
        · rw [List.mem_filter]
          exact ⟨he', by unfold wanted; rw [hk']; exact hi⟩
        · rw [hk']; rfl
      rw [this]
      simp
    · rw [if_neg (by simpa using hk)]
      apply ih
      cases hw : wanted qs e with
      | true =>
        rw [hw, if_pos rfl, List.map_cons, List.nodup_cons] at hn
        exact hn.2
      | false =>
        rw [hw] at hn
        simpa using hn

end TCose
