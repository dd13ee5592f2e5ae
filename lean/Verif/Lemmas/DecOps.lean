import Verif.Lemmas.DecMap

/-!
# Decoder operations in terms of the elements of the containers
-/

namespace TCose
open Spec

/-- The elements still to come in an entered container level with `left` items
left, and where the container ends. -/
def Rem (P : QParams) (m : Bool) (room : Nat) (left : Option Nat) (c : Cur)
    (es : List Entry) (cEnd : Cur) : Prop :=
  (left = some 0 ∧ es = [] ∧ cEnd = c) ∨
  (left ≠ some 0 ∧ traverse P m room (c.rest.length + 1) left c = .ok (es, cEnd))

theorem elements_rem {P : QParams} {m : Bool} {room : Nat} {n : Option Nat} {c : Cur}
    {es : List Entry} {cEnd : Cur} :
    elements P m room n c = .ok (es, cEnd) ↔
    Rem P m room (Dec.openLvl n c).1 (Dec.openLvl n c).2 es cEnd := by
  unfold elements Dec.openLvl Rem
  rcases n with _ | _ | k
  · by_cases h : c.rest.head? = some 255
    · simp only [h, if_true, true_and, ne_eq, not_true_eq_false, false_and, or_false,
        Except.ok.injEq, Prod.mk.injEq]
      constructor
      · rintro ⟨rfl, rfl⟩; exact ⟨rfl, rfl⟩
      · rintro ⟨rfl, rfl⟩; exact ⟨rfl, rfl⟩
    · simp only [if_neg h]
      simp
  · simp only [true_and, ne_eq, not_true_eq_false, false_and, or_false, Except.ok.injEq,
      Prod.mk.injEq]
    constructor
    · rintro ⟨rfl, rfl⟩; exact ⟨rfl, rfl⟩
    · rintro ⟨rfl, rfl⟩; exact ⟨rfl, rfl⟩
  · simp

/-- The level state after one more element. -/
def stepLeft (left : Option Nat) (c : Cur) : Option Nat × Cur :=
  match left with
  | some n => (some (n - 1), c)
  | none => if c.rest.head? = some 0xff then (some 0, c.adv 1) else (none, c)

theorem itemDone_arr (left : Option Nat) (ls : List Lvl) (c : Cur) :
    Dec.itemDone (.arr left :: ls) c = (.arr (stepLeft left c).1 :: ls, (stepLeft left c).2) := by
  cases left with
  | some n => rfl
  | none =>
    simp only [Dec.itemDone, stepLeft]
    split <;> rfl

theorem ascend_stepLeft {m : Bool} {left : Option Nat} {c : Cur} (h : left ≠ some 0) :
    ascend [⟨m, left⟩] c =
      if (stepLeft left c).1 = some 0 then ([], (stepLeft left c).2)
      else ([⟨m, (stepLeft left c).1⟩], (stepLeft left c).2) := by
  cases left with
  | none =>
    simp only [ascend, stepLeft]
    split <;> simp
  | some n =>
    have hn : n ≠ 0 := fun h' => h (by rw [h'])
    simp only [ascend, stepLeft]
    by_cases h1 : n ≤ 1
    · have : n - 1 = 0 := by omega
      simp [h1, this]
    · have : n - 1 ≠ 0 := by omega
      simp [h1, this]

theorem stepLeft_adv (left : Option Nat) (c : Cur) : Adv c (stepLeft left c).2 := by
  cases left with
  | some n => exact Adv.refl c
  | none =>
    simp only [stepLeft]
    split
    · rename_i h
      cases hc : c.rest with
      | nil => rw [hc] at h; simp at h
      | cons b r => exact ⟨1, by rw [hc]; simp, rfl⟩
    · exact Adv.refl c

theorem openLvl_adv (n : Option Nat) (c : Cur) : Adv c (Dec.openLvl n c).2 := by
  cases n with
  | some n => exact Adv.refl c
  | none =>
    simp only [Dec.openLvl]
    split
    · rename_i h
      cases hc : c.rest with
      | nil => rw [hc] at h; simp at h
      | cons b r => exact ⟨1, by rw [hc]; simp, rfl⟩
    · exact Adv.refl c

/-- One element read, the others to come. -/
theorem Rem_cons_iff {P : QParams} {m : Bool} {room : Nat} {left : Option Nat} {c : Cur}
    {e : Entry} {es : List Entry} {cEnd : Cur} :
    Rem P m room left c (e :: es) cEnd ↔
    left ≠ some 0 ∧ c.rest ≠ [] ∧ entry P m c = (.ok (e.label, e.itm), e.cur) ∧
      ∃ c2, skipValue P room e.itm.val e.cur = .ok c2 ∧
        Rem P m room (stepLeft left c2).1 (stepLeft left c2).2 es cEnd := by
  unfold Rem
  constructor
  · rintro (⟨-, h, -⟩ | ⟨hl, h⟩)
    · cases h
    · refine ⟨hl, ?_⟩
      rw [traverse] at h
      split at h
      · cases h
      · rename_i hr
        have hr' : c.rest ≠ [] := by
          intro h'; rw [h'] at hr; simp at hr
        refine ⟨hr', ?_⟩
        have he := entry_ok P m c
        generalize entry P m c = x at he h ⊢
        obtain ⟨r, c1⟩ := x
        cases r with
        | error e => cases h
        | ok p =>
          obtain ⟨lab, it⟩ := p
          simp only at h
          have hs := skipValue_ok P room it.val c1
          cases hsv : skipValue P room it.val c1 with
          | error e => rw [hsv] at h; cases h
          | ok c2 =>
            rw [hsv] at hs h
            simp only at h
            rw [ascend_stepLeft hl] at h
            have hadv := he.1.trans_adv (Adv.trans hs (stepLeft_adv left c2))
            have hlt := hadv.length_lt
            by_cases hz : (stepLeft left c2).1 = some 0
            · simp only [if_pos hz, Except.ok.injEq, Prod.mk.injEq, List.cons.injEq] at h
              obtain ⟨⟨rfl, rfl⟩, rfl⟩ := h
              refine ⟨rfl, c2, hsv, .inl ⟨hz, rfl, rfl⟩⟩
            · simp only [if_neg hz] at h
              rw [traverse_fuel P m room _ ((stepLeft left c2).2.rest.length + 1) _ _
                (by omega) (by omega)] at h
              cases ht : traverse P m room ((stepLeft left c2).2.rest.length + 1)
                  (stepLeft left c2).1 (stepLeft left c2).2 with
              | error e => rw [ht] at h; cases h
              | ok q =>
                obtain ⟨es', c4⟩ := q
                rw [ht] at h
                simp only [Except.ok.injEq, Prod.mk.injEq, List.cons.injEq] at h
                obtain ⟨⟨rfl, rfl⟩, rfl⟩ := h
                exact ⟨rfl, c2, hsv, .inr ⟨hz, ht⟩⟩
  · rintro ⟨hl, hr, hen, c2, hsv, hrem⟩
    refine .inr ⟨hl, ?_⟩
    rw [traverse]
    have hr' : ¬ c.rest.isEmpty = true := by
      rw [List.isEmpty_iff]; exact hr
    rw [if_neg hr']
    have he := entry_ok P m c
    rw [hen] at he ⊢
    simp only
    have hs := skipValue_ok P room e.itm.val e.cur
    rw [hsv] at hs ⊢
    simp only
    rw [ascend_stepLeft hl]
    have hadv := he.1.trans_adv (Adv.trans hs (stepLeft_adv left c2))
    have hlt := hadv.length_lt
    by_cases hz : (stepLeft left c2).1 = some 0
    · simp only [if_pos hz]
      rcases hrem with ⟨-, rfl, rfl⟩ | ⟨h, -⟩
      · rfl
      · exact absurd hz h
    · simp only [if_neg hz]
      rcases hrem with ⟨h, -⟩ | ⟨-, ht⟩
      · exact absurd h hz
      · rw [traverse_fuel P m room _ ((stepLeft left c2).2.rest.length + 1) _ _
          (by omega) (by omega), ht]

theorem Rem_nil_iff {P : QParams} {m : Bool} {room : Nat} {left : Option Nat} {c cEnd : Cur} :
    Rem P m room left c [] cEnd ↔ left = some 0 ∧ cEnd = c := by
  unfold Rem
  constructor
  · rintro (⟨h, -, h2⟩ | ⟨-, h⟩)
    · exact ⟨h, h2⟩
    · exact absurd rfl (traverse_in P m room _ _ _ _ _ (Nat.lt_succ_self _) h).2.1
  · rintro ⟨h, h2⟩
    exact .inl ⟨h, rfl, h2⟩

theorem Rem_in {P : QParams} {m : Bool} {room : Nat} {left : Option Nat} {c cEnd : Cur}
    {es : List Entry} (h : Rem P m room left c es cEnd) :
    Adv c cEnd ∧ ∀ e ∈ es, EntryIn c e := by
  rcases h with ⟨-, rfl, rfl⟩ | ⟨-, h⟩
  · exact ⟨Adv.refl _, by simp⟩
  · obtain ⟨h1, -, h3⟩ := traverse_in P m room _ _ _ _ _ (Nat.lt_succ_self _) h
    exact ⟨h1.adv, h3⟩

/-- Stepping over a container item = reading all its elements. -/
theorem skipValue_container (P : QParams) (room : Nat) (m : Bool) (n : Option Nat) (c c' : Cur) :
    skipValue P (room + 1) (if m then .map n else .arr n) c = .ok c' ↔
    ∃ es, elements P m room n c = .ok (es, c') := by
  have key : ∀ left, (skipAll P (room + 1) [⟨m, left⟩] c = .ok c' ↔
      ∃ es, traverse P m room (c.rest.length + 1) left c = .ok (es, c')) := by
    intro left
    rw [traverse_skipAll P m room _ left c (Nat.lt_succ_self _)]
    generalize traverse P m room (c.rest.length + 1) left c = x
    cases x with
    | error e => simp
    | ok q =>
      obtain ⟨es, c1⟩ := q
      simp
  have main : (match (match n with
      | some 0 => Except.ok (ascend [] c)
      | some k => if ([] : List NLvl).length ≥ room + 1 then .error QErr.nestingTooDeep
          else .ok ([⟨m, some k⟩], c)
      | none => if ([] : List NLvl).length ≥ room + 1 then .error QErr.nestingTooDeep
          else .ok (ascend [⟨m, none⟩] c)) with
      | .error e => Except.error e
      | .ok (st, c1) => skipAll P (room + 1) st c1) = .ok c' ↔
      ∃ es, elements P m room n c = .ok (es, c') := by
    unfold elements
    rcases n with _ | _ | k
    · simp only [List.length_nil, ge_iff_le, Nat.le_zero_eq, Nat.add_eq_zero_iff,
        Nat.succ_ne_self, and_false, if_false, ascend]
      by_cases h : c.rest.head? = some 255
      · simp only [if_pos h, skipAll_nil, Except.ok.injEq, Prod.mk.injEq]
        constructor
        · rintro rfl; exact ⟨[], rfl, rfl⟩
        · rintro ⟨es, -, h⟩; exact h
      · simp only [if_neg h]
        exact key none
    · simp only [ascend, skipAll_nil, Except.ok.injEq, Prod.mk.injEq]
      constructor
      · rintro rfl; exact ⟨[], rfl, rfl⟩
      · rintro ⟨es, -, h⟩; exact h
    · simp only [List.length_nil, ge_iff_le, Nat.le_zero_eq, Nat.add_eq_zero_iff,
        Nat.succ_ne_self, and_false, if_false]
      exact key (some (k + 1))
  cases m with
  | true => exact main
  | false => exact main

theorem skipValue_map (P : QParams) (room : Nat) (n : Option Nat) (c c' : Cur) :
    skipValue P (room + 1) (.map n) c = .ok c' ↔
    ∃ es, elements P true room n c = .ok (es, c') :=
  skipValue_container P room true n c c'

theorem skipValue_arr (P : QParams) (room : Nat) (n : Option Nat) (c c' : Cur) :
    skipValue P (room + 1) (.arr n) c = .ok c' ↔
    ∃ es, elements P false room n c = .ok (es, c') :=
  skipValue_container P room false n c c'

/-- Items that are not containers. -/
def Val.isSimple : Val → Bool
  | .arr _ | .map _ => false
  | _ => true

theorem skipValue_simple (P : QParams) (room : Nat) {v : Val} (h : v.isSimple = true) (c : Cur) :
    skipValue P room v c = .ok c := by
  have hp : push room v [] c = .ok ([], c) := by
    cases v <;> first | rfl | cases h
  unfold skipValue
  rw [hp]
  exact skipAll_nil P room c

namespace Dec

theorem fetch_ok {P : QParams} {d : Dec} {it : Itm} {c1 : Cur} :
    d.fetch P = (.ok it, c1) ↔
    d.atEnd = false ∧ d.cur.rest ≠ [] ∧ it.err = none ∧
      ∃ l, entry P false d.cur = (.ok (l, it), c1) := by
  unfold fetch
  by_cases h1 : d.atEnd = true
  · simp [h1]
  · by_cases h2 : d.cur.rest = []
    · simp [h2]
    · have h3 : (d.atEnd || d.cur.rest.isEmpty) = false := by
        simp [h1, h2]
      rw [h3]
      simp only [Bool.false_eq_true, if_false]
      generalize entry P false d.cur = x
      obtain ⟨r, c2⟩ := x
      cases r with
      | error e => simp
      | ok p =>
        obtain ⟨l, it'⟩ := p
        cases hi : it'.err with
        | some e =>
          simp only [hi, Prod.mk.injEq, reduceCtorEq, false_and, Except.ok.injEq, false_iff]
          rintro ⟨-, -, hn, l', ⟨-, rfl⟩, -⟩
          rw [hi] at hn; cases hn
        | none =>
          simp only [hi, Prod.mk.injEq, Except.ok.injEq]
          constructor
          · rintro ⟨rfl, rfl⟩
            exact ⟨by simpa using h1, h2, hi, l, ⟨rfl, rfl⟩, rfl⟩
          · rintro ⟨-, -, -, l', ⟨-, rfl⟩, rfl⟩
            exact ⟨rfl, rfl⟩

theorem entry_false_label {P : QParams} {c c1 : Cur} {l : Option Val} {it : Itm}
    (h : entry P false c = (.ok (l, it), c1)) : l = none := by
  unfold entry at h
  simp only [Bool.false_eq_true, if_false] at h
  generalize nextItem P c = x at h
  obtain ⟨r, c2⟩ := x
  cases r with
  | error e => simp at h
  | ok v =>
    simp only at h
    split at h
    · simp at h
    · simp only [Prod.mk.injEq, Except.ok.injEq] at h
      exact h.1.1.symm

theorem fetch_adv {P : QParams} {d : Dec} {it : Itm} {c1 : Cur}
    (h : d.fetch P = (.ok it, c1)) : Adv1 d.cur c1 ∧ ValIn d.cur it.val := by
  obtain ⟨-, -, -, l, h⟩ := fetch_ok.mp h
  have := entry_ok P false d.cur
  rw [h] at this
  exact ⟨this.1, this.2.2.1⟩

theorem fetch_err {P : QParams} {d : Dec} {e : QErr} {c1 : Cur}
    (h : d.fetch P = (.error e, c1)) : e ≠ .fuel := by
  unfold fetch at h
  split at h
  · simp only [Prod.mk.injEq, Except.error.injEq] at h
    rw [← h.1]; exact fun h' => by cases h'
  · have he := entry_ok P false d.cur
    generalize entry P false d.cur = x at he h
    obtain ⟨r, c2⟩ := x
    cases r with
    | error e' =>
      simp only [Prod.mk.injEq, Except.error.injEq] at h
      rw [← h.1]; exact he.2
    | ok p =>
      obtain ⟨l, it⟩ := p
      simp only at h
      cases hi : it.err with
      | none => rw [hi] at h; simp at h
      | some e' =>
        rw [hi] at h
        simp only [Prod.mk.injEq, Except.error.injEq] at h
        have := (he.2.2.2.2 e' hi).1
        rw [← h.1]
        rintro rfl
        cases this

/-- Fetching in an array level that has `e :: es` to come. -/
theorem fetch_rem {P : QParams} {d : Dec} {left : Option Nat} {ls : List Lvl} {room : Nat}
    {e : Entry} {es : List Entry} {cEnd : Cur}
    (hl : d.lvls = .arr left :: ls) (hr : Rem P false room left d.cur (e :: es) cEnd)
    (he : e.itm.err = none) : d.fetch P = (.ok e.itm, e.cur) := by
  obtain ⟨h1, h2, h3, -⟩ := Rem_cons_iff.mp hr
  refine fetch_ok.mpr ⟨?_, h2, he, _, h3⟩
  unfold atEnd
  rw [hl]
  cases left with
  | none => rfl
  | some n =>
    cases n with
    | zero => exact absurd rfl h1
    | succ n => rfl

/-- An element fetched, and the rest of the array readable: an entry more. -/
theorem rem_of_fetch {P : QParams} {d : Dec} {left : Option Nat} {ls : List Lvl} {room : Nat}
    {it : Itm} {c1 c2 : Cur} {es : List Entry} {cEnd : Cur}
    (hl : d.lvls = .arr left :: ls) (hf : d.fetch P = (.ok it, c1))
    (hs : skipValue P room it.val c1 = .ok c2)
    (hr : Rem P false room (stepLeft left c2).1 (stepLeft left c2).2 es cEnd) :
    Rem P false room left d.cur (⟨none, it, c1⟩ :: es) cEnd := by
  obtain ⟨h1, h2, h3, l, h4⟩ := fetch_ok.mp hf
  have := entry_false_label h4
  subst this
  refine Rem_cons_iff.mpr ⟨?_, h2, h4, c2, hs, hr⟩
  rintro rfl
  unfold atEnd at h1
  rw [hl] at h1
  simp at h1

/-! ### Operations that succeed -/

theorem enterArray_ok {P : QParams} {d d' : Dec} (h : d.enterArray P = d') (he : d'.err = none) :
    d.err = none ∧ ∃ it n c1, d.fetch P = (.ok it, c1) ∧ it.val = .arr n ∧ d.room ≠ 0 ∧
      d' = { d with cur := (openLvl n c1).2, lvls := .arr (openLvl n c1).1 :: d.lvls,
                    tags := it.tags } := by
  unfold enterArray at h
  split at h
  · rename_i h1; rw [← h] at he; rw [he] at h1; simp at h1
  · rename_i h1
    have hn : d.err = none := by simpa using h1
    refine ⟨hn, ?_⟩
    generalize d.fetch P = x at h ⊢
    obtain ⟨r, c1⟩ := x
    cases r with
    | error e => rw [← h] at he; simp at he
    | ok it =>
      simp only at h
      cases hv : it.val with
      | arr n =>
        rw [hv] at h
        simp only at h
        split at h
        · rw [← h] at he; simp at he
        · rename_i hroom
          exact ⟨it, n, c1, rfl, hv, hroom, h.symm⟩
      | _ => rw [hv] at h; rw [← h] at he; simp at he

theorem enterArray_intro {P : QParams} {d : Dec} {it : Itm} {n : Option Nat} {c1 : Cur}
    (he : d.err = none) (hf : d.fetch P = (.ok it, c1)) (hv : it.val = .arr n)
    (hr : d.room ≠ 0) :
    d.enterArray P = { d with cur := (openLvl n c1).2, lvls := .arr (openLvl n c1).1 :: d.lvls,
                              tags := it.tags } := by
  unfold enterArray
  rw [he, hf]
  simp only [Option.isSome_none, Bool.false_eq_true, if_false]
  rw [hv]
  simp only [if_neg hr]

theorem enterMap_ok {P : QParams} {d d' : Dec} (h : d.enterMap P = d') (he : d'.err = none) :
    d.err = none ∧ ∃ it n c1, d.fetch P = (.ok it, c1) ∧ it.val = .map n ∧ d.room ≠ 0 ∧
      d' = { d with cur := (openLvl n c1).2,
                    lvls := .map (openLvl n c1).2 (openLvl n c1).1 :: d.lvls,
                    tags := it.tags } := by
  unfold enterMap at h
  split at h
  · rename_i h1; rw [← h] at he; rw [he] at h1; simp at h1
  · rename_i h1
    have hn : d.err = none := by simpa using h1
    refine ⟨hn, ?_⟩
    generalize d.fetch P = x at h ⊢
    obtain ⟨r, c1⟩ := x
    cases r with
    | error e => rw [← h] at he; simp at he
    | ok it =>
      simp only at h
      cases hv : it.val with
      | map n =>
        rw [hv] at h
        simp only at h
        split at h
        · rw [← h] at he; simp at he
        · rename_i hroom
          exact ⟨it, n, c1, rfl, hv, hroom, h.symm⟩
      | _ => rw [hv] at h; rw [← h] at he; simp at he

theorem enterMap_intro {P : QParams} {d : Dec} {it : Itm} {n : Option Nat} {c1 : Cur}
    (he : d.err = none) (hf : d.fetch P = (.ok it, c1)) (hv : it.val = .map n)
    (hr : d.room ≠ 0) :
    d.enterMap P = { d with cur := (openLvl n c1).2,
                            lvls := .map (openLvl n c1).2 (openLvl n c1).1 :: d.lvls,
                            tags := it.tags } := by
  unfold enterMap
  rw [he, hf]
  simp only [Option.isSome_none, Bool.false_eq_true, if_false]
  rw [hv]
  simp only [if_neg hr]

/-- `MapSearch` succeeds exactly if the entries can be read and the search over
them succeeds. -/
theorem mapSearch_ok {P : QParams} {d : Dec} {start : Cur} {cnt : Option Nat} {ls : List Lvl}
    (hl : d.lvls = .map start cnt :: ls) {σ : Type} (qs : List (Int × QTyp))
    (cb : σ → Option Val → σ × Bool) (s s' : σ) (f : Found) :
    d.mapSearch P qs cb s = (.ok f, s') ↔
    ∃ es cEnd, Rem P true d.room cnt start es cEnd ∧
      searchFold qs cb es [] s = (.ok f, s') := by
  by_cases h0 : cnt = some 0
  · subst h0
    unfold mapSearch
    rw [hl]
    simp only [Prod.mk.injEq, Except.ok.injEq]
    constructor
    · rintro ⟨rfl, rfl⟩
      exact ⟨[], start, Rem_nil_iff.mpr ⟨rfl, rfl⟩, rfl⟩
    · rintro ⟨es, cEnd, hr, hf⟩
      rcases hr with ⟨-, rfl, -⟩ | ⟨h, -⟩
      · simpa [searchFold] using hf
      · exact absurd rfl h
  · have hm : d.mapSearch P qs cb s =
        match searchLoop P d.room qs cb (start.rest.length + 1) cnt start [] s with
          | (.error e, s) => (.error e, s)
          | (.ok (found, _), s) => (.ok found, s) := by
      unfold mapSearch
      rw [hl]
      rcases cnt with _ | _ | n
      · rfl
      · exact absurd rfl h0
      · rfl
    rw [hm]
    have hx := searchLoop_ok P d.room qs cb (start.rest.length + 1) cnt start [] f s s'
    generalize searchLoop P d.room qs cb (start.rest.length + 1) cnt start [] s = x at hx ⊢
    obtain ⟨r, s2⟩ := x
    cases r with
    | error e =>
      simp only [Prod.mk.injEq, reduceCtorEq, false_and, false_iff, not_exists, not_and] at hx ⊢
      rintro es cEnd (⟨h, -⟩ | ⟨-, ht⟩) hf
      · exact absurd h h0
      · exact hx cEnd es ht hf
    | ok q =>
      obtain ⟨f2, c2⟩ := q
      simp only [Prod.mk.injEq, Except.ok.injEq] at hx ⊢
      constructor
      · rintro ⟨rfl, rfl⟩
        obtain ⟨es, h1, h2⟩ := (hx c2).mp ⟨⟨rfl, rfl⟩, rfl⟩
        exact ⟨es, c2, .inr ⟨h0, h1⟩, h2⟩
      · rintro ⟨es, cEnd, (⟨h, -⟩ | ⟨-, ht⟩), hf⟩
        · exact absurd h h0
        · have := (hx cEnd).mpr ⟨es, ht, hf⟩
          exact ⟨this.1.1, this.2⟩

theorem exitMap_ok {P : QParams} {d d' : Dec} (h : d.exitMap P = d') (he : d'.err = none) :
    d.err = none ∧ ∃ start cnt ls cEnd es, d.lvls = .map start cnt :: ls ∧
      Rem P true d.room cnt start es cEnd ∧ d' = { d with lvls := ls }.done cEnd := by
  unfold exitMap at h
  split at h
  · rename_i h1; rw [← h] at he; rw [he] at h1; simp at h1
  · rename_i h1
    have hn : d.err = none := by simpa using h1
    refine ⟨hn, ?_⟩
    split at h
    · rename_i start ls hl
      exact ⟨start, some 0, ls, start, [], hl, Rem_nil_iff.mpr ⟨rfl, rfl⟩, h.symm⟩
    · rename_i start cnt ls hz hl
      have h0 : cnt ≠ some 0 := by
        rintro rfl; exact hz rfl
      rw [traverse_skipAll P true d.room _ cnt start (Nat.lt_succ_self _)] at h
      cases ht : traverse P true d.room (start.rest.length + 1) cnt start with
      | error e => rw [ht] at h; rw [← h] at he; simp at he
      | ok q =>
        obtain ⟨es, c2⟩ := q
        rw [ht] at h
        exact ⟨start, cnt, ls, c2, es, hl, .inr ⟨h0, ht⟩, h.symm⟩
    · rw [← h] at he; simp at he

theorem exitMap_intro {P : QParams} {d : Dec} {start : Cur} {cnt : Option Nat} {ls : List Lvl}
    {es : List Entry} {cEnd : Cur} (he : d.err = none) (hl : d.lvls = .map start cnt :: ls)
    (hr : Rem P true d.room cnt start es cEnd) :
    d.exitMap P = { d with lvls := ls }.done cEnd := by
  unfold exitMap
  rw [he]
  simp only [Option.isSome_none, Bool.false_eq_true, if_false]
  rw [hl]
  rcases hr with ⟨rfl, -, rfl⟩ | ⟨h0, ht⟩
  · rfl
  · split
    · rename_i heq
      simp only [List.cons.injEq, Lvl.map.injEq] at heq
      exact absurd heq.1.2 h0
    · rename_i heq
      simp only [List.cons.injEq, Lvl.map.injEq] at heq
      obtain ⟨⟨rfl, rfl⟩, rfl⟩ := heq
      rw [traverse_skipAll P true d.room _ cnt start (Nat.lt_succ_self _), ht]
    · rename_i hne
      exact absurd rfl (hne start cnt ls)

theorem exitArray_ok {P : QParams} {d d' : Dec} (h : d.exitArray P = d') (he : d'.err = none) :
    d.err = none ∧ ∃ left ls cEnd es, d.lvls = .arr left :: ls ∧
      Rem P false d.room left d.cur es cEnd ∧ d' = { d with lvls := ls }.done cEnd := by
  unfold exitArray at h
  split at h
  · rename_i h1; rw [← h] at he; rw [he] at h1; simp at h1
  · rename_i h1
    have hn : d.err = none := by simpa using h1
    refine ⟨hn, ?_⟩
    split at h
    · rename_i ls hl
      exact ⟨some 0, ls, d.cur, [], hl, Rem_nil_iff.mpr ⟨rfl, rfl⟩, h.symm⟩
    · rename_i left ls hz hl
      have h0 : left ≠ some 0 := by
        rintro rfl; exact hz rfl
      rw [traverse_skipAll P false d.room _ left d.cur (Nat.lt_succ_self _)] at h
      cases ht : traverse P false d.room (d.cur.rest.length + 1) left d.cur with
      | error e => rw [ht] at h; rw [← h] at he; simp at he
      | ok q =>
        obtain ⟨es, c2⟩ := q
        rw [ht] at h
        exact ⟨left, ls, c2, es, hl, .inr ⟨h0, ht⟩, h.symm⟩
    · rw [← h] at he; simp at he

theorem exitArray_intro {P : QParams} {d : Dec} {left : Option Nat} {ls : List Lvl}
    {es : List Entry} {cEnd : Cur} (he : d.err = none) (hl : d.lvls = .arr left :: ls)
    (hr : Rem P false d.room left d.cur es cEnd) :
    d.exitArray P = { d with lvls := ls }.done cEnd := by
  unfold exitArray
  rw [he]
  simp only [Option.isSome_none, Bool.false_eq_true, if_false]
  rw [hl]
  rcases hr with ⟨rfl, -, rfl⟩ | ⟨h0, ht⟩
  · rfl
  · split
    · rename_i heq
      simp only [List.cons.injEq, Lvl.arr.injEq] at heq
      exact absurd heq.1 h0
    · rename_i heq
      simp only [List.cons.injEq, Lvl.arr.injEq] at heq
      obtain ⟨rfl, rfl⟩ := heq
      rw [traverse_skipAll P false d.room _ left d.cur (Nat.lt_succ_self _), ht]
    · rename_i hne
      exact absurd rfl (hne left ls)

theorem enterBstrWrapped_ok {P : QParams} {d d' : Dec} {o : Option (Option Str)}
    (h : d.enterBstrWrapped P = (d', o)) (he : d'.err = none) :
    d.err = none ∧ ∃ it s c1, d.fetch P = (.ok it, c1) ∧ it.val = .bstr s ∧ it.tags = [] ∧
      d.room ≠ 0 ∧ o = some (some s) ∧
      d' = { d with cur := ⟨s.off, s.bytes⟩, lvls := .wrap c1 :: d.lvls, tags := [] } := by
  unfold enterBstrWrapped at h
  split at h
  · rename_i h1
    simp only [Prod.mk.injEq] at h
    rw [← h.1] at he; rw [he] at h1; simp at h1
  · rename_i h1
    have hn : d.err = none := by simpa using h1
    refine ⟨hn, ?_⟩
    generalize d.fetch P = x at h ⊢
    obtain ⟨r, c1⟩ := x
    cases r with
    | error e =>
      simp only [Prod.mk.injEq] at h
      rw [← h.1] at he; simp at he
    | ok it =>
      simp only at h
      split at h
      · rename_i s hv ht
        split at h
        · simp only [Prod.mk.injEq] at h
          rw [← h.1] at he; simp at he
        · rename_i hroom
          simp only [Prod.mk.injEq] at h
          exact ⟨it, s, c1, rfl, hv, ht, hroom, h.2.symm, h.1.symm⟩
      · simp only [Prod.mk.injEq] at h
        rw [← h.1] at he; simp at he

theorem enterBstrWrapped_intro {P : QParams} {d : Dec} {it : Itm} {s : Str} {c1 : Cur}
    (he : d.err = none) (hf : d.fetch P = (.ok it, c1)) (hv : it.val = .bstr s)
    (ht : it.tags = []) (hr : d.room ≠ 0) :
    d.enterBstrWrapped P =
      ({ d with cur := ⟨s.off, s.bytes⟩, lvls := .wrap c1 :: d.lvls, tags := [] },
       some (some s)) := by
  unfold enterBstrWrapped
  rw [he, hf]
  simp only [Option.isSome_none, Bool.false_eq_true, if_false]
  rw [hv, ht]
  simp only [if_neg hr]

theorem exitBstrWrapped_ok {d d' : Dec} (h : d.exitBstrWrapped = d') (he : d'.err = none) :
    d.err = none ∧ ∃ outer ls, d.lvls = .wrap outer :: ls ∧
      d' = { d with lvls := ls }.done outer := by
  unfold exitBstrWrapped at h
  split at h
  · rename_i h1; rw [← h] at he; rw [he] at h1; simp at h1
  · rename_i h1
    refine ⟨by simpa using h1, ?_⟩
    split at h
    · rename_i outer ls hl
      exact ⟨outer, ls, hl, h.symm⟩
    · rw [← h] at he; simp at he

theorem getNext_ok {P : QParams} {d d' : Dec} {it : Itm} (h : d.getNext P = (.ok it, d')) :
    ∃ c1, d.fetch P = (.ok it, c1) ∧ d' = { d.done c1 with tags := it.tags } := by
  unfold getNext at h
  generalize d.fetch P = x at h ⊢
  obtain ⟨r, c1⟩ := x
  cases r with
  | error e => simp at h
  | ok it' =>
    simp only [Prod.mk.injEq, Except.ok.injEq] at h
    obtain ⟨rfl, rfl⟩ := h
    exact ⟨c1, rfl, rfl⟩

theorem getNext_intro {P : QParams} {d : Dec} {it : Itm} {c1 : Cur}
    (h : d.fetch P = (.ok it, c1)) :
    d.getNext P = (.ok it, { d.done c1 with tags := it.tags }) := by
  unfold getNext
  rw [h]

theorem getByteString_ok {P : QParams} {d d' : Dec} {o : Option Str}
    (h : d.getByteString P = (d', o)) (he : d'.err = none) :
    d.err = none ∧ ∃ it s c1, d.fetch P = (.ok it, c1) ∧ it.val = .bstr s ∧ it.tags = [] ∧
      o = some s ∧ d' = { d.done c1 with tags := [] } := by
  unfold getByteString at h
  split at h
  · rename_i h1
    simp only [Prod.mk.injEq] at h
    rw [← h.1] at he; rw [he] at h1; simp at h1
  · rename_i h1
    refine ⟨by simpa using h1, ?_⟩
    cases hg : d.getNext P with
    | mk r d1 =>
      rw [hg] at h
      cases r with
      | error e =>
        simp only [Prod.mk.injEq] at h
        rw [← h.1] at he; simp at he
      | ok it =>
        obtain ⟨c1, hf, rfl⟩ := getNext_ok hg
        simp only at h
        split at h
        · rename_i s hv ht
          simp only [Prod.mk.injEq] at h
          refine ⟨it, s, c1, hf, hv, ht, h.2.symm, ?_⟩
          rw [← h.1, ht]
        · simp only [Prod.mk.injEq] at h
          rw [← h.1] at he; simp at he

theorem getByteString_intro {P : QParams} {d : Dec} {it : Itm} {s : Str} {c1 : Cur}
    (he : d.err = none) (hf : d.fetch P = (.ok it, c1)) (hv : it.val = .bstr s)
    (ht : it.tags = []) :
    d.getByteString P = ({ d.done c1 with tags := [] }, some s) := by
  unfold getByteString
  rw [he, getNext_intro hf]
  simp only [Option.isSome_none, Bool.false_eq_true, if_false]
  rw [hv, ht]

theorem finish_none {d : Dec} : d.finish = none ↔ d.err = none ∧ d.lvls = [] ∧ d.cur.rest = [] := by
  unfold finish
  cases d.err with
  | some e => simp
  | none =>
    cases d.lvls with
    | cons a l => simp
    | nil =>
      cases d.cur.rest with
      | cons a l => simp
      | nil => simp

@[simp] theorem done_err (d : Dec) (c : Cur) : (d.done c).err = d.err := rfl
@[simp] theorem done_tags (d : Dec) (c : Cur) : (d.done c).tags = d.tags := rfl

end Dec
end TCose
