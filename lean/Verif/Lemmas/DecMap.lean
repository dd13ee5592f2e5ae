import Verif.Lemmas.DecBase
import Verif.Spec.View

/-!
# Decoder: reading containers element by element, and stepping over them
-/

namespace TCose
open Spec

theorem skip_nil (P : QParams) (room n : Nat) (c : Cur) : skip P room n [] c = .ok c := by
  cases n <;> rfl

/-- Fuel beyond the number of octets left makes no difference. -/
theorem skip_fuel (P : QParams) (room : Nat) : ∀ (n m : Nat) (st : List NLvl) (c : Cur),
    c.rest.length < n → c.rest.length < m → skip P room n st c = skip P room m st c := by
  intro n
  induction n with
  | zero => intro m st c h; omega
  | succ n ih =>
    intro m st c hn hm
    cases m with
    | zero => omega
    | succ m =>
      cases st with
      | nil => rfl
      | cons l st =>
        rw [skip, skip]
        split
        · rfl
        · have he := entry_ok P l.isMap c
          generalize entry P l.isMap c = x at he ⊢
          obtain ⟨r, c1⟩ := x
          cases r with
          | error e => rfl
          | ok p =>
            obtain ⟨lab, it⟩ := p
            simp only
            cases hp : push room it.val (l :: st) c1 with
            | error e => rfl
            | ok q =>
              obtain ⟨st', c2⟩ := q
              have hlt := (he.1.trans_adv (push_adv hp)).length_lt
              exact ih m st' c2 (by omega) (by omega)

theorem skipAll_nil (P : QParams) (room : Nat) (c : Cur) : skipAll P room [] c = .ok c :=
  skip_nil P room _ c

/-- `skipAll` one step at a time, without fuel. -/
theorem skipAll_cons (P : QParams) (room : Nat) (l : NLvl) (st : List NLvl) (c : Cur) :
    skipAll P room (l :: st) c =
      if c.rest.isEmpty then .error .noMoreItems
      else
        match entry P l.isMap c with
        | (.error e, _) => .error e
        | (.ok (_, it), c1) =>
          match push room it.val (l :: st) c1 with
          | .error e => .error e
          | .ok (st', c2) => skipAll P room st' c2 := by
  unfold skipAll
  rw [skip]
  split
  · rfl
  · have he := entry_ok P l.isMap c
    generalize entry P l.isMap c = x at he ⊢
    obtain ⟨r, c1⟩ := x
    cases r with
    | error e => rfl
    | ok p =>
      obtain ⟨lab, it⟩ := p
      simp only
      cases hp : push room it.val (l :: st) c1 with
      | error e => rfl
      | ok q =>
        obtain ⟨st', c2⟩ := q
        have hlt := (he.1.trans_adv (push_adv hp)).length_lt
        exact skip_fuel P room _ _ st' c2 (by omega) (by omega)

/-- Leaving the levels `st` and then, if nothing is left of them, the levels
`base` below. -/
theorem ascend_append : ∀ (st base : List NLvl) (c : Cur),
    ascend (st ++ base) c =
      match ascend st c with
      | ([], c1) => ascend base c1
      | (st', c1) => (st' ++ base, c1)
  | [], base, c => rfl
  | ⟨m, some n⟩ :: st, base, c => by
    rw [List.cons_append, ascend, ascend]
    split
    · exact ascend_append st base c
    · rfl
  | ⟨m, none⟩ :: st, base, c => by
    rw [List.cons_append, ascend, ascend]
    split
    · exact ascend_append st base _
    · rfl

theorem push_append (room : Nat) (v : Val) (st base : List NLvl) (c : Cur) :
    push (room + base.length) v (st ++ base) c =
      match push room v st c with
      | .error e => .error e
      | .ok ([], c1) => .ok (ascend base c1)
      | .ok (st', c1) => .ok (st' ++ base, c1) := by
  have hasc : ∀ st, Except.ok (ε := QErr) (ascend (st ++ base) c) =
      match Except.ok (ε := QErr) (ascend st c) with
      | .error e => .error e
      | .ok ([], c1) => .ok (ascend base c1)
      | .ok (st', c1) => .ok (st' ++ base, c1) := by
    intro st
    rw [ascend_append]
    generalize ascend st c = x
    obtain ⟨s, c1⟩ := x
    cases s <;> rfl
  have hdesc : ∀ (m : Bool) (n : Option Nat),
      (match n with
        | some 0 => Except.ok (ascend (st ++ base) c)
        | some k => if (st ++ base).length ≥ room + base.length then .error QErr.nestingTooDeep
            else .ok (⟨m, some k⟩ :: (st ++ base), c)
        | none => if (st ++ base).length ≥ room + base.length then .error QErr.nestingTooDeep
            else .ok (ascend (⟨m, none⟩ :: (st ++ base)) c)) =
      match (match n with
        | some 0 => Except.ok (ascend st c)
        | some k => if st.length ≥ room then .error QErr.nestingTooDeep
            else .ok (⟨m, some k⟩ :: st, c)
        | none => if st.length ≥ room then .error QErr.nestingTooDeep
            else .ok (ascend (⟨m, none⟩ :: st) c)) with
      | .error e => .error e
      | .ok ([], c1) => .ok (ascend base c1)
      | .ok (st', c1) => .ok (st' ++ base, c1) := by
    intro m n
    have hlen : ((st ++ base).length ≥ room + base.length) = (st.length ≥ room) := by
      simp
    rcases n with _ | _ | n
    · simp only [hlen]
      by_cases h : st.length ≥ room
      · simp only [if_pos h]
      · simp only [if_neg h]
        have := hasc (⟨m, none⟩ :: st)
        simpa using this
    · exact hasc st
    · simp only [hlen]
      by_cases h : st.length ≥ room
      · simp only [if_pos h]
      · simp only [if_neg h, List.cons_append]
  unfold push
  cases v with
  | arr n => exact hdesc false n
  | map n => exact hdesc true n
  | _ => exact hasc st

/-- Stepping over `st` on top of `base` is stepping over `st`, then going on
with `base`. -/
theorem skipAll_append (P : QParams) (room : Nat) (base : List NLvl) :
    ∀ (n : Nat) (st : List NLvl) (c : Cur), c.rest.length < n → st ≠ [] →
    skipAll P (room + base.length) (st ++ base) c =
      match skipAll P room st c with
      | .error e => .error e
      | .ok c1 => skipAll P (room + base.length) (ascend base c1).1 (ascend base c1).2 := by
  intro n
  induction n with
  | zero => intro st c h; omega
  | succ n ih =>
    intro st c hn hst
    cases st with
    | nil => exact absurd rfl hst
    | cons l st =>
      rw [List.cons_append, skipAll_cons, skipAll_cons]
      split
      · rfl
      · have he := entry_ok P l.isMap c
        generalize entry P l.isMap c = x at he ⊢
        obtain ⟨r, c1⟩ := x
        cases r with
        | error e => rfl
        | ok p =>
          obtain ⟨lab, it⟩ := p
          have hp := push_append room it.val (l :: st) base c1
          rw [List.cons_append] at hp
          simp only
          rw [hp]
          cases hq : push room it.val (l :: st) c1 with
          | error e => rfl
          | ok q =>
            obtain ⟨st', c2⟩ := q
            have hlt := (he.1.trans_adv (push_adv hq)).length_lt
            cases st' with
            | nil =>
              simp only [skipAll_nil]
            | cons l' st' =>
              simp only
              exact ih (l' :: st') c2 (by omega) (by simp)

/-- Fuel beyond the number of octets left makes no difference. -/
theorem traverse_fuel (P : QParams) (m : Bool) (room : Nat) :
    ∀ (n k : Nat) (left : Option Nat) (c : Cur),
    c.rest.length < n → c.rest.length < k →
    traverse P m room n left c = traverse P m room k left c := by
  intro n
  induction n with
  | zero => intro k left c h; omega
  | succ n ih =>
    intro k left c hn hk
    cases k with
    | zero => omega
    | succ k =>
      rw [traverse, traverse]
      split
      · rfl
      · have he := entry_ok P m c
        generalize entry P m c = x at he ⊢
        obtain ⟨r, c1⟩ := x
        cases r with
        | error e => rfl
        | ok p =>
          obtain ⟨lab, it⟩ := p
          simp only
          have hs := skipValue_ok P room it.val c1
          generalize skipValue P room it.val c1 = y at hs ⊢
          cases y with
          | error e => rfl
          | ok c2 =>
            simp only
            have ha := ascend_adv [⟨m, left⟩] c2
            generalize ascend [⟨m, left⟩] c2 = z at ha ⊢
            obtain ⟨s, c3⟩ := z
            cases s with
            | nil => rfl
            | cons l' s =>
              have hlt : c3.rest.length < _ := (he.1.trans_adv (Adv.trans hs ha)).length_lt
              simp only
              rw [ih k l'.left c3 (by omega) (by omega)]

/-- What `ascend` on a single level can give. -/
theorem ascend_single (m : Bool) (left : Option Nat) (c : Cur) :
    (∃ c3, ascend [⟨m, left⟩] c = ([], c3)) ∨
    (∃ left' c3, ascend [⟨m, left⟩] c = ([⟨m, left'⟩], c3)) := by
  cases left with
  | none =>
    rw [ascend]
    split
    · exact .inl ⟨_, rfl⟩
    · exact .inr ⟨_, _, rfl⟩
  | some n =>
    rw [ascend]
    split
    · exact .inl ⟨_, rfl⟩
    · exact .inr ⟨_, _, rfl⟩

theorem push_single (P : QParams) (room : Nat) (m : Bool) (left : Option Nat) (v : Val) (c : Cur) :
    (match push (room + 1) v [⟨m, left⟩] c with
      | .error e => (.error e : Except QErr Cur)
      | .ok (st', c2) => skipAll P (room + 1) st' c2) =
    match skipValue P room v c with
      | .error e => .error e
      | .ok c2 => skipAll P (room + 1) (ascend [⟨m, left⟩] c2).1 (ascend [⟨m, left⟩] c2).2 := by
  have hp := push_append room v [] [⟨m, left⟩] c
  simp only [List.nil_append, List.length_singleton] at hp
  rw [hp]
  unfold skipValue
  cases hq : push room v [] c with
  | error e => rfl
  | ok q =>
    obtain ⟨st', c2⟩ := q
    cases st' with
    | nil => simp only [skipAll_nil]
    | cons l st' =>
      simp only
      exact skipAll_append P room [⟨m, left⟩] _ (l :: st') c2 (Nat.lt_succ_self _) (by simp)

/-- Stepping over a container and reading all its elements end at the same
place. -/
theorem traverse_skipAll (P : QParams) (m : Bool) (room : Nat) :
    ∀ (n : Nat) (left : Option Nat) (c : Cur), c.rest.length < n →
    skipAll P (room + 1) [⟨m, left⟩] c =
      match traverse P m room n left c with
      | .error e => .error e
      | .ok (_, c') => .ok c' := by
  intro n
  induction n with
  | zero => intro left c h; omega
  | succ n ih =>
    intro left c hn
    rw [skipAll_cons, traverse]
    split
    · rfl
    · have he := entry_ok P m c
      generalize entry P m c = x at he ⊢
      obtain ⟨r, c1⟩ := x
      cases r with
      | error e => rfl
      | ok p =>
        obtain ⟨lab, it⟩ := p
        simp only
        rw [push_single]
        have hs := skipValue_ok P room it.val c1
        generalize skipValue P room it.val c1 = y at hs ⊢
        cases y with
        | error e => rfl
        | ok c2 =>
          simp only
          have ha := ascend_adv [⟨m, left⟩] c2
          rcases ascend_single m left c2 with ⟨c3, h3⟩ | ⟨left', c3, h3⟩
          · simp only [h3, skipAll_nil]
          · rw [h3] at ha
            have hlt : c3.rest.length < _ := (he.1.trans_adv (Adv.trans hs ha)).length_lt
            simp only [h3]
            rw [ih left' c3 (by omega)]
            generalize traverse P m room n left' c3 = w
            cases w with
            | error e => rfl
            | ok p => rfl

/-- Every element lies in the window, and the end is behind the start. -/
def EntryIn (c : Cur) (e : Entry) : Prop :=
  Adv1 c e.cur ∧ LabelIn c e.label ∧ ValIn c e.itm.val ∧ e.itm.val ≠ .brk ∧
    ∀ x, e.itm.err = some x → x.unrec = false ∧ x.ofItem = true

theorem EntryIn.of_adv {a b : Cur} {e : Entry} (h : Adv a b) (he : EntryIn b e) :
    EntryIn a e := by
  obtain ⟨h1, h2, h3, h4, h5⟩ := he
  refine ⟨h.trans_adv1 h1, ?_, h3.of_adv h, h4, h5⟩
  revert h2
  cases e.label with
  | none => exact fun _ => trivial
  | some v => exact fun h2 => ⟨h2.1.of_adv h, h2.2⟩

theorem traverse_in (P : QParams) (m : Bool) (room : Nat) :
    ∀ (n : Nat) (left : Option Nat) (c : Cur) (es : List Entry) (c' : Cur),
    c.rest.length < n →
    traverse P m room n left c = .ok (es, c') →
    Adv1 c c' ∧ es ≠ [] ∧ ∀ e ∈ es, EntryIn c e := by
  intro n
  induction n with
  | zero => intro left c es c' h; omega
  | succ n ih =>
    intro left c es c' hn h
    rw [traverse] at h
    split at h
    · cases h
    · have he := entry_ok P m c
      generalize entry P m c = x at he h
      obtain ⟨r, c1⟩ := x
      cases r with
      | error e => cases h
      | ok p =>
        obtain ⟨lab, it⟩ := p
        simp only at h
        have hs := skipValue_ok P room it.val c1
        generalize skipValue P room it.val c1 = y at hs h
        cases y with
        | error e => cases h
        | ok c2 =>
          simp only at h
          have ha := ascend_adv [⟨m, left⟩] c2
          generalize ascend [⟨m, left⟩] c2 = z at ha h
          obtain ⟨s, c3⟩ := z
          have hadv := he.1.trans_adv (Adv.trans hs ha)
          have hin : EntryIn c ⟨lab, it, c1⟩ := he
          cases s with
          | nil =>
            simp only [Except.ok.injEq, Prod.mk.injEq] at h
            obtain ⟨rfl, rfl⟩ := h
            refine ⟨hadv, by simp, ?_⟩
            intro e hm
            simp only [List.mem_singleton] at hm
            rw [hm]; exact hin
          | cons l' s =>
            simp only at h
            cases ht : traverse P m room n l'.left c3 with
            | error e => rw [ht] at h; cases h
            | ok q =>
              obtain ⟨es', c4⟩ := q
              rw [ht] at h
              simp only [Except.ok.injEq, Prod.mk.injEq] at h
              obtain ⟨rfl, rfl⟩ := h
              have hlt : c3.rest.length < _ := hadv.length_lt
              obtain ⟨g1, g2, g3⟩ := ih l'.left c3 es' c4 (by omega) ht
              refine ⟨hadv.trans_adv g1.adv, by simp, ?_⟩
              intro e hm
              rcases List.mem_cons.mp hm with rfl | hm
              · exact hin
              · exact (g3 e hm).of_adv hadv.adv

/-! ### Map search as a fold over the entries -/

/-- `MapSearch` on the list of entries. -/
def searchFold {σ : Type} (qs : List (Int × QTyp)) (cb : σ → Option Val → σ × Bool) :
    List Entry → Found → σ → Except QErr Found × σ
  | [], f, s => (.ok f, s)
  | e :: es, f, s =>
    match searchStep qs cb e.label e.itm e.cur f s with
    | (.error x, s) => (.error x, s)
    | (.ok f, s) => searchFold qs cb es f s

theorem searchLoop_ok (P : QParams) (room : Nat) {σ : Type} (qs : List (Int × QTyp))
    (cb : σ → Option Val → σ × Bool) :
    ∀ (n : Nat) (left : Option Nat) (c : Cur) (f f' : Found) (s s' : σ) (c' : Cur),
    searchLoop P room qs cb n left c f s = (.ok (f', c'), s') ↔
    ∃ es, traverse P true room n left c = .ok (es, c') ∧
      searchFold qs cb es f s = (.ok f', s') := by
  intro n
  induction n with
  | zero =>
    intro left c f f' s s' c'
    simp [searchLoop, traverse]
  | succ n ih =>
    intro left c f f' s s' c'
    rw [searchLoop, traverse]
    split
    · simp
    · generalize entry P true c = x
      obtain ⟨r, c1⟩ := x
      cases r with
      | error e => simp
      | ok p =>
        obtain ⟨lab, it⟩ := p
        simp only
        cases hss : searchStep qs cb lab it c1 f s with
        | mk r2 s2 =>
          cases r2 with
          | error e =>
            simp only
            constructor
            · intro h; simp at h
            · rintro ⟨es, h1, h2⟩
              exfalso
              have : ∃ tl, es = ⟨lab, it, c1⟩ :: tl := by
                generalize skipValue P room it.val c1 = y at h1
                cases y with
                | error e => cases h1
                | ok c2 =>
                  simp only at h1
                  generalize ascend [⟨true, left⟩] c2 = z at h1
                  obtain ⟨s3, c3⟩ := z
                  cases s3 with
                  | nil =>
                    simp only [Except.ok.injEq, Prod.mk.injEq] at h1
                    exact ⟨[], h1.1.symm⟩
                  | cons l' s3 =>
                    simp only at h1
                    cases ht : traverse P true room n l'.left c3 with
                    | error e => rw [ht] at h1; cases h1
                    | ok q =>
                      rw [ht] at h1
                      simp only [Except.ok.injEq, Prod.mk.injEq] at h1
                      exact ⟨q.1, h1.1.symm⟩
              obtain ⟨tl, rfl⟩ := this
              rw [searchFold] at h2
              simp only [hss] at h2
              simp at h2
          | ok f2 =>
            simp only
            generalize skipValue P room it.val c1 = y
            cases y with
            | error e => simp
            | ok c2 =>
              simp only
              generalize ascend [⟨true, left⟩] c2 = z
              obtain ⟨s3, c3⟩ := z
              cases s3 with
              | nil =>
                simp only [Prod.mk.injEq, Except.ok.injEq]
                constructor
                · rintro ⟨⟨rfl, rfl⟩, rfl⟩
                  refine ⟨_, ⟨rfl, rfl⟩, ?_⟩
                  rw [searchFold]
                  simp only [hss]
                  rfl
                · rintro ⟨es, ⟨rfl, rfl⟩, h2⟩
                  rw [searchFold] at h2
                  simp only [hss, searchFold, Prod.mk.injEq, Except.ok.injEq] at h2
                  exact ⟨⟨h2.1, rfl⟩, h2.2⟩
              | cons l' s3 =>
                simp only
                rw [ih]
                cases ht : traverse P true room n l'.left c3 with
                | error e => simp
                | ok q =>
                  obtain ⟨es', c4⟩ := q
                  simp only [Except.ok.injEq, Prod.mk.injEq]
                  constructor
                  · rintro ⟨es, ⟨rfl, rfl⟩, h2⟩
                    refine ⟨_, ⟨rfl, rfl⟩, ?_⟩
                    rw [searchFold]
                    simp only [hss]
                    exact h2
                  · rintro ⟨es, ⟨rfl, rfl⟩, h2⟩
                    rw [searchFold] at h2
                    simp only [hss] at h2
                    exact ⟨_, ⟨rfl, rfl⟩, h2⟩

theorem searchStep_err {σ : Type} {qs : List (Int × QTyp)} {cb : σ → Option Val → σ × Bool}
    {l : Option Val} {it : Itm} {c : Cur} {f : Found} {s s' : σ} {e : QErr}
    (h : searchStep qs cb l it c f s = (.error e, s')) (hit : it.err ≠ some .fuel) :
    e ≠ .fuel := by
  unfold searchStep at h
  simp only at h
  repeat' split at h
  all_goals
    simp only [Prod.mk.injEq, Except.error.injEq, reduceCtorEq, false_and] at h
  all_goals
    obtain ⟨rfl, -⟩ := h
  all_goals
    first
    | (intro hh; cases hh; done)
    | (rename_i hi; intro hh; rw [hh] at hi; exact hit hi)
    | (intro hh; cases hh; contradiction)

/-- The search never runs out of fuel. -/
theorem searchLoop_no_fuel (P : QParams) (room : Nat) {σ : Type} (qs : List (Int × QTyp))
    (cb : σ → Option Val → σ × Bool) :
    ∀ (n : Nat) (left : Option Nat) (c : Cur) (f : Found) (s : σ),
    c.rest.length < n → (searchLoop P room qs cb n left c f s).1 ≠ .error .fuel := by
  intro n
  induction n with
  | zero => intro left c f s h; omega
  | succ n ih =>
    intro left c f s hn
    rw [searchLoop]
    split
    · intro h; cases h
    · have he := entry_ok P true c
      generalize entry P true c = x at he ⊢
      obtain ⟨r, c1⟩ := x
      cases r with
      | error e =>
        simp only
        intro h
        cases h
        exact he.2 rfl
      | ok p =>
        obtain ⟨lab, it⟩ := p
        simp only
        cases hss : searchStep qs cb lab it c1 f s with
        | mk r2 s2 =>
          cases r2 with
          | error e =>
            simp only
            intro h
            cases h
            refine searchStep_err hss ?_ rfl
            intro h'
            have := (he.2.2.2.2 _ h').1
            cases this
          | ok f2 =>
            simp only
            have hs := skipValue_ok P room it.val c1
            generalize skipValue P room it.val c1 = y at hs ⊢
            cases y with
            | error e =>
              simp only
              intro h
              cases h
              exact hs rfl
            | ok c2 =>
              simp only
              have ha := ascend_adv [⟨true, left⟩] c2
              generalize ascend [⟨true, left⟩] c2 = z at ha ⊢
              obtain ⟨s3, c3⟩ := z
              cases s3 with
              | nil => intro h; cases h
              | cons l' s3 =>
                simp only
                have hlt : c3.rest.length < _ := (he.1.trans_adv (Adv.trans hs ha)).length_lt
                exact ih _ _ _ _ (by omega)

end TCose
