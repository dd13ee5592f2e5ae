import Verif.Lemmas.Labels

/-!
# `parse_cose_header_parameters` in terms of the entries of the map
-/

namespace TCose
open Spec

namespace Dec

theorem fetch_noMore {P : QParams} {d : Dec} {c1 : Cur}
    (h : d.fetch P = (.error .noMoreItems, c1)) :
    c1 = d.cur ∧ (d.atEnd = true ∨ d.cur.rest = []) := by
  unfold fetch at h
  split at h
  · rename_i h1
    simp only [Prod.mk.injEq, true_and] at h
    simp only [Bool.or_eq_true, List.isEmpty_iff] at h1
    exact ⟨h.symm, h1⟩
  · have he := entry_ok P false d.cur
    generalize entry P false d.cur = x at he h
    obtain ⟨r, c2⟩ := x
    cases r with
    | error e' =>
      simp only [Prod.mk.injEq, Except.error.injEq] at h
      have := he.1
      rw [h.1] at this
      cases this
    | ok p =>
      obtain ⟨l, it⟩ := p
      simp only at h
      cases hi : it.err with
      | none => rw [hi] at h; simp at h
      | some e' =>
        rw [hi] at h
        simp only [Prod.mk.injEq, Except.error.injEq] at h
        have := (he.2.2.2.2 e' hi).2
        rw [h.1] at this
        cases this

end Dec

/-- The loop over the crit array, followed by leaving the array. -/
theorem critLoop_ok (P : QParams) : ∀ (n : Nat) (d d' : Dec) (ni nt : Nat) (l l' : LabelList)
    (left : Option Nat) (ls : List Lvl), d.lvls = .arr left :: ls →
    critLoop P n d ni nt l = (.ok (), l', d') → (d'.exitArray P).err = none →
    ∃ ces cEnd t, Rem P false d.room left d.cur ces cEnd ∧ critFold ces ni nt l = some l' ∧
      d'.exitArray P = { d with lvls := ls, tags := t }.done cEnd := by
  intro n
  induction n with
  | zero => intro d d' ni nt l l' left ls hl h; simp [critLoop] at h
  | succ n ih =>
    intro d d' ni nt l l' left ls hl h he
    rw [critLoop] at h
    cases hg : d.getNext P with
    | mk r d1 =>
      rw [hg] at h
      cases r with
      | error e =>
        by_cases hnm : e = .noMoreItems
        · subst hnm
          simp only [Prod.mk.injEq, true_and] at h
          obtain ⟨rfl, rfl⟩ := h
          have hd1 : d1 = d ∧ (d.atEnd = true ∨ d.cur.rest = []) := by
            unfold Dec.getNext at hg
            cases hf : d.fetch P with
            | mk r2 c2 =>
              rw [hf] at hg
              cases r2 with
              | ok it => simp at hg
              | error e =>
                simp only [Prod.mk.injEq, Except.error.injEq] at hg
                obtain ⟨rfl, rfl⟩ := hg
                obtain ⟨rfl, h2⟩ := Dec.fetch_noMore hf
                exact ⟨rfl, h2⟩
          obtain ⟨rfl, hend⟩ := hd1
          obtain ⟨h0, left', ls', cEnd, es, hl', hrem, hd'⟩ := Dec.exitArray_ok rfl he
          rw [hl] at hl'
          cases hl'
          rw [hd']
          refine ⟨es, cEnd, d1.tags, hrem, ?_, rfl⟩
          have hz : left = some 0 := by
            rcases hend with h | h
            · unfold Dec.atEnd at h
              rw [hl] at h
              rcases left with _ | _ | k
              · cases h
              · rfl
              · cases h
            · cases es with
              | nil => exact (Rem_nil_iff.mp hrem).1
              | cons e es => exact absurd h (Rem_cons_iff.mp hrem).2.1
          subst hz
          rcases hrem with ⟨-, rfl, -⟩ | ⟨h, -⟩
          · rfl
          · exact absurd rfl h
        · cases e <;> first | exact absurd rfl hnm | simp at h
      | ok it =>
        obtain ⟨c1, hf, rfl⟩ := Dec.getNext_ok hg
        obtain ⟨-, -, hie, -⟩ := Dec.fetch_ok.mp hf
        have hlv : ({ d.done c1 with tags := it.tags } : Dec).lvls =
            .arr (stepLeft left c1).1 :: ls := by
          simp only [Dec.done, hl, itemDone_arr]
        have hcur : ({ d.done c1 with tags := it.tags } : Dec).cur = (stepLeft left c1).2 := by
          simp only [Dec.done, hl, itemDone_arr]
        have hroom : ({ d.done c1 with tags := it.tags } : Dec).room = d.room := by
          simp only [Dec.room, Dec.done, hl, itemDone_arr, List.length_cons]
        have key : ∀ ni' nt' l1, it.val.isSimple = true →
            (∀ ces, critFold (⟨none, it, c1⟩ :: ces) ni nt l = critFold ces ni' nt' l1) →
            critLoop P n { d.done c1 with tags := it.tags } ni' nt' l1 = (.ok (), l', d') →
            ∃ ces cEnd t, Rem P false d.room left d.cur ces cEnd ∧ critFold ces ni nt l = some l' ∧
              d'.exitArray P = { d with lvls := ls, tags := t }.done cEnd := by
          intro ni' nt' l1 hs hcf hloop
          obtain ⟨ces, cEnd, t, hr, hc, hx⟩ := ih _ _ _ _ _ _ _ _ hlv hloop he
          rw [hcur, hroom] at hr
          refine ⟨⟨none, it, c1⟩ :: ces, cEnd, t,
            Dec.rem_of_fetch hl hf (skipValue_simple P _ hs c1) hr, ?_, ?_⟩
          · rw [hcf]; exact hc
          · rw [hx]; rfl
        simp only at h
        cases hv : it.val with
        | int i =>
          rw [hv] at h
          simp only at h
          split at h
          · simp at h
          · rename_i hni
            refine key _ _ _ (by rw [hv]; rfl) ?_ h
            intro ces
            simp only [critFold, hie, hv, if_neg hni, Option.isSome_none, Bool.false_eq_true,
              if_false]
        | tstr s =>
          rw [hv] at h
          simp only at h
          split at h
          · simp at h
          · rename_i hni
            refine key _ _ _ (by rw [hv]; rfl) ?_ h
            intro ces
            simp only [critFold, hie, hv, if_neg hni, Option.isSome_none, Bool.false_eq_true,
              if_false]
        | _ => rw [hv] at h; simp at h

theorem critLoop_intro (P : QParams) : ∀ (n : Nat) (d : Dec) (ni nt : Nat) (l l' : LabelList)
    (left : Option Nat) (ls : List Lvl) (ces : List Entry) (cEnd : Cur),
    d.lvls = .arr left :: ls → d.err = none → d.cur.rest.length < n →
    Rem P false d.room left d.cur ces cEnd → critFold ces ni nt l = some l' →
    ∃ d' t, critLoop P n d ni nt l = (.ok (), l', d') ∧
      d'.exitArray P = { d with lvls := ls, tags := t }.done cEnd := by
  intro n
  induction n with
  | zero => intro d ni nt l l' left ls ces cEnd hl he hn; omega
  | succ n ih =>
    intro d ni nt l l' left ls ces cEnd hl he hn hr hc
    rw [critLoop]
    cases ces with
    | nil =>
      obtain ⟨rfl, rfl⟩ := Rem_nil_iff.mp hr
      have hf : d.getNext P = (.error .noMoreItems, d) := by
        obtain ⟨cur, lvls, err, tags⟩ := d
        simp only at hl
        subst hl
        rfl
      rw [hf]
      simp only [critFold, Option.some.injEq] at hc
      subst hc
      refine ⟨d, d.tags, rfl, ?_⟩
      rw [Dec.exitArray_intro he hl hr]
    | cons e ces =>
      rw [critFold] at hc
      split at hc
      · cases hc
      · rename_i hie
        have hie : e.itm.err = none := by simpa using hie
        have hf := Dec.fetch_rem hl hr hie
        rw [Dec.getNext_intro hf]
        obtain ⟨hz, hne, hen, c2, hsk, hr2⟩ := Rem_cons_iff.mp hr
        have hadv := (Dec.fetch_adv hf).1
        have hlv : ({ d.done e.cur with tags := e.itm.tags } : Dec).lvls =
            .arr (stepLeft left e.cur).1 :: ls := by
          simp only [Dec.done, hl, itemDone_arr]
        have hcur : ({ d.done e.cur with tags := e.itm.tags } : Dec).cur =
            (stepLeft left e.cur).2 := by
          simp only [Dec.done, hl, itemDone_arr]
        have hroom : ({ d.done e.cur with tags := e.itm.tags } : Dec).room = d.room := by
          simp only [Dec.room, Dec.done, hl, itemDone_arr, List.length_cons]
        have hlen := (hadv.trans_adv (stepLeft_adv left e.cur)).length_lt
        have key : ∀ ni' nt' l1, e.itm.val.isSimple = true → critFold ces ni' nt' l1 = some l' →
            ∃ d' t, critLoop P n { d.done e.cur with tags := e.itm.tags } ni' nt' l1 =
                (.ok (), l', d') ∧
              d'.exitArray P = { d with lvls := ls, tags := t }.done cEnd := by
          intro ni' nt' l1 hs hcf
          rw [skipValue_simple P _ hs] at hsk
          cases hsk
          obtain ⟨d', t, h1, h2⟩ := ih _ ni' nt' l1 l' _ ls ces cEnd hlv he
            (by rw [hcur]; omega) (by rw [hcur, hroom]; exact hr2) hcf
          exact ⟨d', t, h1, by rw [h2]; rfl⟩
        simp only
        cases hv : e.itm.val with
        | int i =>
          rw [hv] at hc
          simp only at hc ⊢
          split at hc
          · cases hc
          · rename_i hni
            rw [if_neg hni]
            exact key _ _ _ (by rw [hv]; rfl) hc
        | tstr s =>
          rw [hv] at hc
          simp only at hc ⊢
          split at hc
          · cases hc
          · rename_i hni
            rw [if_neg hni]
            exact key _ _ _ (by rw [hv]; rfl) hc
        | _ => rw [hv] at hc; cases hc

/-- What the crit parameter of a header map does to the list of critical
labels. `room` is the number of nesting levels left inside the map. -/
def CritOk (P : QParams) (room : Nat) (prot : Bool) (es : List Entry) (l l' : LabelList) : Prop :=
  ((∀ e ∈ es, e.label ≠ some (.int 2)) ∧ l' = l) ∨
  (prot = true ∧ room ≠ 0 ∧ ∃ e k ces cEnd, es.filter (fun e => e.key = some 2) = [e] ∧
    e.itm.err = none ∧ e.itm.val = .arr k ∧
    elements P false (room - 1) k e.cur = .ok (ces, cEnd) ∧
    critFold ces 0 0 l = some l' ∧ l'.isClear = false)

theorem wanted_single (i : Int) (t : QTyp) : wanted [(i, t)] = fun e => decide (e.key = some i) := by
  funext e
  unfold wanted
  cases hk : e.key with
  | none => simp
  | some j =>
    simp only [List.lookup, Option.some.injEq]
    by_cases h : j = i
    · subst h; simp
    · have : (j == i) = false := by simpa using h
      simp [this, h]

theorem cbFold_unit (ls : List (Option Val)) :
    cbFold (fun (s : Unit) (_ : Option Val) => (s, true)) ls () = ((), true) := by
  induction ls with
  | nil => rfl
  | cons l ls ih => rw [cbFold]; exact ih

theorem filter_key_singleton {es : List Entry} {i : Int}
    (hn : ((es.filter (fun e => decide (e.key = some i))).map (fun e => e.key.getD 0)).Nodup) :
    (es.filter (fun e => decide (e.key = some i)) = []) ∨
    ∃ e, es.filter (fun e => decide (e.key = some i)) = [e] := by
  cases h : es.filter (fun e => decide (e.key = some i)) with
  | nil => exact .inl rfl
  | cons a tl =>
    cases tl with
    | nil => exact .inr ⟨a, rfl⟩
    | cons b tl =>
      rw [h] at hn
      have ha : a ∈ es.filter (fun e => decide (e.key = some i)) := by rw [h]; simp
      have hb : b ∈ es.filter (fun e => decide (e.key = some i)) := by rw [h]; simp
      rw [List.mem_filter, decide_eq_true_iff] at ha hb
      simp [ha.2, hb.2] at hn

theorem filter_key_nil {es : List Entry} {i : Int} :
    es.filter (fun e => decide (e.key = some i)) = [] ↔ ∀ e ∈ es, e.label ≠ some (.int i) := by
  rw [List.filter_eq_nil_iff]
  constructor
  · intro h e he hl
    exact h e he (by simpa using key_iff.mpr hl)
  · intro h e he hk
    exact h e he (key_iff.mp (by simpa using hk))

/-- The decoder inside an entered map whose entries are `es`. -/
structure InMap (P : QParams) (d : Dec) (start : Cur) (cnt : Option Nat) (ls : List Lvl)
    (es : List Entry) (cEnd : Cur) : Prop where
  lvls : d.lvls = .map start cnt :: ls
  rem : Rem P true d.room cnt start es cEnd

theorem Rem_unique {P : QParams} {m : Bool} {room : Nat} {left : Option Nat} {c : Cur}
    {es es' : List Entry} {cEnd cEnd' : Cur} (h : Rem P m room left c es cEnd)
    (h' : Rem P m room left c es' cEnd') : es = es' ∧ cEnd = cEnd' := by
  rcases h with ⟨rfl, rfl, rfl⟩ | ⟨h1, h2⟩
  · rcases h' with ⟨-, rfl, rfl⟩ | ⟨h1, -⟩
    · exact ⟨rfl, rfl⟩
    · exact absurd rfl h1
  · rcases h' with ⟨rfl, -⟩ | ⟨-, h3⟩
    · exact absurd rfl h1
    · rw [h2] at h3
      cases h3
      exact ⟨rfl, rfl⟩

/-- The search for label `i` as an array. -/
theorem mapSearch_single {P : QParams} {d : Dec} {start : Cur} {cnt : Option Nat}
    {ls : List Lvl} {es : List Entry} {cEnd : Cur} (h : InMap P d start cnt ls es cEnd)
    (i : Int) (t : QTyp) (f : Found) :
    d.mapSearch P [(i, t)] (fun (s : Unit) _ => (s, true)) () = (.ok f, ()) ↔
    (es.filter (fun e => decide (e.key = some i)) = [] ∧ f = []) ∨
    ∃ e, es.filter (fun e => decide (e.key = some i)) = [e] ∧ e.itm.err = none ∧
      t.ok e.itm.val = true ∧ f = [(i, e.itm.val, e.cur)] := by
  rw [Dec.mapSearch_ok h.lvls]
  have hlk : List.lookup i [(i, t)] = some t := by simp [List.lookup]
  constructor
  · rintro ⟨es', cEnd', hr, hf⟩
    obtain ⟨rfl, rfl⟩ := Rem_unique h.rem hr
    rw [searchFold_iff, wanted_single] at hf
    obtain ⟨h1, h2, -, -, h5⟩ := hf
    rcases filter_key_singleton h2 with h0 | ⟨e, h0⟩
    · exact .inl ⟨h0, by rw [h5, h0]; rfl⟩
    · have hg := h1 e (by rw [h0]; simp)
      have hmem : e ∈ es.filter (fun e => decide (e.key = some i)) := by rw [h0]; simp
      rw [List.mem_filter, decide_eq_true_iff] at hmem
      refine .inr ⟨e, h0, hg.1, hg.2 i t hmem.2 hlk, ?_⟩
      rw [h5, h0]
      simp [foundOf, hmem.2]
  · intro hx
    refine ⟨es, cEnd, h.rem, ?_⟩
    rw [searchFold_iff, wanted_single, cbFold_unit]
    rcases hx with ⟨h0, rfl⟩ | ⟨e, h0, he, ht, rfl⟩
    · rw [h0]
      simp
    · have hmem : e ∈ es.filter (fun e => decide (e.key = some i)) := by rw [h0]; simp
      rw [List.mem_filter, decide_eq_true_iff] at hmem
      rw [h0]
      refine ⟨?_, by simp, by simp, rfl, by simp [foundOf, hmem.2]⟩
      intro e' he'
      rw [List.mem_singleton] at he'
      subst he'
      refine ⟨he, ?_⟩
      intro j t' hj hlt
      rw [hmem.2] at hj
      cases hj
      rw [hlk] at hlt
      cases hlt
      exact ht

theorem push_notFound {room : Nat} {v : Val} {st : List NLvl} {c : Cur} :
    push room v st c ≠ .error .labelNotFound := by
  unfold push
  intro h
  cases v with
  | arr n => rcases n with _ | _ | k <;> simp only at h <;> (try split at h) <;> cases h
  | map n => rcases n with _ | _ | k <;> simp only at h <;> (try split at h) <;> cases h
  | _ => cases h

theorem skip_notFound (P : QParams) (room : Nat) : ∀ (n : Nat) (st : List NLvl) (c : Cur),
    skip P room n st c ≠ .error .labelNotFound := by
  intro n
  induction n with
  | zero =>
    intro st c h
    cases st with
    | nil => rw [skip_nil] at h; cases h
    | cons l st => cases h
  | succ n ih =>
    intro st c h
    cases st with
    | nil => rw [skip_nil] at h; cases h
    | cons l st =>
      rw [skip] at h
      split at h
      · cases h
      · have he := entry_ok P l.isMap c
        generalize entry P l.isMap c = x at he h
        obtain ⟨r, c1⟩ := x
        cases r with
        | error e =>
          simp only [Except.error.injEq] at h
          subst h
          cases he.1
        | ok p =>
          obtain ⟨lab, it⟩ := p
          simp only at h
          cases hp : push room it.val (l :: st) c1 with
          | error e =>
            rw [hp] at h
            simp only [Except.error.injEq] at h
            subst h
            exact push_notFound hp
          | ok q =>
            rw [hp] at h
            exact ih _ _ h

theorem skipValue_notFound (P : QParams) (room : Nat) (v : Val) (c : Cur) :
    skipValue P room v c ≠ .error .labelNotFound := by
  unfold skipValue
  intro h
  cases hp : push room v [] c with
  | error e =>
    rw [hp] at h
    simp only [Except.error.injEq] at h
    subst h
    exact push_notFound hp
  | ok q =>
    rw [hp] at h
    exact skip_notFound P room _ _ _ h

theorem searchLoop_notFound (P : QParams) (room : Nat) {σ : Type} (qs : List (Int × QTyp))
    (cb : σ → Option Val → σ × Bool) :
    ∀ (n : Nat) (left : Option Nat) (c : Cur) (f : Found) (s s' : σ),
    searchLoop P room qs cb n left c f s ≠ (.error .labelNotFound, s') := by
  intro n
  induction n with
  | zero => intro left c f s s' h; cases h
  | succ n ih =>
    intro left c f s s' h
    rw [searchLoop] at h
    split at h
    · cases h
    · have he := entry_ok P true c
      generalize entry P true c = x at he h
      obtain ⟨r, c1⟩ := x
      cases r with
      | error e =>
        simp only [Prod.mk.injEq, Except.error.injEq] at h
        obtain ⟨rfl, -⟩ := h
        cases he.1
      | ok p =>
        obtain ⟨lab, it⟩ := p
        simp only at h
        have hs : ∀ s2, searchStep qs cb lab it c1 f s ≠ (.error .labelNotFound, s2) := by
          intro s2 hs
          have hcb : ∀ y : σ × Bool, (match y with
              | (s', true) => (Except.ok f, s')
              | (s', false) => (Except.error QErr.callbackFail, s')) ≠
                (Except.error QErr.labelNotFound, s2) := by
            rintro ⟨s3, b⟩ hy
            cases b <;> cases hy
          unfold searchStep at hs
          simp only at hs
          split at hs
          · split at hs
            · split at hs
              · cases hs
              · split at hs
                · rename_i e hie
                  simp only [Prod.mk.injEq, Except.error.injEq] at hs
                  obtain ⟨rfl, -⟩ := hs
                  cases (he.2.2.2.2 _ hie).2
                · split at hs <;> cases hs
            · exact hcb _ hs
          · exact hcb _ hs
        generalize searchStep qs cb lab it c1 f s = y at h hs
        obtain ⟨r2, s2⟩ := y
        cases r2 with
        | error e =>
          simp only [Prod.mk.injEq, Except.error.injEq] at h
          obtain ⟨rfl, -⟩ := h
          exact hs s2 rfl
        | ok f2 =>
          simp only at h
          cases hv : skipValue P room it.val c1 with
          | error e =>
            rw [hv] at h
            simp only [Prod.mk.injEq, Except.error.injEq] at h
            obtain ⟨rfl, -⟩ := h
            exact skipValue_notFound P room _ _ hv
          | ok c2 =>
            rw [hv] at h
            simp only at h
            generalize ascend [⟨true, left⟩] c2 = z at h
            obtain ⟨st3, c3⟩ := z
            cases st3 with
            | nil => cases h
            | cons l st3 => exact ih _ _ _ _ _ h

theorem Dec.mapSearch_notFound {P : QParams} {d : Dec} {σ : Type} {qs : List (Int × QTyp)}
    {cb : σ → Option Val → σ × Bool} {s s' : σ} :
    d.mapSearch P qs cb s ≠ (.error .labelNotFound, s') := by
  intro h
  unfold Dec.mapSearch at h
  split at h
  · cases h
  · rename_i start cnt _ _ _
    have := searchLoop_notFound P d.room qs cb (start.rest.length + 1) cnt start [] s
    generalize searchLoop P d.room qs cb (start.rest.length + 1) cnt start [] s = x at h this
    obtain ⟨r, s2⟩ := x
    cases r with
    | error e =>
      simp only [Prod.mk.injEq, Except.error.injEq] at h
      obtain ⟨rfl, rfl⟩ := h
      exact this _ rfl
    | ok q => cases h
  · cases h

/-- `decode_critical_parameter`, then `QCBORDecode_ExitMap`. -/
theorem decodeCritical_ok {P : QParams} {d d' : Dec} {start : Cur} {cnt : Option Nat}
    {ls : List Lvl} {es : List Entry} {cEnd : Cur} {prot : Bool} {l l' : LabelList}
    (h : InMap P d start cnt ls es cEnd) (hd : d.err = none)
    (hc : decodeCritical P d prot l = (.ok (), l', d')) (he : (d'.exitMap P).err = none) :
    CritOk P d.room prot es l l' ∧ ∃ t, d'.exitMap P = { d with lvls := ls, tags := t }.done cEnd := by
  unfold decodeCritical at hc
  simp only at hc
  have hs := mapSearch_single h 2 .arr
  unfold Dec.enterArrayFromMap at hc
  rw [hd] at hc
  simp only [Option.isSome_none, Bool.false_eq_true, if_false] at hc
  have hnf : ∀ u, d.mapSearch P [(2, .arr)] (fun (s : Unit) _ => (s, true)) () ≠
    (.error .labelNotFound, u) := fun u => Dec.mapSearch_notFound
  generalize d.mapSearch P [(2, .arr)] (fun (s : Unit) _ => (s, true)) () = x at hc hs hnf
  obtain ⟨r, u⟩ := x
  cases r with
  | error e =>
    simp only at hc
    cases e <;> first | exact absurd rfl (hnf u) | (simp at hc; done)
  | ok f =>
    simp only at hc
    have hs' := (hs f).mp rfl
    rcases hs' with ⟨h0, rfl⟩ | ⟨e, h0, hie, ht, rfl⟩
    · simp only [List.lookup] at hc
      simp only [Prod.mk.injEq, true_and] at hc
      obtain ⟨rfl, rfl⟩ := hc
      refine ⟨.inl ⟨filter_key_nil.mp h0, rfl⟩, d.tags, ?_⟩
      have hdd : ({ d with err := none } : Dec) = d := by
        obtain ⟨cur, lvls, err, tags⟩ := d
        simp only at hd
        subst hd
        rfl
      rw [hdd, Dec.exitMap_intro hd h.lvls h.rem]
    · simp only [List.lookup, BEq.rfl] at hc
      cases hv : e.itm.val with
      | arr k =>
        rw [hv] at hc
        simp only at hc
        by_cases hroom : d.room = 0
        · simp [hroom] at hc
        · simp only [if_neg hroom] at hc
          cases prot with
          | false => simp at hc
          | true =>
            simp only [Bool.not_true, Bool.false_eq_true, if_false] at hc
            generalize hloop : critLoop P _ _ 0 0 l = y at hc
            obtain ⟨r, l2, d3⟩ := y
            cases r with
            | error x => simp at hc
            | ok _ =>
              simp only at hc
              split at hc
              · simp at hc
              · rename_i hclear
                simp only [Prod.mk.injEq, true_and] at hc
                obtain ⟨rfl, rfl⟩ := hc
                have herr : (d3.exitArray P).err = none := (Dec.exitMap_ok rfl he).1
                obtain ⟨ces, cE, t, hr, hcf, hx⟩ := critLoop_ok P _ _ _ _ _ _ _ _ _ rfl hloop herr
                have hroom' : (Dec.mk (Dec.openLvl k e.cur).2 (.arr (Dec.openLvl k e.cur).1 :: d.lvls) none
        d.tags).room = d.room - 1 := by
                  simp only [Dec.room, List.length_cons]; omega
                rw [hroom'] at hr
                refine ⟨.inr ⟨rfl, hroom, e, k, ces, cE, h0, hie, hv,
                  elements_rem.mpr hr, hcf, by simpa using hclear⟩, t, ?_⟩
                rw [hx]
                have hd2 : (Dec.mk (Dec.openLvl k e.cur).2 d.lvls none t).done cE =
                    { d with cur := cE, err := none, tags := t } := by
                  simp only [Dec.done, h.lvls, Dec.itemDone]
                simp only at hd2 ⊢
                rw [hd2, Dec.exitMap_intro (d := Dec.mk cE d.lvls none t) (start := start) (cnt := cnt) (ls := ls) (es := es)
                  (cEnd := cEnd) rfl h.lvls h.rem, hd]
                rfl
      | _ => rw [hv] at ht; cases ht

theorem decodeCritical_intro {P : QParams} {d : Dec} {start : Cur} {cnt : Option Nat}
    {ls : List Lvl} {es : List Entry} {cEnd : Cur} {prot : Bool} {l l' : LabelList}
    (h : InMap P d start cnt ls es cEnd) (hd : d.err = none)
    (hc : CritOk P d.room prot es l l') :
    ∃ d' t, decodeCritical P d prot l = (.ok (), l', d') ∧
      d'.exitMap P = { d with lvls := ls, tags := t }.done cEnd := by
  have hdd : ({ d with err := none } : Dec) = d := by
    obtain ⟨cur, lvls, err, tags⟩ := d
    simp only at hd
    subst hd
    rfl
  have hs := mapSearch_single h 2 .arr
  unfold decodeCritical Dec.enterArrayFromMap
  rw [hd]
  simp only [Option.isSome_none, Bool.false_eq_true, if_false]
  rcases hc with ⟨h0, rfl⟩ | ⟨rfl, hroom, e, k, ces, cE, h0, hie, hv, hel, hcf, hclear⟩
  · rw [(hs []).mpr (.inl ⟨filter_key_nil.mpr h0, rfl⟩)]
    simp only [List.lookup]
    refine ⟨d, d.tags, ?_, ?_⟩
    · simp only [hdd]
    · rw [Dec.exitMap_intro hd h.lvls h.rem, hd]
  · rw [(hs _).mpr (.inr ⟨e, h0, hie, by rw [hv]; rfl, rfl⟩)]
    simp only [List.lookup, BEq.rfl, hv, if_neg hroom, hd]
    have hroom' : (Dec.mk (Dec.openLvl k e.cur).2 (.arr (Dec.openLvl k e.cur).1 :: d.lvls) none
        d.tags).room = d.room - 1 := by
      simp only [Dec.room, List.length_cons]; omega
    have hr := elements_rem.mp hel
    rw [← hroom'] at hr
    obtain ⟨d', t, h1, h2⟩ := critLoop_intro P _ _ 0 0 l l' _ _ ces cE rfl rfl
      (Nat.lt_succ_self _) hr hcf
    simp only [Bool.not_true, Bool.false_eq_true, if_false, h1, hclear]
    refine ⟨_, t, rfl, ?_⟩
    rw [h2]
    have hd2 : (Dec.mk (Dec.openLvl k e.cur).2 d.lvls none t).done cE =
        { d with cur := cE, err := none, tags := t } := by
      simp only [Dec.done, h.lvls, Dec.itemDone]
    simp only at hd2 ⊢
    rw [hd2, Dec.exitMap_intro (d := Dec.mk cE d.lvls none t) (start := start) (cnt := cnt) (ls := ls) (es := es)
      (cEnd := cEnd) rfl h.lvls h.rem]
    rfl

/-- What parsing one header map amounts to, on the entries of the map. -/
def HeaderOk (cfg : Config) (P : QParams) (room : Nat) (prot : Bool) (es : List Entry)
    (p : Params) (crit unk : LabelList) (p' : Params) (crit' unk' : LabelList) : Prop :=
  (∃ f r, searchFold headerQs headerCb es [] ⟨unk, .ok ()⟩ = (.ok f, ⟨unk', r⟩) ∧
    copyParams cfg prot f p = .ok p') ∧
  CritOk P room prot es crit crit'

theorem parseHeader_ok {cfg : Config} {P : QParams} {prot : Bool} {st st' : Parse}
    (h : parseHeader cfg P prot st = (.ok (), st')) (he : st'.d.err = none) :
    st.d.err = none ∧ st.d.room ≠ 0 ∧ ∃ it n c1 es cEnd t,
      st.d.fetch P = (.ok it, c1) ∧ it.val = .map n ∧
      elements P true (st.d.room - 1) n c1 = .ok (es, cEnd) ∧
      HeaderOk cfg P (st.d.room - 1) prot es st.params st.crit st.unk st'.params st'.crit
        st'.unk ∧
      st'.d = { st.d with tags := t }.done cEnd := by
  unfold parseHeader at h
  simp only at h
  generalize hg : (st.d.enterMap P).getItemsInMap P headerQs headerCb ⟨st.unk, .ok ()⟩ = x at h
  obtain ⟨d2, f, cb⟩ := x
  simp only at h
  cases hd2 : d2.err with
  | some e =>
    rw [hd2] at h
    have hst : st'.d.err = some e := by
      cases e <;> first
        | (simp at h; done)
        | (simp only [Prod.mk.injEq] at h; rw [← h.2]; exact hd2)
    rw [hst] at he
    cases he
  | none =>
    rw [hd2] at h
    simp only at h
    unfold Dec.getItemsInMap at hg
    split at hg
    · rename_i hsome
      simp only [Prod.mk.injEq] at hg
      rw [hg.1, hd2] at hsome
      cases hsome
    · rename_i hnone
      have hd1 : (st.d.enterMap P).err = none := by simpa using hnone
      generalize hms : (st.d.enterMap P).mapSearch P headerQs headerCb ⟨st.unk, .ok ()⟩ = y at hg
      obtain ⟨r, cb'⟩ := y
      cases r with
      | error e =>
        simp only [Prod.mk.injEq] at hg
        rw [← hg.1] at hd2
        cases hd2
      | ok f' =>
        simp only [Prod.mk.injEq] at hg
        obtain ⟨rfl, rfl, rfl⟩ := hg
        cases hcp : copyParams cfg prot f' st.params with
        | error x => rw [hcp] at h; simp at h
        | ok p =>
          rw [hcp] at h
          simp only at h
          generalize hdc : decodeCritical P (st.d.enterMap P) prot st.crit = z at h
          obtain ⟨r, crit, d3⟩ := z
          simp only [Prod.mk.injEq] at h
          obtain ⟨rfl, rfl⟩ := h
          simp only at he
          obtain ⟨h0, it, n, c1, hf, hv, hroom, hd1'⟩ := Dec.enterMap_ok rfl hd1
          have hlv : (st.d.enterMap P).lvls =
            .map (Dec.openLvl n c1).2 (Dec.openLvl n c1).1 :: st.d.lvls := by rw [hd1']
          have hrm : (st.d.enterMap P).room = st.d.room - 1 := by
            simp only [Dec.room, hlv, List.length_cons]; omega
          obtain ⟨es, cEnd, hr, hsf⟩ := (Dec.mapSearch_ok hlv headerQs headerCb _ _ _).mp hms
          obtain ⟨hcr, t, hx⟩ := decodeCritical_ok ⟨hlv, hr⟩ hd1 hdc he
          rw [hrm] at hr hcr
          refine ⟨h0, hroom, it, n, c1, es, cEnd, t, hf, hv, elements_rem.mpr hr,
            ⟨⟨f', cb'.ret, hsf, hcp⟩, hcr⟩, ?_⟩
          simp only [hx]
          rw [hd1']
          rfl

theorem parseHeader_intro {cfg : Config} {P : QParams} {prot : Bool} {st : Parse}
    {it : Itm} {n : Option Nat} {c1 cEnd : Cur} {es : List Entry} {p' : Params}
    {crit' unk' : LabelList}
    (h0 : st.d.err = none) (hroom : st.d.room ≠ 0) (hf : st.d.fetch P = (.ok it, c1))
    (hv : it.val = .map n) (hel : elements P true (st.d.room - 1) n c1 = .ok (es, cEnd))
    (hh : HeaderOk cfg P (st.d.room - 1) prot es st.params st.crit st.unk p' crit' unk') :
    ∃ t, parseHeader cfg P prot st =
      (.ok (), { d := { st.d with tags := t }.done cEnd, params := p', crit := crit',
                 unk := unk' }) := by
  obtain ⟨⟨f, r, hsf, hcp⟩, hcr⟩ := hh
  have hd1 := Dec.enterMap_intro h0 hf hv hroom
  have hlv : (st.d.enterMap P).lvls =
    .map (Dec.openLvl n c1).2 (Dec.openLvl n c1).1 :: st.d.lvls := by rw [hd1]
  have hrm : (st.d.enterMap P).room = st.d.room - 1 := by
    simp only [Dec.room, hlv, List.length_cons]; omega
  have herr : (st.d.enterMap P).err = none := by rw [hd1]; exact h0
  have hr := elements_rem.mp hel
  rw [← hrm] at hr hcr
  have hms := (Dec.mapSearch_ok hlv headerQs headerCb ⟨st.unk, .ok ()⟩ ⟨unk', r⟩ f).mpr
    ⟨es, cEnd, hr, hsf⟩
  obtain ⟨d', t, hdc, hx⟩ := decodeCritical_intro ⟨hlv, hr⟩ herr hcr
  refine ⟨t, ?_⟩
  unfold parseHeader Dec.getItemsInMap
  simp only [herr, Option.isSome_none, Bool.false_eq_true, if_false, hms, hcp, hdc]
  rw [hx, hd1]
  rfl

end TCose
