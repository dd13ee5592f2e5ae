import Verif.TCose.Work
import Verif.Lemmas.DecOps

/-!
# Bounds for the work of the decoder
-/

namespace TCose

/-- Reading tags and item reads one initial byte for each octet at most; one
more if the input ends. -/
theorem workTagged_le (P : QParams) : ∀ (n : Nat) (c : Cur) (tags : List Nat) (over : Bool),
    match (generalizing := false) nextTagged P n c tags over with
    | (.ok _, c1) => workTagged n c + c1.rest.length ≤ c.rest.length
    | (.error _, _) => workTagged n c ≤ c.rest.length + 1 := by
  intro n
  induction n with
  | zero => intro c tags over; simp [nextTagged, workTagged]
  | succ n ih =>
    intro c tags over
    rw [nextTagged, workTagged]
    cases hh : decodeAtom c with
    | mk r c1 =>
      have hadv := decodeAtom_adv hh
      cases r with
      | error e =>
        rcases hadv with ⟨e', he, hu, hf⟩ | ⟨ha, he, -⟩
        · cases he
          simp only [if_pos hu]
          omega
        · have := he e rfl
          have hl := ha.length_lt
          simp only [this, Bool.false_eq_true, if_false]
          omega
      | ok a =>
        rcases hadv with ⟨e', he, -⟩ | ⟨ha, -, hv⟩
        · cases he
        · have hl := ha.length_lt
          cases a with
          | val v => simp only; omega
          | tag t =>
            have key : ∀ tags over,
                match (generalizing := false) nextTagged P n c1 tags over with
                | (.ok _, c2) => 1 + workTagged n c1 + c2.rest.length ≤ c.rest.length
                | (.error _, _) => 1 + workTagged n c1 ≤ c.rest.length + 1 := by
              intro tags over
              have := ih c1 tags over
              generalize nextTagged P n c1 tags over = x at this ⊢
              obtain ⟨r, c2⟩ := x
              cases r with
              | error e => simp only at this ⊢; omega
              | ok it => simp only at this ⊢; omega
            simp only
            by_cases ht : tags.length < P.maxTags
            · rw [if_pos ht]; exact key _ _
            · rw [if_neg ht]; exact key _ _

theorem workItem_raw (P : QParams) (c : Cur) :
    match (generalizing := false) nextRaw P c with
    | (.ok _, c1) => workItem c + c1.rest.length ≤ c.rest.length
    | (.error _, _) => workItem c ≤ c.rest.length + 1 :=
  workTagged_le P _ c [] false

theorem workItem_all (c : Cur) : workItem c ≤ c.rest.length + 1 := by
  have h := workItem_raw QParams.std c
  generalize nextRaw QParams.std c = x at h
  obtain ⟨r, c1⟩ := x
  cases r with
  | error e => exact h
  | ok it => simp only at h; omega

theorem workItem_next (P : QParams) (c : Cur) :
    match (generalizing := false) nextItem P c with
    | (.ok _, c1) => workItem c + c1.rest.length ≤ c.rest.length
    | (.error _, _) => workItem c ≤ c.rest.length + 1 := by
  have h := workItem_raw P c
  unfold nextItem
  generalize nextRaw P c = x at h ⊢
  obtain ⟨r, c1⟩ := x
  cases r with
  | error e => exact h
  | ok it => exact h

/-- An entry: at most one initial byte for each octet, one more on failure. -/
theorem workEntry_le (P : QParams) (m : Bool) (c : Cur) :
    workEntry P m c ≤ c.rest.length + 1 ∧
    ∀ p c1, entry P m c = (.ok p, c1) → workEntry P m c + c1.rest.length ≤ c.rest.length := by
  unfold workEntry entry
  cases m with
  | false =>
    simp only [Bool.false_eq_true, if_false, Nat.add_zero]
    refine ⟨workItem_all c, ?_⟩
    have h := workItem_next P c
    generalize nextItem P c = x at h ⊢
    obtain ⟨r, c1⟩ := x
    intro p c1'
    cases r with
    | error e => intro h'; simp at h'
    | ok it =>
      simp only at h ⊢
      split
      · intro h'; simp at h'
      · intro h'
        simp only [Prod.mk.injEq] at h'
        rw [← h'.2]; exact h
  | true =>
    simp only [if_true]
    have h := workItem_raw P c
    generalize nextRaw P c = x at h ⊢
    obtain ⟨r, c1⟩ := x
    cases r with
    | error e => exact ⟨h, fun p c1' h' => by simp at h'⟩
    | ok l =>
      simp only at h ⊢
      cases hl : l.err with
      | some e =>
        simp only
        refine ⟨by omega, fun p c1' h' => ?_⟩
        simp only [Prod.mk.injEq] at h'
        rw [← h'.2]; omega
      | none =>
        simp only
        by_cases hbrk : l.val = .brk
        · rw [if_pos hbrk, if_pos hbrk]
          exact ⟨by omega, fun p c1' h' => by simp at h'⟩
        rw [if_neg hbrk, if_neg hbrk]
        have ha := workItem_all c1
        refine ⟨by omega, ?_⟩
        have g := workItem_next P c1
        generalize nextItem P c1 = y at g ⊢
        obtain ⟨r, c2⟩ := y
        intro p c1'
        cases r with
        | error e => intro h'; simp at h'
        | ok it =>
          simp only at g ⊢
          split
          · split
            · intro h'; simp at h'
            · intro h'
              simp only [Prod.mk.injEq] at h'
              rw [← h'.2]; omega
          · intro h'; simp at h'

/-- Every level looked at is left, but one. -/
theorem workAscend_le : ∀ (st : List NLvl) (c : Cur),
    workAscend st c + (ascend st c).1.length ≤ st.length + 1
  | [], c => by simp [workAscend, ascend]
  | ⟨m, some n⟩ :: st, c => by
    have := workAscend_le st c
    rw [ascend, workAscend]
    split
    · simp only [List.length_cons]; omega
    · simp only [List.length_cons]; omega
  | ⟨m, none⟩ :: st, c => by
    have := workAscend_le st (c.adv 1)
    rw [ascend, workAscend]
    split
    · simp only [List.length_cons]; omega
    · simp only [List.length_cons]; omega

theorem workAscend_len (st : List NLvl) (c : Cur) : workAscend st c ≤ st.length + 1 := by
  have := workAscend_le st c; omega

theorem workPush_le (room : Nat) (v : Val) (st : List NLvl) (c : Cur) :
    workPush room v st c ≤ st.length + 2 ∧
    ∀ st' c', push room v st c = .ok (st', c') →
      workPush room v st c + st'.length ≤ st.length + 2 := by
  have base : ∀ s : List NLvl, s.length ≤ st.length + 1 →
      workAscend s c ≤ st.length + 2 ∧ ∀ st' c', Except.ok (ε := QErr) (ascend s c) = .ok (st', c') →
        workAscend s c + st'.length ≤ st.length + 2 := by
    intro s hs
    refine ⟨Nat.le_trans (workAscend_len s c) (by omega), fun st' c' h => ?_⟩
    have h' := workAscend_le s c
    simp only [Except.ok.injEq] at h
    rw [h] at h'
    simp only at h'
    omega
  have some0 : ∀ m : Bool, ∀ k : Nat, ∀ st' c',
      (if st.length ≥ room then Except.error QErr.nestingTooDeep
        else .ok ((⟨m, some k⟩ : NLvl) :: st, c)) = .ok (st', c') →
      0 + st'.length ≤ st.length + 2 := by
    intro m k st' c' h
    split at h
    · cases h
    · simp only [Except.ok.injEq, Prod.mk.injEq] at h
      rw [← h.1]
      simp only [List.length_cons]; omega
  have indef : ∀ m : Bool,
      (if st.length ≥ room then 0 else workAscend (⟨m, none⟩ :: st) c) ≤ st.length + 2 ∧
      ∀ st' c', (if st.length ≥ room then Except.error QErr.nestingTooDeep
        else .ok (ascend (⟨m, none⟩ :: st) c)) = .ok (st', c') →
      (if st.length ≥ room then 0 else workAscend (⟨m, none⟩ :: st) c) + st'.length
        ≤ st.length + 2 := by
    intro m
    by_cases hr : st.length ≥ room
    · simp only [if_pos hr]
      exact ⟨Nat.zero_le _, fun st' c' h => by cases h⟩
    · simp only [if_neg hr]
      exact base _ (by simp)
  unfold workPush push
  cases v with
  | arr n =>
    match n with
    | some 0 => exact base st (by omega)
    | some (k + 1) => exact ⟨Nat.zero_le _, some0 false (k + 1)⟩
    | none => exact indef false
  | map n =>
    match n with
    | some 0 => exact base st (by omega)
    | some (k + 1) => exact ⟨Nat.zero_le _, some0 true (k + 1)⟩
    | none => exact indef true
  | _ => exact base st (by omega)

/-- Stepping over the rest of nested containers. -/
theorem workSkip_le (P : QParams) (room : Nat) : ∀ (n : Nat) (st : List NLvl) (c : Cur),
    workSkip P room n st c ≤ 3 * c.rest.length + st.length + 1 ∧
    ∀ c', skip P room n st c = .ok c' →
      workSkip P room n st c + 3 * c'.rest.length ≤ 3 * c.rest.length + st.length := by
  intro n
  induction n with
  | zero =>
    intro st c
    cases st with
    | nil => rw [workSkip, skip]; exact ⟨by omega, fun c' h => by cases h; simp⟩
    | cons l st => rw [workSkip, skip]; exact ⟨by omega, fun c' h => by cases h⟩
  | succ n ih =>
    intro st c
    cases st with
    | nil => rw [workSkip, skip]; exact ⟨by omega, fun c' h => by cases h; simp⟩
    | cons l st =>
      rw [workSkip, skip]
      split
      · exact ⟨by omega, fun c' h => by cases h⟩
      · have he := entry_ok P l.isMap c
        have hw := workEntry_le P l.isMap c
        generalize entry P l.isMap c = x at he hw ⊢
        obtain ⟨r, c1⟩ := x
        cases r with
        | error e =>
          simp only
          exact ⟨by have := hw.1; omega, fun c' h => by cases h⟩
        | ok p =>
          obtain ⟨lab, it⟩ := p
          obtain ⟨ha, -⟩ := he
          have hlt := ha.length_lt
          have hw2 := hw.2 _ _ rfl
          have hp1 := workPush_le room it.val (l :: st) c1
          simp only
          cases hp : push room it.val (l :: st) c1 with
          | error e =>
            simp only
            refine ⟨?_, fun c' h => by cases h⟩
            have := hp1.1
            omega
          | ok q =>
            obtain ⟨st', c2⟩ := q
            have ha2 := (push_adv hp).length_le
            have hp2 := hp1.2 _ _ hp
            have := ih st' c2
            simp only
            refine ⟨by have := this.1; omega, fun c' h => ?_⟩
            have := this.2 c' h
            omega

theorem workSkipAll_le (P : QParams) (room : Nat) (st : List NLvl) (c : Cur) :
    workSkipAll P room st c ≤ 3 * c.rest.length + st.length + 1 :=
  (workSkip_le P room _ st c).1

theorem workSkipValue_le (P : QParams) (room : Nat) (v : Val) (c : Cur) :
    workSkipValue P room v c ≤ 3 * c.rest.length + 3 ∧
    ∀ c', skipValue P room v c = .ok c' →
      workSkipValue P room v c + 3 * c'.rest.length ≤ 3 * c.rest.length + 2 := by
  unfold workSkipValue skipValue
  have hp1 := workPush_le room v [] c
  cases hp : push room v [] c with
  | error e => exact ⟨by have := hp1.1; simp only [List.length_nil] at this ⊢; omega,
      fun c' h => by cases h⟩
  | ok q =>
    obtain ⟨st', c2⟩ := q
    have ha2 := (push_adv hp).length_le
    have hp2 := hp1.2 _ _ hp
    have := workSkip_le P room (c2.rest.length + 1) st' c2
    simp only [List.length_nil] at hp2 ⊢
    refine ⟨by have := this.1; unfold workSkipAll; omega, fun c' h => ?_⟩
    have := this.2 c' h
    unfold workSkipAll
    omega

/-- Searching a map. -/
theorem workSearch_le (P : QParams) (room : Nat) {σ : Type} (qs : List (Int × QTyp))
    (cb : σ → Option Val → σ × Bool) :
    ∀ (n : Nat) (left : Option Nat) (c : Cur) (found : Found) (s : σ),
      workSearch P room qs cb n left c found s ≤ 4 * c.rest.length + 1 := by
  intro n
  induction n with
  | zero => intro left c found s; rw [workSearch]; omega
  | succ n ih =>
    intro left c found s
    rw [workSearch]
    split
    · omega
    · have he := entry_ok P true c
      have hw := workEntry_le P true c
      generalize entry P true c = x at he hw ⊢
      obtain ⟨r, c1⟩ := x
      cases r with
      | error e => simp only; have := hw.1; omega
      | ok p =>
        obtain ⟨label, it⟩ := p
        obtain ⟨ha, -⟩ := he
        have hlt := ha.length_lt
        have hw2 := hw.2 _ _ rfl
        simp only
        generalize searchStep qs cb label it c1 found s = y
        obtain ⟨r, s'⟩ := y
        cases r with
        | error e => simp only; omega
        | ok found' =>
          simp only
          have hv := workSkipValue_le P room it.val c1
          cases hk : skipValue P room it.val c1 with
          | error e => simp only; have := hv.1; omega
          | ok c2 =>
            have hv2 := hv.2 c2 hk
            have hk2 := skipValue_ok P room it.val c1
            rw [hk] at hk2
            have hk3 := Adv.length_le hk2
            have ha3 := (ascend_adv [⟨true, left⟩] c2).length_le
            have hs := workAscend_le [⟨true, left⟩] c2
            simp only
            generalize ascend [⟨true, left⟩] c2 = z at ha3 hs ⊢
            obtain ⟨st, c3⟩ := z
            cases st with
            | nil => simp only [List.length_cons, List.length_nil] at hs ⊢; omega
            | cons l st =>
              have := ih l.left c3 found' s'
              simp only [List.length_cons, List.length_nil] at hs ha3 ⊢
              omega

/-! ### Windows do not grow -/

theorem adv_len (c : Cur) (k : Nat) : (c.adv k).rest.length ≤ c.rest.length := by
  simp [Cur.adv]

theorem decodeHead_len (c : Cur) : (decodeHead c).2.rest.length ≤ c.rest.length := by
  unfold decodeHead
  cases h : c.rest with
  | nil => simp [h]
  | cons b r =>
    have ha := fun k => adv_len ⟨c.pos + 1, r⟩ k
    simp only at ha ⊢
    split
    · simp
    · split
      · split
        · simp
        · have := ha (2 ^ (b.toNat % 32 - 24))
          simp only [List.length_cons]; omega
      · split <;> simp

theorem decodeStr_len (mk : Str → Val) (ai arg : Nat) (c : Cur) :
    (decodeStr mk ai arg c).2.rest.length ≤ c.rest.length := by
  unfold decodeStr
  split
  · exact Nat.le_refl _
  · split
    · exact Nat.le_refl _
    · exact adv_len c arg

theorem decodeAtom_len (c : Cur) : (decodeAtom c).2.rest.length ≤ c.rest.length := by
  unfold decodeAtom
  have h := decodeHead_len c
  generalize decodeHead c = x at h ⊢
  obtain ⟨r, c1⟩ := x
  have hs := fun mk ai arg => decodeStr_len mk ai arg c1
  simp only at h
  cases r with
  | error e => exact h
  | ok q =>
    obtain ⟨major, ai, arg⟩ := q
    simp only
    split
    · exact h
    · split
      · exact h
      · split
        · exact Nat.le_trans (hs _ _ _) h
        · split
          · exact Nat.le_trans (hs _ _ _) h
          · split
            · exact h
            · split
              · exact h
              · split
                · exact h
                · exact h

theorem nextTagged_len (P : QParams) : ∀ (n : Nat) (c : Cur) (tags : List Nat) (over : Bool),
    (nextTagged P n c tags over).2.rest.length ≤ c.rest.length := by
  intro n
  induction n with
  | zero => intro c tags over; exact Nat.le_refl _
  | succ n ih =>
    intro c tags over
    rw [nextTagged]
    have h := decodeAtom_len c
    generalize decodeAtom c = x at h ⊢
    obtain ⟨r, c1⟩ := x
    simp only at h
    cases r with
    | error e => simp only; split <;> exact h
    | ok a =>
      cases a with
      | val v => exact h
      | tag t =>
        simp only
        split <;> exact Nat.le_trans (ih _ _ _) h

theorem nextItem_len (P : QParams) (c : Cur) :
    (nextItem P c).2.rest.length ≤ c.rest.length := by
  unfold nextItem
  have h : (nextRaw P c).2.rest.length ≤ c.rest.length := nextTagged_len P _ c [] false
  generalize nextRaw P c = x at h ⊢
  obtain ⟨r, c1⟩ := x
  cases r <;> exact h

theorem entry_false_len (P : QParams) (c : Cur) :
    (entry P false c).2.rest.length ≤ c.rest.length := by
  unfold entry
  simp only [Bool.false_eq_true, if_false]
  have h := nextItem_len P c
  generalize nextItem P c = x at h ⊢
  obtain ⟨r, c1⟩ := x
  cases r with
  | error e => exact h
  | ok it => simp only; split <;> exact h

theorem fetch_len (P : QParams) (d : Dec) :
    (d.fetch P).2.rest.length ≤ d.cur.rest.length := by
  unfold Dec.fetch
  split
  · exact Nat.le_refl _
  · have h := entry_false_len P d.cur
    generalize entry P false d.cur = x at h ⊢
    obtain ⟨r, c1⟩ := x
    cases r with
    | error e => exact h
    | ok p =>
      obtain ⟨l, it⟩ := p
      simp only
      split <;> exact h

/-- Every window of a level is at most `N` octets long. -/
def Lvl.Sz (N : Nat) : Lvl → Prop
  | .arr _ => True
  | .map start _ => start.rest.length ≤ N
  | .wrap outer => outer.rest.length ≤ N

/-- Every window of the decoder is at most `N` octets long. -/
def Dec.Sz (N : Nat) (d : Dec) : Prop := d.cur.rest.length ≤ N ∧ ∀ l ∈ d.lvls, l.Sz N

theorem Dec.Sz.mk' {N : Nat} {d : Dec} (h : d.Sz N) {c : Cur} (hc : c.rest.length ≤ N)
    (e : Option QErr) (t : List Nat) : Dec.Sz N { d with cur := c, err := e, tags := t } :=
  ⟨hc, h.2⟩

theorem openLvl_len (n : Option Nat) (c : Cur) :
    (Dec.openLvl n c).2.rest.length ≤ c.rest.length := (openLvl_adv n c).length_le

theorem itemDone_sz {N : Nat} {ls : List Lvl} {c : Cur} (hl : ∀ l ∈ ls, l.Sz N)
    (hc : c.rest.length ≤ N) :
    (Dec.itemDone ls c).2.rest.length ≤ N ∧ ∀ l ∈ (Dec.itemDone ls c).1, l.Sz N := by
  unfold Dec.itemDone
  split
  · refine ⟨hc, fun l hm => ?_⟩
    rcases List.mem_cons.mp hm with rfl | hm
    · trivial
    · exact hl l (List.mem_cons_of_mem _ hm)
  · split
    · refine ⟨Nat.le_trans (adv_len _ _) hc, fun l hm => ?_⟩
      rcases List.mem_cons.mp hm with rfl | hm
      · trivial
      · exact hl l (List.mem_cons_of_mem _ hm)
    · exact ⟨hc, hl⟩
  · exact ⟨hc, hl⟩

theorem done_sz {N : Nat} {d : Dec} {c : Cur} (hl : ∀ l ∈ d.lvls, l.Sz N)
    (hc : c.rest.length ≤ N) : (d.done c).Sz N := itemDone_sz hl hc

theorem getNext_sz {N : Nat} {P : QParams} {d : Dec} (h : d.Sz N) : (d.getNext P).2.Sz N := by
  unfold Dec.getNext
  have hf := Nat.le_trans (fetch_len P d) h.1
  generalize d.fetch P = x at hf ⊢
  obtain ⟨r, c1⟩ := x
  cases r with
  | error e => exact ⟨hf, h.2⟩
  | ok it =>
    have := done_sz h.2 hf
    exact ⟨this.1, this.2⟩

theorem enterArray_sz {N : Nat} {P : QParams} {d : Dec} (h : d.Sz N) : (d.enterArray P).Sz N := by
  unfold Dec.enterArray
  split
  · exact h
  · have hf := Nat.le_trans (fetch_len P d) h.1
    generalize d.fetch P = x at hf ⊢
    obtain ⟨r, c1⟩ := x
    cases r with
    | error e => exact ⟨hf, h.2⟩
    | ok it =>
      simp only
      split
      · split
        · exact ⟨hf, h.2⟩
        · refine ⟨Nat.le_trans (openLvl_len _ _) hf, fun l hm => ?_⟩
          rcases List.mem_cons.mp hm with rfl | hm
          · trivial
          · exact h.2 l hm
      · exact ⟨hf, h.2⟩

theorem enterMap_sz {N : Nat} {P : QParams} {d : Dec} (h : d.Sz N) : (d.enterMap P).Sz N := by
  unfold Dec.enterMap
  split
  · exact h
  · have hf := Nat.le_trans (fetch_len P d) h.1
    generalize d.fetch P = x at hf ⊢
    obtain ⟨r, c1⟩ := x
    cases r with
    | error e => exact ⟨hf, h.2⟩
    | ok it =>
      simp only
      split
      · split
        · exact ⟨hf, h.2⟩
        · refine ⟨Nat.le_trans (openLvl_len _ _) hf, fun l hm => ?_⟩
          rcases List.mem_cons.mp hm with rfl | hm
          · exact Nat.le_trans (openLvl_len _ _) hf
          · exact h.2 l hm
      · exact ⟨hf, h.2⟩

theorem ValIn.str_len {c : Cur} {s : Str} (h : ValIn c (.bstr s)) :
    s.bytes.length ≤ c.rest.length := by
  obtain ⟨k, n, hk, rfl⟩ := h
  simp only [List.length_take, List.length_drop]
  omega

theorem enterBstr_sz {N : Nat} {P : QParams} {d : Dec} (h : d.Sz N) :
    (d.enterBstrWrapped P).1.Sz N := by
  unfold Dec.enterBstrWrapped
  split
  · exact h
  · have hf := Nat.le_trans (fetch_len P d) h.1
    cases hx : d.fetch P with
    | mk r c1 =>
    rw [hx] at hf
    cases r with
    | error e => exact ⟨hf, h.2⟩
    | ok it =>
      have hv := (Dec.fetch_adv hx).2
      simp only
      split
      · rename_i s hs ht
        split
        · exact ⟨hf, h.2⟩
        · rw [hs] at hv
          refine ⟨Nat.le_trans hv.str_len h.1, fun l hm => ?_⟩
          rcases List.mem_cons.mp hm with rfl | hm
          · exact hf
          · exact h.2 l hm
      · exact ⟨hf, h.2⟩

theorem exitBstr_sz {N : Nat} {d : Dec} (h : d.Sz N) : d.exitBstrWrapped.Sz N := by
  unfold Dec.exitBstrWrapped
  split
  · exact h
  · split
    · rename_i outer ls hl
      have h2 := h.2
      rw [hl] at h2
      exact done_sz (d := { d with lvls := ls }) (fun l hm => h2 l (List.mem_cons_of_mem _ hm))
        (h2 _ List.mem_cons_self)
    · exact ⟨h.1, h.2⟩

theorem getByteString_sz {N : Nat} {P : QParams} {d : Dec} (h : d.Sz N) :
    (d.getByteString P).1.Sz N := by
  unfold Dec.getByteString
  split
  · exact h
  · have hg := getNext_sz (P := P) h
    generalize d.getNext P = x at hg ⊢
    obtain ⟨r, d1⟩ := x
    cases r with
    | error e => exact ⟨hg.1, hg.2⟩
    | ok it =>
      simp only
      split
      · exact hg
      · exact ⟨hg.1, hg.2⟩

theorem skipAll_len {P : QParams} {room : Nat} {st : List NLvl} {c c' : Cur}
    (h : skipAll P room st c = .ok c') : c'.rest.length ≤ c.rest.length := by
  have := skipAll_ok P room st c
  rw [h] at this
  exact Adv.length_le this

theorem exitArray_sz {N : Nat} {P : QParams} {d : Dec} (h : d.Sz N) : (d.exitArray P).Sz N := by
  unfold Dec.exitArray
  split
  · exact h
  · split
    · rename_i ls hl
      have h2 := h.2
      rw [hl] at h2
      exact done_sz (d := { d with lvls := ls }) (fun l hm => h2 l (List.mem_cons_of_mem _ hm)) h.1
    · rename_i left ls _ hl
      have h2 := h.2
      rw [hl] at h2
      cases hs : skipAll P (d.room + 1) [⟨false, left⟩] d.cur with
      | error e => exact ⟨h.1, h.2⟩
      | ok c =>
        exact done_sz (d := { d with lvls := ls }) (fun l hm => h2 l (List.mem_cons_of_mem _ hm))
          (Nat.le_trans (skipAll_len hs) h.1)
    · exact ⟨h.1, h.2⟩

theorem exitMap_sz {N : Nat} {P : QParams} {d : Dec} (h : d.Sz N) : (d.exitMap P).Sz N := by
  unfold Dec.exitMap
  split
  · exact h
  · split
    · rename_i start ls hl
      have h2 := h.2
      rw [hl] at h2
      exact done_sz (d := { d with lvls := ls }) (fun l hm => h2 l (List.mem_cons_of_mem _ hm))
        (h2 _ List.mem_cons_self)
    · rename_i start cnt ls _ hl
      have h2 := h.2
      rw [hl] at h2
      cases hs : skipAll P (d.room + 1) [⟨true, cnt⟩] start with
      | error e => exact ⟨h.1, h.2⟩
      | ok c =>
        exact done_sz (d := { d with lvls := ls }) (fun l hm => h2 l (List.mem_cons_of_mem _ hm))
          (Nat.le_trans (skipAll_len hs) (h2 _ List.mem_cons_self))
    · exact ⟨h.1, h.2⟩

theorem searchStep_sz {N : Nat} {σ : Type} {qs : List (Int × QTyp)}
    {cb : σ → Option Val → σ × Bool} {label : Option Val} {it : Itm} {c1 : Cur}
    {found found' : Found} {s s' : σ} (hc : c1.rest.length ≤ N)
    (hf : ∀ x ∈ found, x.2.2.rest.length ≤ N)
    (h : searchStep qs cb label it c1 found s = (.ok found', s')) :
    ∀ x ∈ found', x.2.2.rest.length ≤ N := by
  unfold searchStep at h
  have un : (match cb s label with
      | (s', true) => ((.ok found, s') : Except QErr Found × σ)
      | (s', false) => (.error .callbackFail, s')) = (.ok found', s') →
      ∀ x ∈ found', x.2.2.rest.length ≤ N := by
    intro h
    split at h
    · simp only [Prod.mk.injEq, Except.ok.injEq] at h
      rw [← h.1]; exact hf
    · simp at h
  simp only at h
  split at h
  · split at h
    · split at h
      · simp at h
      · split at h
        · simp at h
        · split at h
          · simp only [Prod.mk.injEq, Except.ok.injEq] at h
            rw [← h.1]
            intro x hx
            rcases List.mem_cons.mp hx with rfl | hx
            · exact hc
            · exact hf x hx
          · simp at h
    · exact un h
  · exact un h

theorem searchLoop_sz {N : Nat} (P : QParams) (room : Nat) {σ : Type} (qs : List (Int × QTyp))
    (cb : σ → Option Val → σ × Bool) :
    ∀ (n : Nat) (left : Option Nat) (c : Cur) (found : Found) (s : σ),
      c.rest.length ≤ N → (∀ x ∈ found, x.2.2.rest.length ≤ N) →
      ∀ f cE s', searchLoop P room qs cb n left c found s = (.ok (f, cE), s') →
        ∀ x ∈ f, x.2.2.rest.length ≤ N := by
  intro n
  induction n with
  | zero => intro left c found s _ _ f cE s' h; simp [searchLoop] at h
  | succ n ih =>
    intro left c found s hc hf f cE s' h
    rw [searchLoop] at h
    split at h
    · simp at h
    · have he := entry_ok P true c
      generalize entry P true c = x at he h
      obtain ⟨r, c1⟩ := x
      cases r with
      | error e => simp at h
      | ok p =>
        obtain ⟨label, it⟩ := p
        obtain ⟨ha, -⟩ := he
        have hlt := ha.length_lt
        simp only at h
        cases hst : searchStep qs cb label it c1 found s with
        | mk r s1 =>
        rw [hst] at h
        cases r with
        | error e => simp at h
        | ok found1 =>
          have hf1 := searchStep_sz (N := N) (by omega) hf hst
          simp only at h
          cases hk : skipValue P room it.val c1 with
          | error e => rw [hk] at h; simp at h
          | ok c2 =>
            rw [hk] at h
            have hk2 := skipValue_ok P room it.val c1
            rw [hk] at hk2
            have hk3 := Adv.length_le hk2
            have ha3 := (ascend_adv [⟨true, left⟩] c2).length_le
            simp only at h
            generalize ascend [⟨true, left⟩] c2 = z at ha3 h
            obtain ⟨st, c3⟩ := z
            cases st with
            | nil =>
              simp only [Prod.mk.injEq, Except.ok.injEq] at h
              rw [← h.1.1]; exact hf1
            | cons l st =>
              simp only at ha3 h
              exact ih l.left c3 found1 s1 (by omega) hf1 f cE s' h

theorem mapSearch_sz {N : Nat} {P : QParams} {d : Dec} (h : d.Sz N) {σ : Type}
    {qs : List (Int × QTyp)} {cb : σ → Option Val → σ × Bool} {s s' : σ} {f : Found}
    (hm : d.mapSearch P qs cb s = (.ok f, s')) : ∀ x ∈ f, x.2.2.rest.length ≤ N := by
  unfold Dec.mapSearch at hm
  split at hm
  · simp only [Prod.mk.injEq, Except.ok.injEq] at hm
    rw [← hm.1]; simp
  · rename_i start cnt ls _ hl
    have h2 := h.2
    rw [hl] at h2
    have hst : start.rest.length ≤ N := h2 _ List.mem_cons_self
    split at hm
    · simp at hm
    · rename_i f' cE s1 hs
      simp only [Prod.mk.injEq, Except.ok.injEq] at hm
      rw [← hm.1]
      exact searchLoop_sz P _ qs cb _ _ _ _ _ hst (by simp) _ _ _ hs
  · simp at hm

theorem getItems_sz {N : Nat} {P : QParams} {d : Dec} (h : d.Sz N) {σ : Type}
    {qs : List (Int × QTyp)} {cb : σ → Option Val → σ × Bool} {s : σ} :
    (d.getItemsInMap P qs cb s).1.Sz N := by
  unfold Dec.getItemsInMap
  split
  · exact h
  · split
    · exact ⟨h.1, h.2⟩
    · exact h

theorem lookup_mem : ∀ {f : Found} {i : Int} {x : Val × Cur}, f.lookup i = some x →
    (i, x) ∈ f
  | [], _, _, h => by simp at h
  | (j, y) :: f, i, x, h => by
    simp only [List.lookup] at h
    split at h
    · rename_i hj
      have : i = j := by simpa using hj
      subst this
      simp only [Option.some.injEq] at h
      rw [h]; exact List.mem_cons_self
    · exact List.mem_cons_of_mem _ (lookup_mem h)

theorem fromMap_sz {N : Nat} {P : QParams} {d : Dec} (h : d.Sz N) {label : Int} :
    (d.enterArrayFromMap P label).Sz N := by
  unfold Dec.enterArrayFromMap
  split
  · exact h
  · split
    · exact ⟨h.1, h.2⟩
    · rename_i found _ hm
      split
      · rename_i n c hl
        have hc := mapSearch_sz h hm _ (lookup_mem hl)
        split
        · exact ⟨h.1, h.2⟩
        · refine ⟨Nat.le_trans (openLvl_len _ _) hc, fun l hm => ?_⟩
          rcases List.mem_cons.mp hm with rfl | hm
          · trivial
          · exact h.2 l hm
      · exact ⟨h.1, h.2⟩

theorem critLoop_sz {N : Nat} {P : QParams} : ∀ (n : Nat) (d : Dec) (ni nt : Nat) (l : LabelList),
    d.Sz N → (critLoop P n d ni nt l).2.2.Sz N := by
  intro n
  induction n with
  | zero => intro d ni nt l h; exact h
  | succ n ih =>
    intro d ni nt l h
    rw [critLoop]
    have hg := getNext_sz (P := P) h
    generalize d.getNext P = x at hg ⊢
    obtain ⟨r, d1⟩ := x
    cases r with
    | error e => cases e <;> exact hg
    | ok it =>
      simp only
      split
      · split
        · exact hg
        · exact ih _ _ _ _ hg
      · split
        · exact hg
        · exact ih _ _ _ _ hg
      · exact hg

theorem critical_sz {N : Nat} {P : QParams} {d : Dec} {prot : Bool} {l : LabelList}
    (h : d.Sz N) : (decodeCritical P d prot l).2.2.Sz N := by
  unfold decodeCritical
  have h1 := fromMap_sz (P := P) (label := 2) h
  generalize d.enterArrayFromMap P 2 = d1 at h1 ⊢
  have h2 : Dec.Sz N { d1 with err := none } := ⟨h1.1, h1.2⟩
  simp only
  split
  · exact h2
  · exact h2
  · split
    · exact h2
    · have hc := critLoop_sz (P := P) (d1.cur.rest.length + 1) _ 0 0 l h2
      generalize critLoop P (d1.cur.rest.length + 1) { d1 with err := none } 0 0 l = x at hc ⊢
      obtain ⟨r, l', d3⟩ := x
      cases r with
      | error e => exact hc
      | ok u =>
        simp only
        split
        · exact exitArray_sz hc
        · exact exitArray_sz hc

theorem header_sz {N : Nat} {cfg : Config} {P : QParams} {prot : Bool} {st : Parse}
    (h : st.d.Sz N) : (parseHeader cfg P prot st).2.d.Sz N := by
  unfold parseHeader
  have h1 := enterMap_sz (P := P) h
  generalize st.d.enterMap P = d1 at h1 ⊢
  have h2 := getItems_sz (P := P) (qs := headerQs) (cb := headerCb) (s := ⟨st.unk, .ok ()⟩) h1
  simp only
  generalize d1.getItemsInMap P headerQs headerCb ⟨st.unk, .ok ()⟩ = x at h2 ⊢
  obtain ⟨d2, found, cb⟩ := x
  simp only at h2 ⊢
  split
  · exact h2
  · exact h2
  · split
    · exact h2
    · exact exitMap_sz (critical_sz h2)

/-! ### The work of each call -/

theorem workFetch_le {N : Nat} {P : QParams} {d : Dec} (h : d.Sz N) :
    d.workFetch P ≤ N + 1 := by
  unfold Dec.workFetch
  split
  · omega
  · have := (workEntry_le P false d.cur).1
    have := h.1
    omega

theorem workNext_le {N : Nat} {P : QParams} {d : Dec} (h : d.Sz N) : d.workNext P ≤ N + 2 := by
  have := workFetch_le (P := P) h
  unfold Dec.workNext
  omega

theorem workEnter_le {N : Nat} {P : QParams} {d : Dec} (h : d.Sz N) : d.workEnter P ≤ N + 2 := by
  have := workFetch_le (P := P) h
  unfold Dec.workEnter
  split <;> omega

theorem workMap_le {N : Nat} {P : QParams} {d : Dec} (h : d.Sz N) {σ : Type}
    (qs : List (Int × QTyp)) (cb : σ → Option Val → σ × Bool) (s : σ) :
    d.workMap P qs cb s ≤ 4 * N + 1 := by
  unfold Dec.workMap
  split
  · omega
  · rename_i start cnt ls _ hl
    have h2 := h.2
    rw [hl] at h2
    have hst : start.rest.length ≤ N := h2 _ List.mem_cons_self
    have := workSearch_le P d.room qs cb (start.rest.length + 1) cnt start [] s
    omega
  · omega

theorem workItems_le {N : Nat} {P : QParams} {d : Dec} (h : d.Sz N) {σ : Type}
    (qs : List (Int × QTyp)) (cb : σ → Option Val → σ × Bool) (s : σ) :
    d.workItems P qs cb s ≤ 4 * N + 1 := by
  have := workMap_le (P := P) h qs cb s
  unfold Dec.workItems
  split <;> omega

theorem workFromMap_le {N : Nat} {P : QParams} {d : Dec} (h : d.Sz N) (label : Int) :
    d.workFromMap P label ≤ 4 * N + 2 := by
  have := workMap_le (P := P) h [(label, .arr)] (fun (s : Unit) _ => (s, true)) ()
  unfold Dec.workFromMap
  split <;> omega

theorem workExit_le {N : Nat} {P : QParams} {d : Dec} (h : d.Sz N) :
    d.workExit P ≤ 3 * N + 3 := by
  unfold Dec.workExit
  have h1 := h.1
  have h2 := h.2
  split
  · omega
  · split
    · omega
    · rename_i left ls _ hl
      have := workSkipAll_le P (d.room + 1) [⟨false, left⟩] d.cur
      simp only [List.length_cons, List.length_nil] at this
      omega
    · omega
    · rename_i start cnt ls _ hl
      rw [hl] at h2
      have hst : start.rest.length ≤ N := h2 _ List.mem_cons_self
      have := workSkipAll_le P (d.room + 1) [⟨true, cnt⟩] start
      simp only [List.length_cons, List.length_nil] at this
      omega
    · omega

theorem workFetch_ok {P : QParams} {d d1 : Dec} {it : Itm} (h : d.getNext P = (.ok it, d1)) :
    d.workFetch P + d1.cur.rest.length ≤ d.cur.rest.length ∧
      d1.cur.rest.length < d.cur.rest.length := by
  unfold Dec.getNext at h
  cases hx : d.fetch P with
  | mk r c1 =>
  rw [hx] at h
  cases r with
  | error e => simp at h
  | ok it' =>
    simp only [Prod.mk.injEq] at h
    have hf := hx
    obtain ⟨he, hz, -, l, hent⟩ := Dec.fetch_ok.mp hf
    have hw := (workEntry_le P false d.cur).2 _ _ hent
    have hlt := (Dec.fetch_adv hf).1.length_lt
    have hdone : (Dec.itemDone d.lvls c1).2.rest.length ≤ c1.rest.length := by
      unfold Dec.itemDone
      split
      · exact Nat.le_refl _
      · split
        · exact adv_len _ _
        · exact Nat.le_refl _
      · exact Nat.le_refl _
    rw [← h.2]
    have e : d.workFetch P = workEntry P false d.cur := by
      unfold Dec.workFetch
      rw [if_neg (by simp_all)]
    simp only [Dec.done]
    omega

theorem workCritLoop_le {P : QParams} : ∀ (n : Nat) (d : Dec) (ni nt : Nat),
    workCritLoop P n d ni nt ≤ 2 * d.cur.rest.length + 2 := by
  intro n
  induction n with
  | zero => intro d ni nt; rw [workCritLoop]; omega
  | succ n ih =>
    intro d ni nt
    rw [workCritLoop]
    have hn : d.workNext P ≤ d.cur.rest.length + 2 := by
      unfold Dec.workNext Dec.workFetch
      split
      · omega
      · have := (workEntry_le P false d.cur).1; omega
    cases hg : d.getNext P with
    | mk r d1 =>
    cases r with
    | error e => simp only; omega
    | ok it =>
      have hw := workFetch_ok hg
      have hn2 : d.workNext P = d.workFetch P + 1 := rfl
      simp only
      split
      · split
        · omega
        · have := ih d1 (ni + 1) nt; omega
      · split
        · omega
        · have := ih d1 ni (nt + 1); omega
      · omega

theorem workCritical_le {N : Nat} {P : QParams} {d : Dec} (h : d.Sz N) (prot : Bool)
    (l : LabelList) : workCritical P d prot l ≤ 9 * N + 7 := by
  unfold workCritical
  have hw := workFromMap_le (P := P) h 2
  have h1 := fromMap_sz (P := P) (label := 2) h
  generalize d.enterArrayFromMap P 2 = d1 at h1 ⊢
  have h2 : Dec.Sz N { d1 with err := none } := ⟨h1.1, h1.2⟩
  simp only
  split
  · omega
  · split
    · omega
    · have hl := workCritLoop_le (P := P) (d1.cur.rest.length + 1) { d1 with err := none } 0 0
      have hc := critLoop_sz (P := P) (d1.cur.rest.length + 1) _ 0 0 l h2
      generalize critLoop P (d1.cur.rest.length + 1) { d1 with err := none } 0 0 l = x at hc ⊢
      obtain ⟨r, l', d3⟩ := x
      have hb := h1.1
      cases r with
      | error e => simp only at hl ⊢; omega
      | ok u =>
        have := workExit_le (P := P) hc
        simp only at hl this ⊢
        omega

theorem workHeader_le {N : Nat} {cfg : Config} {P : QParams} {prot : Bool} {st : Parse}
    (h : st.d.Sz N) : workHeader cfg P prot st ≤ 17 * N + 13 := by
  unfold workHeader
  have hw := workEnter_le (P := P) h
  have h1 := enterMap_sz (P := P) h
  generalize st.d.enterMap P = d1 at h1 ⊢
  have h2 := getItems_sz (P := P) (qs := headerQs) (cb := headerCb) (s := ⟨st.unk, .ok ()⟩) h1
  have hw2 := workItems_le (P := P) h1 headerQs headerCb ⟨st.unk, .ok ()⟩
  simp only
  generalize d1.getItemsInMap P headerQs headerCb ⟨st.unk, .ok ()⟩ = x at h2 ⊢
  obtain ⟨d2, found, cb⟩ := x
  simp only at h2 ⊢
  split
  · omega
  · split
    · omega
    · have hw3 := workCritical_le (P := P) h2 prot st.crit
      have h3 := critical_sz (P := P) (prot := prot) (l := st.crit) h2
      generalize decodeCritical P d2 prot st.crit = y at h3 ⊢
      obtain ⟨r, crit, d3⟩ := y
      have := workExit_le (P := P) h3
      simp only at this ⊢
      omega

theorem takePayload_sz {N : Nat} {P : QParams} {d d' : Dec} {pay : VPayload} {junk : UB}
    {b : Buf} (h : d.Sz N) (ht : takePayload P d pay junk = .ok (d', b)) : d'.Sz N := by
  unfold takePayload at ht
  split at ht
  · have hg := getNext_sz (P := P) h
    generalize d.getNext P = x at hg ht
    obtain ⟨r, d1⟩ := x
    cases r with
    | error e => simp at ht
    | ok it =>
      simp only at ht
      split at ht
      · simp only [Except.ok.injEq, Prod.mk.injEq] at ht
        rw [← ht.1]; exact hg
      · simp at ht
  · simp only [Except.ok.injEq, Prod.mk.injEq] at ht
    rw [← ht.1]; exact getByteString_sz h

theorem parseProtected_sz {N : Nat} {cfg : Config} {P : QParams} {prot : Buf} {st : Parse}
    (h : st.d.Sz N) : (parseProtected cfg P prot st).2.d.Sz N := by
  unfold parseProtected
  split
  · exact header_sz h
  · exact h

theorem workBody_le {N : Nat} {cfg : Config} {P : QParams} {d : Dec} {pay : VPayload}
    {junk : Junk} (h : d.Sz N) : workBody cfg P d pay junk ≤ 40 * N + 36 := by
  unfold workBody
  have hw := workEnter_le (P := P) h
  have h1 := enterBstr_sz (P := P) h
  generalize d.enterBstrWrapped P = x at h1 ⊢
  obtain ⟨d1, out⟩ := x
  simp only at h1 ⊢
  have hst : Dec.Sz N (Parse.mk d1 Params.clear LabelList.clear LabelList.clear).d := h1
  generalize Parse.mk d1 Params.clear LabelList.clear LabelList.clear = st at hst ⊢
  have hh : (if (wrapOut junk.prot out).ub.len ≠ 0 then workHeader cfg P true st else 0)
      ≤ 17 * N + 13 := by
    have := workHeader_le (cfg := cfg) (P := P) (prot := true) hst
    split <;> omega
  have h2 := parseProtected_sz (cfg := cfg) (P := P) (prot := wrapOut junk.prot out) hst
  generalize parseProtected cfg P (wrapOut junk.prot out) st = y at h2 ⊢
  obtain ⟨r, st2⟩ := y
  simp only at h2
  cases r with
  | error e => simp only; omega
  | ok u =>
    have h3 : Dec.Sz N ({ st2 with d := st2.d.exitBstrWrapped } : Parse).d := exitBstr_sz h2
    simp only
    generalize ({ st2 with d := st2.d.exitBstrWrapped } : Parse) = st3 at h3 ⊢
    have hh2 := workHeader_le (cfg := cfg) (P := P) (prot := false) h3
    have h4 := header_sz (cfg := cfg) (P := P) (prot := false) h3
    generalize parseHeader cfg P false st3 = z at h4 ⊢
    obtain ⟨r, st4⟩ := z
    simp only at h4
    cases r with
    | error e => simp only; omega
    | ok u =>
      simp only
      have hn := workNext_le (P := P) h4
      have hn' := workEnter_le (P := P) h4
      cases ht : takePayload P st4.d pay junk.payload with
      | error e => cases pay <;> simp only <;> omega
      | ok q =>
        obtain ⟨d5, b⟩ := q
        have h5 := takePayload_sz h4 ht
        have hw5 := workEnter_le (P := P) h5
        have hw6 := workExit_le (P := P) (getByteString_sz (P := P) h5)
        cases pay <;> simp only <;> omega

theorem verifyWork_le (cfg : Config) (P : QParams) (junk : Junk) (me : VerifyCtx) (msg : Bytes)
    (pay : VPayload) : verifyWork cfg P junk me msg pay ≤ 41 * msg.length + 38 := by
  unfold verifyWork
  have h0 : (Dec.init msg).Sz msg.length := ⟨Nat.le_refl _, by simp [Dec.init]⟩
  have hw := workEnter_le (P := P) h0
  have h1 := enterArray_sz (P := P) h0
  simp only
  generalize (Dec.init msg).enterArray P = d at h1 ⊢
  have hb := workBody_le (cfg := cfg) (P := P) (pay := pay) (junk := junk) h1
  split
  · omega
  · split
    · omega
    · omega

end TCose
