import Verif.Qcbor.Decode

/-!
# Decoder: cursors only move forward, strings are slices, fuel suffices
-/

namespace TCose

/-- `c'` is `k` octets ahead of `c` in the same window. -/
def AdvBy (k : Nat) (c c' : Cur) : Prop := k ≤ c.rest.length ∧ c' = c.adv k

/-- `c'` is at or behind `c`. -/
def Adv (c c' : Cur) : Prop := ∃ k, AdvBy k c c'

/-- `c'` is strictly behind `c`. -/
def Adv1 (c c' : Cur) : Prop := ∃ k, 0 < k ∧ AdvBy k c c'

theorem Adv.refl (c : Cur) : Adv c c :=
  ⟨0, Nat.zero_le _, by simp [Cur.adv]⟩

theorem adv_adv (c : Cur) (j k : Nat) : (c.adv j).adv k = c.adv (j + k) := by
  simp [Cur.adv, Nat.add_assoc]

theorem AdvBy.trans {j k : Nat} {a b c : Cur} (h1 : AdvBy j a b) (h2 : AdvBy k b c) :
    AdvBy (j + k) a c := by
  obtain ⟨hl, rfl⟩ := h1
  obtain ⟨hm, rfl⟩ := h2
  refine ⟨?_, adv_adv _ _ _⟩
  simp only [Cur.adv, List.length_drop] at hm
  omega

theorem Adv.trans {a b c : Cur} (h1 : Adv a b) (h2 : Adv b c) : Adv a c := by
  obtain ⟨j, hj⟩ := h1
  obtain ⟨k, hk⟩ := h2
  exact ⟨j + k, hj.trans hk⟩

theorem Adv1.adv {a b : Cur} (h : Adv1 a b) : Adv a b := by
  obtain ⟨k, _, hk⟩ := h
  exact ⟨k, hk⟩

theorem Adv1.trans_adv {a b c : Cur} (h1 : Adv1 a b) (h2 : Adv b c) : Adv1 a c := by
  obtain ⟨j, hj0, hj⟩ := h1
  obtain ⟨k, hk⟩ := h2
  exact ⟨j + k, by omega, hj.trans hk⟩

theorem Adv.trans_adv1 {a b c : Cur} (h1 : Adv a b) (h2 : Adv1 b c) : Adv1 a c := by
  obtain ⟨j, hj⟩ := h1
  obtain ⟨k, hk0, hk⟩ := h2
  exact ⟨j + k, by omega, hj.trans hk⟩

theorem AdvBy.length {k : Nat} {a b : Cur} (h : AdvBy k a b) :
    b.rest.length + k = a.rest.length := by
  obtain ⟨hl, rfl⟩ := h
  simp only [Cur.adv, List.length_drop]
  omega

theorem Adv.length_le {a b : Cur} (h : Adv a b) : b.rest.length ≤ a.rest.length := by
  obtain ⟨k, hk⟩ := h
  have := hk.length
  omega

theorem Adv1.length_lt {a b : Cur} (h : Adv1 a b) : b.rest.length < a.rest.length := by
  obtain ⟨k, h0, hk⟩ := h
  have := hk.length
  omega

/-- `s` is a slice of the window at `c`. -/
def StrIn (c : Cur) (s : Str) : Prop :=
  ∃ k n, k + n ≤ c.rest.length ∧ s = ⟨c.pos + k, (c.rest.drop k).take n⟩

theorem StrIn.of_adv {a b : Cur} {s : Str} (h : Adv a b) (hs : StrIn b s) : StrIn a s := by
  obtain ⟨j, hj, rfl⟩ := h
  obtain ⟨k, n, hkn, rfl⟩ := hs
  refine ⟨j + k, n, ?_, ?_⟩
  · simp only [Cur.adv, List.length_drop] at hkn
    omega
  · simp [Cur.adv, Nat.add_assoc]

/-- All strings in a value are slices of the window at `c`. -/
def ValIn (c : Cur) : Val → Prop
  | .bstr s => StrIn c s
  | .tstr s => StrIn c s
  | _ => True

theorem ValIn.of_adv {a b : Cur} {v : Val} (h : Adv a b) (hv : ValIn b v) : ValIn a v := by
  cases v <;> first | exact StrIn.of_adv h hv | exact trivial

theorem adv1_cons {c : Cur} {b : UInt8} {r : Bytes} (h : c.rest = b :: r) :
    Adv1 c ⟨c.pos + 1, r⟩ := by
  refine ⟨1, by omega, ?_, ?_⟩
  · rw [h]; simp
  · simp [Cur.adv, h]

theorem decodeHead_adv {c c1 : Cur} {r : Except QErr (Nat × Nat × Nat)}
    (h : decodeHead c = (r, c1)) : r = .error .hitEnd ∨ Adv1 c c1 := by
  unfold decodeHead at h
  split at h
  · rename_i hr
    left; simp only [Prod.mk.injEq] at h; exact h.1.symm
  · rename_i b t hr
    have ha := adv1_cons hr
    simp only at h
    split at h
    · simp only [Prod.mk.injEq] at h
      right; rw [← h.2]; exact ha
    · split at h
      · split at h
        · left; simp only [Prod.mk.injEq] at h; exact h.1.symm
        · rename_i hk
          simp only [Prod.mk.injEq] at h
          right; rw [← h.2]
          exact ha.trans_adv ⟨_, Nat.le_of_not_lt hk, rfl⟩
      · split at h <;>
        · simp only [Prod.mk.injEq] at h
          right; rw [← h.2]; exact ha

theorem decodeHead_no_fuel {c c1 : Cur} : decodeHead c ≠ (.error .fuel, c1) := by
  intro h
  unfold decodeHead at h
  split at h
  · simp at h
  · simp only at h
    split at h
    · simp at h
    · split at h
      · split at h <;> simp at h
      · split at h <;> simp at h

/-- A decoded atom is behind the start, its strings are slices, unless the
input ended. -/
theorem decodeAtom_adv {c c1 : Cur} {r : Except QErr Atom} (h : decodeAtom c = (r, c1)) :
    (∃ e, r = .error e ∧ e.unrec = true ∧ e ≠ .fuel) ∨
    (Adv1 c c1 ∧ (∀ e, r = .error e → e.unrec = false) ∧
      ∀ v, r = .ok (.val v) → ValIn c v) := by
  unfold decodeAtom at h
  cases hh : decodeHead c with
  | mk r0 c0 =>
    have hadv := decodeHead_adv hh
    rw [hh] at h
    cases r0 with
    | error e =>
      simp only [Prod.mk.injEq] at h
      obtain ⟨rfl, rfl⟩ := h
      by_cases he : e.unrec = true
      · refine .inl ⟨e, rfl, he, ?_⟩
        rintro rfl
        exact decodeHead_no_fuel hh
      · rcases hadv with h1 | h1
        · cases h1; simp [QErr.unrec] at he
        · refine .inr ⟨h1, ?_, by simp⟩
          intro e' h'
          cases h'
          simpa using he
    | ok p =>
      obtain ⟨major, ai, arg⟩ := p
      have hadv : Adv1 c c0 := by
        rcases hadv with h1 | h1
        · cases h1
        · exact h1
      have hstr : ∀ mk : Str → Val, (mk = .bstr ∨ mk = .tstr) →
          decodeStr mk ai arg c0 = (r, c1) →
          (∃ e, r = .error e ∧ e.unrec = true ∧ e ≠ .fuel) ∨
          (Adv1 c c1 ∧ (∀ e, r = .error e → e.unrec = false) ∧
            ∀ v, r = .ok (.val v) → ValIn c v) := by
        intro mk hmk h
        unfold decodeStr at h
        split at h
        · simp only [Prod.mk.injEq] at h
          exact .inl ⟨_, h.1.symm, rfl, by simp⟩
        · split at h
          · simp only [Prod.mk.injEq] at h
            exact .inl ⟨_, h.1.symm, rfl, by simp⟩
          · rename_i hlen
            simp only [Prod.mk.injEq] at h
            obtain ⟨rfl, rfl⟩ := h
            refine .inr ⟨hadv.trans_adv ⟨_, Nat.le_of_not_lt hlen, rfl⟩, by simp, ?_⟩
            intro v hv
            simp only [Except.ok.injEq, Atom.val.injEq] at hv
            have hs : StrIn c0 ⟨c0.pos, c0.rest.take arg⟩ :=
              ⟨0, arg, by omega, by simp⟩
            subst hv
            rcases hmk with rfl | rfl <;> exact hs.of_adv hadv.adv
      have hplain : ∀ x : Except QErr Atom, (x, c0) = (r, c1) →
          (∀ e, x = .error e → e ≠ .fuel) →
          (∀ v, x = .ok (.val v) → ValIn c v) →
          (∃ e, r = .error e ∧ e.unrec = true ∧ e ≠ .fuel) ∨
          (Adv1 c c1 ∧ (∀ e, r = .error e → e.unrec = false) ∧
            ∀ v, r = .ok (.val v) → ValIn c v) := by
        intro x hx hf hv
        simp only [Prod.mk.injEq] at hx
        obtain ⟨rfl, rfl⟩ := hx
        cases x with
        | ok a => exact .inr ⟨hadv, by simp, hv⟩
        | error e =>
          by_cases he : e.unrec = true
          · exact .inl ⟨e, rfl, he, hf e rfl⟩
          · refine .inr ⟨hadv, ?_, by simp⟩
            intro e' h'; cases h'; simpa using he
      simp only at h
      split at h
      · refine hplain _ h ?_ ?_
        · intro e; split <;> intro h' <;> cases h'; simp
        · intro v; split
          · intro h'; cases h'
          · split <;> intro h' <;> cases h' <;> exact trivial
      · split at h
        · refine hplain _ h ?_ ?_
          · intro e; split
            · intro h'; cases h'; simp
            · split <;> intro h' <;> cases h'; simp
          · intro v; split
            · intro h'; cases h'
            · split <;> intro h' <;> cases h'; exact trivial
        · split at h
          · exact hstr _ (.inl rfl) h
          · split at h
            · exact hstr _ (.inr rfl) h
            · split at h
              · refine hplain _ h ?_ ?_
                · intro e; split
                  · intro h'; cases h'
                  · split <;> intro h' <;> cases h'; simp
                · intro v; split
                  · intro h'; cases h'; exact trivial
                  · split <;> intro h' <;> cases h'; exact trivial
              · split at h
                · refine hplain _ h ?_ ?_
                  · intro e; split
                    · intro h'; cases h'
                    · split <;> intro h' <;> cases h'; simp
                  · intro v; split
                    · intro h'; cases h'; exact trivial
                    · split <;> intro h' <;> cases h'; exact trivial
                · split at h
                  · refine hplain _ h ?_ ?_
                    · intro e; split <;> intro h' <;> cases h'; simp
                    · intro v; split <;> intro h' <;> cases h'
                  · refine hplain _ h ?_ ?_
                    · intro e; unfold decodeType7; split
                      · intro h'; cases h'
                      · split
                        · intro h'; cases h'
                        · split <;> intro h' <;> cases h'; simp
                    · intro v; unfold decodeType7; split
                      · intro h'; cases h'; exact trivial
                      · split
                        · intro h'; cases h'; exact trivial
                        · split <;> intro h' <;> cases h'; exact trivial

/-- Errors that can come with an item (as opposed to those that searches and
level bookkeeping report). -/
def QErr.ofItem : QErr → Bool
  | .noMoreItems | .labelNotFound | .callbackFail => false
  | _ => true

/-- Outcome of fetching an item: unrecoverable error, or a strictly later
position and strings that are slices. -/
def ItmOk (c : Cur) : Except QErr Itm × Cur → Prop
  | (.error e, _) => e.unrec = true ∧ e ≠ .fuel
  | (.ok it, c1) => Adv1 c c1 ∧ ValIn c it.val ∧
      (∀ e, it.err = some e → e.unrec = false ∧ e.ofItem = true)

theorem decodeAtom_noMore {c c1 : Cur} : decodeAtom c ≠ (.error .noMoreItems, c1) := by
  intro h
  unfold decodeAtom at h
  cases hh : decodeHead c with
  | mk r0 c0 =>
    rw [hh] at h
    cases r0 with
    | error e =>
      simp only [Prod.mk.injEq, Except.error.injEq] at h
      obtain ⟨rfl, rfl⟩ := h
      unfold decodeHead at hh
      split at hh
      · simp at hh
      · simp only at hh
        split at hh
        · simp at hh
        · split at hh
          · split at hh <;> simp at hh
          · split at hh <;> simp at hh
    | ok p =>
      obtain ⟨major, ai, arg⟩ := p
      simp only [decodeStr, decodeType7] at h
      repeat' split at h
      all_goals simp at h
      all_goals
        first
        | (obtain ⟨h, -⟩ := h; repeat' split at h) <;> simp at h
        | skip

theorem decodeAtom_notFound {c c1 : Cur} : decodeAtom c ≠ (.error .labelNotFound, c1) := by
  intro h
  unfold decodeAtom at h
  cases hh : decodeHead c with
  | mk r0 c0 =>
    rw [hh] at h
    cases r0 with
    | error e =>
      simp only [Prod.mk.injEq, Except.error.injEq] at h
      obtain ⟨rfl, rfl⟩ := h
      unfold decodeHead at hh
      split at hh
      · simp at hh
      · simp only at hh
        split at hh
        · simp at hh
        · split at hh
          · split at hh <;> simp at hh
          · split at hh <;> simp at hh
    | ok p =>
      obtain ⟨major, ai, arg⟩ := p
      simp only [decodeStr, decodeType7] at h
      repeat' split at h
      all_goals simp at h
      all_goals
        first
        | (obtain ⟨h, -⟩ := h; repeat' split at h) <;> simp at h
        | skip

theorem decodeAtom_cbFail {c c1 : Cur} : decodeAtom c ≠ (.error .callbackFail, c1) := by
  intro h
  unfold decodeAtom at h
  cases hh : decodeHead c with
  | mk r0 c0 =>
    rw [hh] at h
    cases r0 with
    | error e =>
      simp only [Prod.mk.injEq, Except.error.injEq] at h
      obtain ⟨rfl, rfl⟩ := h
      unfold decodeHead at hh
      split at hh
      · simp at hh
      · simp only at hh
        split at hh
        · simp at hh
        · split at hh
          · split at hh <;> simp at hh
          · split at hh <;> simp at hh
    | ok p =>
      obtain ⟨major, ai, arg⟩ := p
      simp only [decodeStr, decodeType7] at h
      repeat' split at h
      all_goals simp at h
      all_goals
        first
        | (obtain ⟨h, -⟩ := h; repeat' split at h) <;> simp at h
        | skip

theorem decodeAtom_ofItem {c c1 : Cur} {x : QErr} (hx : x.ofItem = false) :
    decodeAtom c ≠ (.error x, c1) := by
  cases x <;> first
    | exact decodeAtom_noMore
    | exact decodeAtom_notFound
    | exact decodeAtom_cbFail
    | cases hx

theorem nextTagged_ok (P : QParams) : ∀ (n : Nat) (c : Cur) (tags : List Nat) (over : Bool),
    c.rest.length < n → ItmOk c (nextTagged P n c tags over) := by
  intro n
  induction n with
  | zero => intro c _ _ h; omega
  | succ n ih =>
    intro c tags over hn
    rw [nextTagged]
    cases hh : decodeAtom c with
    | mk r c1 =>
      have hadv := decodeAtom_adv hh
      cases r with
      | error e =>
        rcases hadv with ⟨e', he, hu, hf⟩ | ⟨ha, he, -⟩
        · cases he
          simp only [if_pos hu]
          exact ⟨hu, hf⟩
        · have := he e rfl
          have hnm : e.ofItem = true := by
            cases hx : e.ofItem with
            | true => rfl
            | false => exact absurd hh (decodeAtom_ofItem hx)
          simp only [this]
          refine ⟨ha, trivial, ?_⟩
          intro e' h'
          cases h'
          exact ⟨this, hnm⟩
      | ok a =>
        rcases hadv with ⟨e', he, -⟩ | ⟨ha, -, hv⟩
        · cases he
        · cases a with
          | val v =>
            refine ⟨ha, hv v rfl, ?_⟩
            intro e h'
            simp only at h'
            split at h'
            · cases h'; exact ⟨rfl, rfl⟩
            · cases h'
          | tag t =>
            have hlt := ha.length_lt
            have key : ∀ tags over, ItmOk c (nextTagged P n c1 tags over) := by
              intro tags over
              have := ih c1 tags over (by omega)
              generalize nextTagged P n c1 tags over = x at this ⊢
              obtain ⟨r, c2⟩ := x
              cases r with
              | error e => exact this
              | ok it =>
                obtain ⟨h1, h2, h3⟩ := this
                exact ⟨ha.adv.trans_adv1 h1, h2.of_adv ha.adv, h3⟩
            simp only
            split
            · exact key _ _
            · exact key _ _

theorem nextRaw_ok (P : QParams) (c : Cur) : ItmOk c (nextRaw P c) :=
  nextTagged_ok P _ c _ _ (Nat.lt_succ_self _)

theorem tagContent_val (P : QParams) (it : Itm) :
    (tagContent P it).val = it.val ∨ (tagContent P it).val = .other := by
  unfold tagContent
  split
  · exact .inl rfl
  · split
    · exact .inl rfl
    · exact .inl rfl
    · exact .inl rfl
    · split
      · exact .inl rfl
      · exact .inr rfl
      · exact .inr rfl

theorem tagContent_err (P : QParams) (it : Itm) :
    (tagContent P it).err = it.err ∨ (tagContent P it).err = some .tagContent := by
  unfold tagContent
  split
  · exact .inl rfl
  · split
    · exact .inl rfl
    · exact .inl rfl
    · exact .inl rfl
    · split
      · exact .inl rfl
      · exact .inl rfl
      · exact .inr rfl

theorem tagContent_tags (P : QParams) (it : Itm) : (tagContent P it).tags = it.tags := by
  unfold tagContent
  split
  · rfl
  · split
    · rfl
    · rfl
    · rfl
    · split <;> rfl

theorem nextItem_ok (P : QParams) (c : Cur) : ItmOk c (nextItem P c) := by
  unfold nextItem
  have h := nextRaw_ok P c
  generalize nextRaw P c = x at h ⊢
  obtain ⟨r, c1⟩ := x
  cases r with
  | error e => exact h
  | ok it =>
    obtain ⟨h1, h2, h3⟩ := h
    refine ⟨h1, ?_, ?_⟩
    · rcases tagContent_val P it with hv | hv <;> rw [hv]
      · exact h2
      · exact trivial
    · intro e he
      rcases tagContent_err P it with hv | hv <;> rw [hv] at he
      · exact h3 e he
      · cases he; exact ⟨rfl, rfl⟩

/-- The label, if any, is a slice of the window too. -/
def LabelIn (c : Cur) : Option Val → Prop
  | none => True
  | some v => ValIn c v ∧ v.isLabel = true

/-- Outcome of fetching a map or array entry. -/
def EntOk (c : Cur) : Except QErr (Option Val × Itm) × Cur → Prop
  | (.error e, _) => e.unrec = true ∧ e ≠ .fuel
  | (.ok (l, it), c1) => Adv1 c c1 ∧ LabelIn c l ∧ ValIn c it.val ∧ it.val ≠ .brk ∧
      (∀ e, it.err = some e → e.unrec = false ∧ e.ofItem = true)

theorem Val.isLabel_ne_brk {v : Val} (h : v.isLabel = true) : v ≠ .brk := by
  intro e; subst e; cases h

theorem entry_ok (P : QParams) (m : Bool) (c : Cur) : EntOk c (entry P m c) := by
  unfold entry
  cases m with
  | false =>
    simp only [Bool.false_eq_true, if_false]
    have h := nextItem_ok P c
    generalize nextItem P c = x at h ⊢
    obtain ⟨r, c1⟩ := x
    cases r with
    | error e => exact h
    | ok it =>
      simp only
      split
      · exact ⟨rfl, by simp⟩
      · rename_i hb
        exact ⟨h.1, trivial, h.2.1, hb, h.2.2⟩
  | true =>
    simp only [if_true]
    have h := nextRaw_ok P c
    generalize nextRaw P c = x at h ⊢
    obtain ⟨r, c1⟩ := x
    cases r with
    | error e => exact h
    | ok l =>
      obtain ⟨h1, h2, h3⟩ := h
      simp only
      cases hl : l.err with
      | some e =>
        refine ⟨h1, trivial, trivial, by simp, ?_⟩
        intro e' he'
        cases he'
        exact h3 e hl
      | none =>
        have g := nextItem_ok P c1
        simp only
        by_cases hbrk : l.val = .brk
        · rw [if_pos hbrk]; exact ⟨rfl, by simp⟩
        rw [if_neg hbrk]
        generalize nextItem P c1 = y at g ⊢
        obtain ⟨r, c2⟩ := y
        cases r with
        | error e => exact g
        | ok it =>
          simp only
          split
          · rename_i hlab
            split
            · exact ⟨rfl, by simp⟩
            · rename_i hb
              exact ⟨h1.trans_adv g.1.adv, ⟨h2, hlab⟩, g.2.1.of_adv h1.adv, hb, g.2.2⟩
          · exact ⟨rfl, by simp⟩

theorem ascend_adv : ∀ (st : List NLvl) (c : Cur), Adv c (ascend st c).2
  | [], c => Adv.refl c
  | ⟨m, some n⟩ :: st, c => by
    rw [ascend]
    split
    · exact ascend_adv st c
    · exact Adv.refl c
  | ⟨m, none⟩ :: st, c => by
    rw [ascend]
    split
    · rename_i h
      refine Adv.trans ?_ (ascend_adv st _)
      cases hc : c.rest with
      | nil => rw [hc] at h; simp at h
      | cons b r => exact ⟨1, by rw [hc]; simp, rfl⟩
    · exact Adv.refl c

theorem push_adv {room : Nat} {v : Val} {st st' : List NLvl} {c c' : Cur}
    (h : push room v st c = .ok (st', c')) : Adv c c' := by
  unfold push at h
  have base : ∀ s, Except.ok (ε := QErr) (ascend s c) = .ok (st', c') → Adv c c' := by
    intro s hs
    simp only [Except.ok.injEq] at hs
    have := ascend_adv s c
    rw [hs] at this
    exact this
  simp only at h
  split at h
  · split at h
    · exact base _ h
    · split at h
      · cases h
      · simp only [Except.ok.injEq, Prod.mk.injEq] at h
        rw [← h.2]; exact Adv.refl c
    · split at h
      · cases h
      · exact base _ h
  · split at h
    · exact base _ h
    · split at h
      · cases h
      · simp only [Except.ok.injEq, Prod.mk.injEq] at h
        rw [← h.2]; exact Adv.refl c
    · split at h
      · cases h
      · exact base _ h
  · exact base _ h

theorem push_no_fuel {room : Nat} {v : Val} {st : List NLvl} {c : Cur} {e : QErr}
    (h : push room v st c = .error e) : e = .nestingTooDeep := by
  unfold push at h
  simp only at h
  split at h
  · split at h
    · cases h
    · split at h <;> cases h; rfl
    · split at h <;> cases h; rfl
  · split at h
    · cases h
    · split at h <;> cases h; rfl
    · split at h <;> cases h; rfl
  · cases h

/-- Outcome of stepping over items: a later position, or an error that is not
the fuel error. -/
def CurRes (c : Cur) : Except QErr Cur → Prop
  | .error e => e ≠ .fuel
  | .ok c1 => Adv c c1

theorem skip_ok (P : QParams) (room : Nat) : ∀ (n : Nat) (st : List NLvl) (c : Cur),
    c.rest.length < n → CurRes c (skip P room n st c) := by
  intro n
  induction n with
  | zero => intro st c h; omega
  | succ n ih =>
    intro st c hn
    cases st with
    | nil => rw [skip]; exact Adv.refl c
    | cons l st =>
      rw [skip]
      split
      · exact fun h => by cases h
      · have he := entry_ok P l.isMap c
        generalize entry P l.isMap c = x at he ⊢
        obtain ⟨r, c1⟩ := x
        cases r with
        | error e => exact he.2
        | ok p =>
          obtain ⟨lab, it⟩ := p
          obtain ⟨ha, -⟩ := he
          simp only
          cases hp : push room it.val (l :: st) c1 with
          | error e => rw [push_no_fuel hp]; exact fun h => by cases h
          | ok q =>
            obtain ⟨st', c2⟩ := q
            have ha2 := push_adv hp
            have hlt := (ha.trans_adv ha2).length_lt
            have := ih st' c2 (by omega)
            simp only
            generalize skip P room n st' c2 = y at this ⊢
            cases y with
            | error e => exact this
            | ok c3 => exact (ha.adv.trans ha2).trans this

theorem skipAll_ok (P : QParams) (room : Nat) (st : List NLvl) (c : Cur) :
    CurRes c (skipAll P room st c) :=
  skip_ok P room _ st c (Nat.lt_succ_self _)

theorem skipValue_ok (P : QParams) (room : Nat) (v : Val) (c : Cur) :
    CurRes c (skipValue P room v c) := by
  unfold skipValue
  cases hp : push room v [] c with
  | error e => rw [push_no_fuel hp]; exact fun h => by cases h
  | ok q =>
    obtain ⟨st', c2⟩ := q
    have ha2 := push_adv hp
    have := skipAll_ok P room st' c2
    simp only
    generalize skipAll P room st' c2 = y at this ⊢
    cases y with
    | error e => exact this
    | ok c3 => exact ha2.trans this

end TCose
