import Verif.Lemmas.VerifyMain

/-!
# What was decoded does not depend on what follows it

Octets appended to the input change nothing about an item, or a container, that
was decoded successfully without them.
-/

namespace TCose
open Spec

def Cur.ext (x : Bytes) (c : Cur) : Cur := ⟨c.pos, c.rest ++ x⟩

theorem Cur.ext_adv {x : Bytes} {n : Nat} {c : Cur} (h : n ≤ c.rest.length) :
    (c.ext x).adv n = (c.adv n).ext x := by
  simp [Cur.ext, Cur.adv, List.drop_append_of_le_length h]

theorem decodeHead_ext {x : Bytes} {c c1 : Cur} {r : Except QErr (Nat × Nat × Nat)}
    (h : decodeHead c = (r, c1)) (hr : r ≠ .error .hitEnd) :
    decodeHead (c.ext x) = (r, c1.ext x) := by
  obtain ⟨pos, rest⟩ := c
  unfold decodeHead Cur.ext at *
  simp only at h ⊢
  cases rest with
  | nil => simp only [Prod.mk.injEq] at h; exact absurd h.1.symm hr
  | cons b t =>
    simp only [List.cons_append] at h ⊢
    by_cases h1 : b.toNat % 32 < 24
    · rw [if_pos h1] at h ⊢
      obtain ⟨rfl, rfl⟩ := Prod.mk.inj h
      rfl
    · rw [if_neg h1] at h ⊢
      by_cases h2 : b.toNat % 32 < 28
      · rw [if_pos h2] at h ⊢
        by_cases h3 : t.length < 2 ^ (b.toNat % 32 - 24)
        · rw [if_pos h3] at h
          simp only [Prod.mk.injEq] at h; exact absurd h.1.symm hr
        · rw [if_neg h3] at h
          have h3' : 2 ^ (b.toNat % 32 - 24) ≤ t.length := by omega
          rw [if_neg (by rw [List.length_append]; omega)]
          obtain ⟨rfl, rfl⟩ := Prod.mk.inj h
          simp [Cur.adv, List.take_append_of_le_length h3', List.drop_append_of_le_length h3']
      · rw [if_neg h2] at h ⊢
        by_cases h3 : b.toNat % 32 < 31
        · rw [if_pos h3] at h ⊢
          obtain ⟨rfl, rfl⟩ := Prod.mk.inj h
          rfl
        · rw [if_neg h3] at h ⊢
          obtain ⟨rfl, rfl⟩ := Prod.mk.inj h
          rfl

theorem decodeStr_ext {x : Bytes} {mk : Str → Val} {ai arg : Nat} {c c1 : Cur}
    {r : Except QErr Atom} (h : decodeStr mk ai arg c = (r, c1)) (hr : r ≠ .error .hitEnd) :
    decodeStr mk ai arg (c.ext x) = (r, c1.ext x) := by
  unfold decodeStr at *
  by_cases h1 : ai = 31
  · rw [if_pos h1] at h ⊢
    obtain ⟨rfl, rfl⟩ := Prod.mk.inj h
    rfl
  · rw [if_neg h1] at h ⊢
    by_cases h2 : c.rest.length < arg
    · rw [if_pos h2] at h
      simp only [Prod.mk.injEq] at h; exact absurd h.1.symm hr
    · rw [if_neg h2] at h
      have h2' : arg ≤ c.rest.length := by omega
      rw [if_neg (by simp only [Cur.ext, List.length_append]; omega), Cur.ext_adv h2']
      obtain ⟨rfl, rfl⟩ := Prod.mk.inj h
      simp [Cur.ext, List.take_append_of_le_length h2']

theorem decodeAtom_ext {x : Bytes} {c c1 : Cur} {r : Except QErr Atom}
    (h : decodeAtom c = (r, c1)) (hr : r ≠ .error .hitEnd) :
    decodeAtom (c.ext x) = (r, c1.ext x) := by
  unfold decodeAtom at *
  cases hh : decodeHead c with
  | mk r0 c0 =>
    rw [hh] at h
    cases r0 with
    | error e =>
      simp only [Prod.mk.injEq] at h
      obtain ⟨rfl, rfl⟩ := h
      rw [decodeHead_ext hh (by intro hc; cases hc; exact hr rfl)]
    | ok q =>
      obtain ⟨major, ai, arg⟩ := q
      rw [decodeHead_ext hh (by intro hc; cases hc)]
      simp only at h ⊢
      split
      · rename_i hm
        rw [if_pos hm] at h
        obtain ⟨rfl, rfl⟩ := Prod.mk.inj h; rfl
      rename_i hm
      rw [if_neg hm] at h
      split
      · rename_i hm
        rw [if_pos hm] at h
        obtain ⟨rfl, rfl⟩ := Prod.mk.inj h; rfl
      rename_i hm
      rw [if_neg hm] at h
      split
      · rename_i hm
        rw [if_pos hm] at h
        exact decodeStr_ext h hr
      rename_i hm
      rw [if_neg hm] at h
      split
      · rename_i hm
        rw [if_pos hm] at h
        exact decodeStr_ext h hr
      rename_i hm
      rw [if_neg hm] at h
      split
      · rename_i hm
        rw [if_pos hm] at h
        obtain ⟨rfl, rfl⟩ := Prod.mk.inj h; rfl
      rename_i hm
      rw [if_neg hm] at h
      split
      · rename_i hm
        rw [if_pos hm] at h
        obtain ⟨rfl, rfl⟩ := Prod.mk.inj h; rfl
      rename_i hm
      rw [if_neg hm] at h
      split
      · rename_i hm
        rw [if_pos hm] at h
        obtain ⟨rfl, rfl⟩ := Prod.mk.inj h; rfl
      rename_i hm
      rw [if_neg hm] at h
      obtain ⟨rfl, rfl⟩ := Prod.mk.inj h; rfl

theorem nextTagged_ext {P : QParams} {x : Bytes} : ∀ {n m : Nat} {c c1 : Cur} {tags : List Nat}
    {over : Bool} {it : Itm}, n ≤ m → nextTagged P n c tags over = (.ok it, c1) →
    nextTagged P m (c.ext x) tags over = (.ok it, c1.ext x) := by
  intro n
  induction n with
  | zero => intro m c c1 tags over it _ h; cases h
  | succ n ih =>
    intro m c c1 tags over it hm h
    obtain ⟨m, rfl⟩ : ∃ k, m = k + 1 := ⟨m - 1, by omega⟩
    unfold nextTagged at h ⊢
    cases ha : decodeAtom c with
    | mk r c0 =>
      rw [ha] at h
      cases r with
      | error e =>
        simp only at h
        split at h
        · cases h
        · rename_i hu
          rw [decodeAtom_ext ha (by intro hc; cases hc; exact hu rfl)]
          simp only [Bool.not_eq_true] at hu
          simp only [hu]
          obtain ⟨h1, rfl⟩ := Prod.mk.inj h
          rw [h1]; rfl
      | ok a =>
        rw [decodeAtom_ext ha (by intro hc; cases hc)]
        cases a with
        | tag t =>
          simp only at h ⊢
          split
          · rename_i hl
            rw [if_pos hl] at h
            exact ih (by omega) h
          · rename_i hl
            rw [if_neg hl] at h
            exact ih (by omega) h
        | val v =>
          simp only at h ⊢
          obtain ⟨h1, rfl⟩ := Prod.mk.inj h
          rw [h1]

theorem nextRaw_ext {P : QParams} {x : Bytes} {c c1 : Cur} {it : Itm}
    (h : nextRaw P c = (.ok it, c1)) : nextRaw P (c.ext x) = (.ok it, c1.ext x) :=
  nextTagged_ext (by simp [Cur.ext]) h

theorem nextItem_ext {P : QParams} {x : Bytes} {c c1 : Cur} {it : Itm}
    (h : nextItem P c = (.ok it, c1)) : nextItem P (c.ext x) = (.ok it, c1.ext x) := by
  unfold nextItem at *
  cases hr : nextRaw P c with
  | mk r c0 =>
    rw [hr] at h
    cases r with
    | error e => cases h
    | ok i =>
      rw [nextRaw_ext hr]
      obtain ⟨h1, rfl⟩ := Prod.mk.inj h
      simp only
      rw [h1]

theorem entry_ext {P : QParams} {x : Bytes} {m : Bool} {c c1 : Cur} {q : Option Val × Itm}
    (h : entry P m c = (.ok q, c1)) : entry P m (c.ext x) = (.ok q, c1.ext x) := by
  unfold entry at *
  cases m with
  | true =>
    simp only [if_true] at h ⊢
    cases hr : nextRaw P c with
    | mk r c0 =>
      rw [hr] at h
      cases r with
      | error e => cases h
      | ok l =>
        rw [nextRaw_ext hr]
        simp only at h ⊢
        cases hle : l.err with
        | some e =>
          rw [hle] at h
          obtain ⟨h1, rfl⟩ := Prod.mk.inj h
          simp only
          rw [h1]
        | none =>
          rw [hle] at h
          simp only at h ⊢
          by_cases hb : l.val = .brk
          · rw [if_pos hb] at h; cases h
          · rw [if_neg hb] at h ⊢
            cases hi : nextItem P c0 with
            | mk r' c2 =>
              rw [hi] at h
              cases r' with
              | error e => cases h
              | ok v =>
                rw [nextItem_ext hi]
                simp only at h ⊢
                by_cases hl : l.val.isLabel = true
                · rw [if_pos hl] at h ⊢
                  by_cases hb2 : v.val = .brk
                  · rw [if_pos hb2] at h; cases h
                  · rw [if_neg hb2] at h ⊢
                    obtain ⟨h1, rfl⟩ := Prod.mk.inj h
                    rw [h1]
                · rw [if_neg hl] at h; cases h
  | false =>
    simp only [Bool.false_eq_true, if_false] at h ⊢
    cases hi : nextItem P c with
    | mk r' c2 =>
      rw [hi] at h
      cases r' with
      | error e => cases h
      | ok v =>
        rw [nextItem_ext hi]
        simp only at h ⊢
        by_cases hb2 : v.val = .brk
        · rw [if_pos hb2] at h; cases h
        · rw [if_neg hb2] at h ⊢
          obtain ⟨h1, rfl⟩ := Prod.mk.inj h
          rw [h1]

theorem head_ext {x r : Bytes} (h : r ≠ []) : (r ++ x).head? = r.head? := by
  cases r with
  | nil => exact absurd rfl h
  | cons a t => rfl

theorem ascend_ext {x : Bytes} : ∀ {st st' : List NLvl} {c c' : Cur}, ascend st c = (st', c') →
    (st' = [] ∨ c'.rest ≠ []) → ascend st (c.ext x) = (st', c'.ext x)
  | [], st', c, c', h, _ => by
    obtain ⟨rfl, rfl⟩ := Prod.mk.inj h; rfl
  | ⟨m, some n⟩ :: st, st', c, c', h, hn => by
    unfold ascend at h ⊢
    by_cases h1 : n ≤ 1
    · rw [if_pos h1] at h ⊢
      exact ascend_ext h hn
    · rw [if_neg h1] at h ⊢
      obtain ⟨rfl, rfl⟩ := Prod.mk.inj h; rfl
  | ⟨m, none⟩ :: st, st', c, c', h, hn => by
    unfold ascend at h ⊢
    by_cases h1 : c.rest.head? = some 0xff
    · rw [if_pos h1] at h
      have hne : c.rest ≠ [] := by intro hc; rw [hc] at h1; cases h1
      have hlen : 1 ≤ c.rest.length := by
        cases hc : c.rest with
        | nil => exact absurd hc hne
        | cons a t => simp
      rw [if_pos (by rw [← h1]; exact head_ext hne), Cur.ext_adv hlen]
      exact ascend_ext h hn
    · rw [if_neg h1] at h
      obtain ⟨rfl, rfl⟩ := Prod.mk.inj h
      have hne : c.rest ≠ [] := by
        rcases hn with hn | hn
        · cases hn
        · exact hn
      rw [if_neg (by intro hc; exact h1 (by rw [← hc]; exact (head_ext hne).symm))]

theorem push_ext {x : Bytes} {room : Nat} {v : Val} {st st' : List NLvl} {c c' : Cur}
    (h : push room v st c = .ok (st', c')) (hn : st' = [] ∨ c'.rest ≠ []) :
    push room v st (c.ext x) = .ok (st', c'.ext x) := by
  have base : ∀ s, (Except.ok (ascend s c) : Except QErr _) = .ok (st', c') →
      (Except.ok (ascend s (c.ext x)) : Except QErr _) = .ok (st', c'.ext x) := by
    intro s hs
    rw [ascend_ext (Except.ok.inj hs) hn]
  unfold push at *
  simp only at h ⊢
  cases v with
  | arr n =>
    simp only at h ⊢
    rcases n with _ | _ | n
    · simp only at h ⊢
      split at h
      · cases h
      · rename_i hl; rw [if_neg hl]; exact base _ h
    · exact base _ h
    · simp only at h ⊢
      split at h
      · cases h
      · rename_i hl
        rw [if_neg hl]
        obtain ⟨rfl, rfl⟩ := Prod.mk.inj (Except.ok.inj h); rfl
  | map n =>
    simp only at h ⊢
    rcases n with _ | _ | n
    · simp only at h ⊢
      split at h
      · cases h
      · rename_i hl; rw [if_neg hl]; exact base _ h
    · exact base _ h
    · simp only at h ⊢
      split at h
      · cases h
      · rename_i hl
        rw [if_neg hl]
        obtain ⟨rfl, rfl⟩ := Prod.mk.inj (Except.ok.inj h); rfl
  | _ => exact base _ h

theorem skip_ext {P : QParams} {x : Bytes} {room : Nat} : ∀ {n m : Nat} {st : List NLvl} {c c' : Cur},
    n ≤ m → skip P room n st c = .ok c' → skip P room m st (c.ext x) = .ok (c'.ext x) := by
  intro n
  induction n with
  | zero =>
    intro m st c c' _ h
    cases st with
    | nil =>
      unfold skip at h
      cases h
      cases m <;> rfl
    | cons l st => cases h
  | succ n ih =>
    intro m st c c' hm h
    obtain ⟨m, rfl⟩ : ∃ k, m = k + 1 := ⟨m - 1, by omega⟩
    cases st with
    | nil => cases h; rfl
    | cons l st =>
      unfold skip at h ⊢
      split at h
      · cases h
      · rename_i he
        have hne : c.rest ≠ [] := by simpa using he
        rw [if_neg (by simp [Cur.ext, hne])]
        cases hen : entry P l.isMap c with
        | mk r c1 =>
          rw [hen] at h
          cases r with
          | error e => cases h
          | ok q =>
            rw [entry_ext hen]
            simp only at h ⊢
            cases hp : push room q.2.val (l :: st) c1 with
            | error e => rw [hp] at h; cases h
            | ok w =>
              obtain ⟨st', c2⟩ := w
              rw [hp] at h
              simp only at h
              have hn : st' = [] ∨ c2.rest ≠ [] := by
                cases st' with
                | nil => exact .inl rfl
                | cons l' st'' =>
                  right
                  intro hc
                  cases n with
                  | zero => cases h
                  | succ n =>
                    unfold skip at h
                    rw [if_pos (by rw [hc]; rfl)] at h
                    cases h
              rw [push_ext hp hn]
              exact ih (by omega) h

theorem skipAll_ext {P : QParams} {x : Bytes} {room : Nat} {st : List NLvl} {c c' : Cur}
    (h : skipAll P room st c = .ok c') : skipAll P room st (c.ext x) = .ok (c'.ext x) :=
  skip_ext (by simp [Cur.ext]) h

theorem skipValue_ext {P : QParams} {x : Bytes} {room : Nat} {v : Val} {c c' : Cur}
    (h : skipValue P room v c = .ok c') : skipValue P room v (c.ext x) = .ok (c'.ext x) := by
  unfold skipValue at *
  cases hp : push room v [] c with
  | error e => rw [hp] at h; cases h
  | ok w =>
    obtain ⟨st, c1⟩ := w
    rw [hp] at h
    simp only at h
    have hn : st = [] ∨ c1.rest ≠ [] := by
      cases st with
      | nil => exact .inl rfl
      | cons l' st'' =>
        right
        intro hc
        unfold skipAll skip at h
        rw [if_pos (by rw [hc]; rfl)] at h
        cases h
    rw [push_ext hp hn]
    exact skipAll_ext h

def Spec.Entry.ext (x : Bytes) (e : Entry) : Entry := { e with cur := e.cur.ext x }

theorem traverse_ext {P : QParams} {x : Bytes} {mp : Bool} {room : Nat} : ∀ {n m : Nat}
    {left : Option Nat} {c c' : Cur} {es : List Entry},
    n ≤ m → traverse P mp room n left c = .ok (es, c') →
    traverse P mp room m left (c.ext x) = .ok (es.map (Entry.ext x), c'.ext x) := by
  intro n
  induction n with
  | zero => intro m left c c' es _ h; cases h
  | succ n ih =>
    intro m left c c' es hm h
    obtain ⟨m, rfl⟩ : ∃ k, m = k + 1 := ⟨m - 1, by omega⟩
    unfold traverse at h ⊢
    split at h
    · cases h
    · rename_i he
      have hne : c.rest ≠ [] := by simpa using he
      rw [if_neg (by simp [Cur.ext, hne])]
      cases hen : entry P mp c with
      | mk r c1 =>
        rw [hen] at h
        cases r with
        | error e => cases h
        | ok q =>
          obtain ⟨l, it⟩ := q
          rw [entry_ext hen]
          simp only at h ⊢
          cases hs : skipValue P room it.val c1 with
          | error e => rw [hs] at h; cases h
          | ok c2 =>
            rw [hs] at h
            rw [skipValue_ext hs]
            simp only at h ⊢
            cases ha : ascend [⟨mp, left⟩] c2 with
            | mk st c3 =>
              rw [ha] at h
              cases st with
              | nil =>
                rw [ascend_ext ha (.inl rfl)]
                obtain ⟨rfl, rfl⟩ := Prod.mk.inj (Except.ok.inj h)
                rfl
              | cons l' st' =>
                simp only at h
                have hn : c3.rest ≠ [] := by
                  intro hc
                  cases n with
                  | zero => cases h
                  | succ n =>
                    unfold traverse at h
                    rw [if_pos (by rw [hc]; rfl)] at h
                    cases h
                rw [ascend_ext ha (.inr hn)]
                simp only
                cases ht : traverse P mp room n l'.left c3 with
                | error e => rw [ht] at h; cases h
                | ok w =>
                  obtain ⟨es', c4⟩ := w
                  rw [ht] at h
                  rw [ih (by omega) ht]
                  obtain ⟨rfl, rfl⟩ := Prod.mk.inj (Except.ok.inj h)
                  rfl

theorem elements_ext {P : QParams} {x : Bytes} {mp : Bool} {room : Nat} {n : Option Nat}
    {c c' : Cur} {es : List Entry} (h : elements P mp room n c = .ok (es, c')) :
    elements P mp room n (c.ext x) = .ok (es.map (Entry.ext x), c'.ext x) := by
  unfold elements at *
  rcases n with _ | _ | k
  · simp only at h ⊢
    by_cases h1 : c.rest.head? = some 0xff
    · rw [if_pos h1] at h
      have hne : c.rest ≠ [] := by intro hc; rw [hc] at h1; cases h1
      have hlen : 1 ≤ c.rest.length := by
        cases hc : c.rest with
        | nil => exact absurd hc hne
        | cons a t => simp
      rw [if_pos (by rw [← h1]; exact head_ext hne), Cur.ext_adv hlen]
      obtain ⟨rfl, rfl⟩ := Prod.mk.inj (Except.ok.inj h); rfl
    · rw [if_neg h1] at h
      have hne : c.rest ≠ [] := by
        intro hc
        unfold traverse at h
        rw [if_pos (by rw [hc]; rfl)] at h
        cases h
      rw [if_neg (by intro hc; exact h1 (by rw [← hc]; exact (head_ext hne).symm))]
      exact traverse_ext (by simp [Cur.ext]) h
  · obtain ⟨rfl, rfl⟩ := Prod.mk.inj (Except.ok.inj h); rfl
  · exact traverse_ext (by simp [Cur.ext]) h

/-- No message is a proper prefix of another. -/
theorem Spec.IsView.prefix_free {P : QParams} {msg x : Bytes} {v v' : MsgView}
    (h : IsView P msg v) (h' : IsView P (msg ++ x) v') : x = [] := by
  obtain ⟨-, n, c1, e0, e1, e2, e3, cEnd, m, c2, he, hel, hend, -⟩ := h
  obtain ⟨-, n', c1', e0', e1', e2', e3', cEnd', m', c2', he', hel', hend', -⟩ := h'
  have h1 := entry_ext (x := x) he
  have h2 := elements_ext (x := x) hel
  change entry P false ⟨0, msg ++ x⟩ = _ at h1
  rw [h1] at he'
  simp only [Prod.mk.injEq, Except.ok.injEq, Itm.mk.injEq, Val.arr.injEq, true_and] at he'
  obtain ⟨⟨rfl, -⟩, rfl⟩ := he'
  rw [h2] at hel'
  simp only [Except.ok.injEq, Prod.mk.injEq] at hel'
  rw [← hel'.2] at hend'
  simpa [Cur.ext, hend] using hend'

end TCose
