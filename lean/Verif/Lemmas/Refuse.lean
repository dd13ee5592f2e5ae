import Verif.Lemmas.Extend

/-!
# A refusal that is not for want of input stays, whatever follows

Octets appended to the input change nothing about an error, unless the error was
running out of input.
-/

namespace TCose
open Spec

/-- Errors that do not come from running out of input. -/
abbrev QErr.stable (e : QErr) : Prop := e ≠ .hitEnd ∧ e ≠ .noMoreItems ∧ e ≠ .fuel

theorem nextTagged_err {P : QParams} {x : Bytes} : ∀ {n m : Nat} {c c1 : Cur} {tags : List Nat}
    {over : Bool} {e : QErr}, n ≤ m → nextTagged P n c tags over = (.error e, c1) → e.stable →
    nextTagged P m (c.ext x) tags over = (.error e, c1.ext x) := by
  intro n
  induction n with
  | zero => intro m c c1 tags over e _ h hs; cases h; exact absurd rfl hs.2.2
  | succ n ih =>
    intro m c c1 tags over e hm h hs
    obtain ⟨m, rfl⟩ : ∃ k, m = k + 1 := ⟨m - 1, by omega⟩
    unfold nextTagged at h ⊢
    cases ha : decodeAtom c with
    | mk r c0 =>
      rw [ha] at h
      cases r with
      | error e' =>
        simp only at h
        split at h
        · rename_i hu
          obtain ⟨h1, rfl⟩ := Prod.mk.inj h
          cases h1
          rw [decodeAtom_ext ha (by intro hc; cases hc; exact hs.1 rfl)]
          simp only [hu, if_true]
        · cases h
      | ok a =>
        rw [decodeAtom_ext ha (by intro hc; cases hc)]
        cases a with
        | tag t =>
          simp only at h ⊢
          split
          · rename_i hl
            rw [if_pos hl] at h
            exact ih (by omega) h hs
          · rename_i hl
            rw [if_neg hl] at h
            exact ih (by omega) h hs
        | val v => cases h

theorem nextRaw_err {P : QParams} {x : Bytes} {c c1 : Cur} {e : QErr}
    (h : nextRaw P c = (.error e, c1)) (hs : e.stable) :
    nextRaw P (c.ext x) = (.error e, c1.ext x) :=
  nextTagged_err (by simp [Cur.ext]) h hs

theorem nextItem_err {P : QParams} {x : Bytes} {c c1 : Cur} {e : QErr}
    (h : nextItem P c = (.error e, c1)) (hs : e.stable) :
    nextItem P (c.ext x) = (.error e, c1.ext x) := by
  unfold nextItem at *
  cases hr : nextRaw P c with
  | mk r c0 =>
    rw [hr] at h
    cases r with
    | error e' =>
      obtain ⟨h1, rfl⟩ := Prod.mk.inj h
      cases h1
      rw [nextRaw_err hr hs]
    | ok i => cases h

theorem entry_err {P : QParams} {x : Bytes} {m : Bool} {c c1 : Cur} {e : QErr}
    (h : entry P m c = (.error e, c1)) (hs : e.stable) :
    entry P m (c.ext x) = (.error e, c1.ext x) := by
  unfold entry at *
  cases m with
  | true =>
    simp only [if_true] at h ⊢
    cases hr : nextRaw P c with
    | mk r c0 =>
      rw [hr] at h
      cases r with
      | error e' =>
        obtain ⟨h1, rfl⟩ := Prod.mk.inj h
        cases h1
        rw [nextRaw_err hr hs]
      | ok l =>
        rw [nextRaw_ext hr]
        simp only at h ⊢
        cases hle : l.err with
        | some e' => rw [hle] at h; cases h
        | none =>
          rw [hle] at h
          simp only at h ⊢
          by_cases hb : l.val = .brk
          · rw [if_pos hb] at h ⊢
            obtain ⟨h1, rfl⟩ := Prod.mk.inj h
            rw [h1]
          · rw [if_neg hb] at h ⊢
            cases hi : nextItem P c0 with
            | mk r' c2 =>
              rw [hi] at h
              cases r' with
              | error e' =>
                obtain ⟨h1, rfl⟩ := Prod.mk.inj h
                cases h1
                rw [nextItem_err hi hs]
              | ok v =>
                rw [nextItem_ext hi]
                simp only at h ⊢
                by_cases hl : l.val.isLabel = true
                · rw [if_pos hl] at h ⊢
                  by_cases hb2 : v.val = .brk
                  · rw [if_pos hb2] at h ⊢
                    obtain ⟨h1, rfl⟩ := Prod.mk.inj h
                    rw [h1]
                  · rw [if_neg hb2] at h; cases h
                · rw [if_neg hl] at h ⊢
                  obtain ⟨h1, rfl⟩ := Prod.mk.inj h
                  rw [h1]
  | false =>
    simp only [Bool.false_eq_true, if_false] at h ⊢
    cases hi : nextItem P c with
    | mk r' c2 =>
      rw [hi] at h
      cases r' with
      | error e' =>
        obtain ⟨h1, rfl⟩ := Prod.mk.inj h
        cases h1
        rw [nextItem_err hi hs]
      | ok v =>
        rw [nextItem_ext hi]
        simp only at h ⊢
        by_cases hb2 : v.val = .brk
        · rw [if_pos hb2] at h ⊢
          obtain ⟨h1, rfl⟩ := Prod.mk.inj h
          rw [h1]
        · rw [if_neg hb2] at h; cases h

theorem push_err {x : Bytes} {room : Nat} {v : Val} {st : List NLvl} {c : Cur} {e : QErr}
    (h : push room v st c = .error e) : push room v st (c.ext x) = .error e := by
  unfold push at *
  simp only at h ⊢
  cases v with
  | arr n =>
    simp only at h ⊢
    rcases n with _ | _ | n
    · simp only at h ⊢
      split at h
      · rename_i hl; rw [if_pos hl]; exact h
      · cases h
    · cases h
    · simp only at h ⊢
      split at h
      · rename_i hl; rw [if_pos hl]; exact h
      · cases h
  | map n =>
    simp only at h ⊢
    rcases n with _ | _ | n
    · simp only at h ⊢
      split at h
      · rename_i hl; rw [if_pos hl]; exact h
      · cases h
    · cases h
    · simp only at h ⊢
      split at h
      · rename_i hl; rw [if_pos hl]; exact h
      · cases h
  | _ => cases h

theorem skip_err {P : QParams} {x : Bytes} {room : Nat} : ∀ {n m : Nat} {st : List NLvl} {c : Cur}
    {e : QErr}, n ≤ m → skip P room n st c = .error e → e.stable →
    skip P room m st (c.ext x) = .error e := by
  intro n
  induction n with
  | zero =>
    intro m st c e _ h hs
    cases st with
    | nil => cases h
    | cons l st => cases h; exact absurd rfl hs.2.2
  | succ n ih =>
    intro m st c e hm h hs
    obtain ⟨m, rfl⟩ : ∃ k, m = k + 1 := ⟨m - 1, by omega⟩
    cases st with
    | nil => cases h
    | cons l st =>
      unfold skip at h ⊢
      split at h
      · cases h; exact absurd rfl hs.2.1
      · rename_i he
        have hne : c.rest ≠ [] := by simpa using he
        rw [if_neg (by simp [Cur.ext, hne])]
        cases hen : entry P l.isMap c with
        | mk r c1 =>
          rw [hen] at h
          cases r with
          | error e' => cases h; rw [entry_err hen hs]
          | ok q =>
            rw [entry_ext hen]
            simp only at h ⊢
            cases hp : push room q.2.val (l :: st) c1 with
            | error e' =>
              rw [hp] at h; cases h
              rw [push_err hp]
            | ok w =>
              obtain ⟨st', c2⟩ := w
              rw [hp] at h
              simp only at h
              have hn : st' = [] ∨ c2.rest ≠ [] := by
                cases st' with
                | nil => exact .inl rfl
                | cons l' st'' =>
                  right
                  intro hc
                  cases n with
                  | zero => cases h; exact hs.2.2 rfl
                  | succ n =>
                    unfold skip at h
                    rw [if_pos (by rw [hc]; rfl)] at h
                    cases h
                    exact hs.2.1 rfl
              rw [push_ext hp hn]
              exact ih (by omega) h hs

theorem skipAll_err {P : QParams} {x : Bytes} {room : Nat} {st : List NLvl} {c : Cur} {e : QErr}
    (h : skipAll P room st c = .error e) (hs : e.stable) :
    skipAll P room st (c.ext x) = .error e :=
  skip_err (by simp [Cur.ext]) h hs

theorem skipValue_err {P : QParams} {x : Bytes} {room : Nat} {v : Val} {c : Cur} {e : QErr}
    (h : skipValue P room v c = .error e) (hs : e.stable) :
    skipValue P room v (c.ext x) = .error e := by
  unfold skipValue at *
  cases hp : push room v [] c with
  | error e' => rw [hp] at h; cases h; rw [push_err hp]
  | ok w =>
    obtain ⟨st, c1⟩ := w
    rw [hp] at h
    simp only at h
    have hn : st = [] ∨ c1.rest ≠ [] := by
      cases st with
      | nil => exact .inl rfl
      | cons l' st'' =>
        right
        intro hc
        unfold skipAll skip at h
        rw [if_pos (by rw [hc]; rfl)] at h
        cases h
        exact hs.2.1 rfl
    rw [push_ext hp hn]
    exact skipAll_err h hs

/-! ## Map search -/

def Found.ext (x : Bytes) (f : Found) : Found := f.map fun p => (p.1, p.2.1, p.2.2.ext x)

theorem Found.lookup_ext (x : Bytes) (i : Int) : ∀ f : Found,
    (Found.ext x f).lookup i = (f.lookup i).map fun p => (p.1, p.2.ext x)
  | [] => rfl
  | (k, v, c) :: f => by
    have ih := Found.lookup_ext x i f
    unfold Found.ext at ih ⊢
    simp only [List.map_cons, List.lookup]
    cases i == k
    · exact ih
    · rfl

/-- Results of a search, with the positions in the longer input. -/
def extF (x : Bytes) : Except QErr Found → Except QErr Found
  | .ok f => .ok (Found.ext x f)
  | .error e => .error e

theorem searchStep_ext {σ : Type} {x : Bytes} (qs : List (Int × QTyp))
    (cb : σ → Option Val → σ × Bool) (label : Option Val) (it : Itm) (c1 : Cur) (f : Found) (s : σ) :
    searchStep qs cb label it (c1.ext x) (f.ext x) s =
      (extF x (searchStep qs cb label it c1 f s).1, (searchStep qs cb label it c1 f s).2) := by
  unfold searchStep
  simp only
  have hun : (match cb s label with
      | (s', true) => ((.ok (f.ext x) : Except QErr Found), s')
      | (s', false) => (.error .callbackFail, s')) =
      (extF x (match cb s label with
        | (s', true) => ((.ok f : Except QErr Found), s')
        | (s', false) => (.error .callbackFail, s')).1,
       (match cb s label with
        | (s', true) => ((.ok f : Except QErr Found), s')
        | (s', false) => (.error .callbackFail, s')).2) := by
    rcases cb s label with ⟨s', b⟩
    cases b <;> rfl
  cases label with
  | none => exact hun
  | some v =>
    cases v with
    | int i =>
      simp only
      cases qs.lookup i with
      | none => exact hun
      | some t =>
        simp only [Found.lookup_ext, Option.isSome_map]
        split
        · rfl
        · cases it.err with
          | some e => rfl
          | none =>
            simp only
            split <;> rfl
    | _ => exact hun

theorem searchLoop_ext {P : QParams} {x : Bytes} {room : Nat} {σ : Type} {qs : List (Int × QTyp)}
    {cb : σ → Option Val → σ × Bool} : ∀ {n m : Nat} {left : Option Nat} {c : Cur} {f : Found} {s s' : σ}
    {r : Except QErr (Found × Cur)}, n ≤ m → searchLoop P room qs cb n left c f s = (r, s') →
    (∀ e, r = .error e → e.stable) →
    searchLoop P room qs cb m left (c.ext x) (f.ext x) s =
      ((match r with
        | .ok (g, c') => .ok (g.ext x, c'.ext x)
        | .error e => .error e), s') := by
  intro n
  induction n with
  | zero =>
    intro m left c f s s' r _ h hs
    cases h
    exact absurd rfl (hs _ rfl).2.2
  | succ n ih =>
    intro m left c f s s' r hm h hs
    obtain ⟨m, rfl⟩ : ∃ k, m = k + 1 := ⟨m - 1, by omega⟩
    unfold searchLoop at h ⊢
    split at h
    · cases h; exact absurd rfl (hs _ rfl).2.1
    · rename_i he
      have hne : c.rest ≠ [] := by simpa using he
      rw [if_neg (by simp [Cur.ext, hne])]
      cases hen : entry P true c with
      | mk r0 c1 =>
        rw [hen] at h
        cases r0 with
        | error e =>
          obtain ⟨rfl, rfl⟩ := Prod.mk.inj h
          rw [entry_err hen (hs _ rfl)]
        | ok q =>
          obtain ⟨l, it⟩ := q
          rw [entry_ext hen]
          simp only at h ⊢
          rw [searchStep_ext]
          cases hss : searchStep qs cb l it c1 f s with
          | mk r1 s1 =>
            rw [hss] at h
            cases r1 with
            | error e =>
              obtain ⟨rfl, rfl⟩ := Prod.mk.inj h
              rfl
            | ok f1 =>
              simp only [extF] at h ⊢
              cases hsk : skipValue P room it.val c1 with
              | error e =>
                rw [hsk] at h
                obtain ⟨rfl, rfl⟩ := Prod.mk.inj h
                rw [skipValue_err hsk (hs _ rfl)]
              | ok c2 =>
                rw [hsk] at h
                rw [skipValue_ext hsk]
                simp only at h ⊢
                cases ha : ascend [⟨true, left⟩] c2 with
                | mk st c3 =>
                  rw [ha] at h
                  cases st with
                  | nil =>
                    rw [ascend_ext ha (.inl rfl)]
                    obtain ⟨rfl, rfl⟩ := Prod.mk.inj h
                    rfl
                  | cons l' st' =>
                    simp only at h
                    have hn : c3.rest ≠ [] := by
                      intro hc
                      cases n with
                      | zero =>
                        cases h
                        exact (hs _ rfl).2.2 rfl
                      | succ n =>
                        unfold searchLoop at h
                        rw [if_pos (by rw [hc]; rfl)] at h
                        cases h
                        exact (hs _ rfl).2.1 rfl
                    rw [ascend_ext ha (.inr hn)]
                    simp only
                    exact ih (by omega) h hs

theorem searchStep_stable {σ : Type} {qs : List (Int × QTyp)} {cb : σ → Option Val → σ × Bool}
    {l : Option Val} {it : Itm} {c : Cur} {f : Found} {s s' : σ} {e : QErr}
    (h : searchStep qs cb l it c f s = (.error e, s')) (hit : ∀ q, it.err = some q → q.stable) :
    e.stable := by
  unfold searchStep at h
  simp only at h
  repeat' split at h
  all_goals
    simp only [Prod.mk.injEq, Except.error.injEq, reduceCtorEq, false_and] at h
  all_goals
    obtain ⟨rfl, -⟩ := h
  all_goals
    first
    | (refine ⟨?_, ?_, ?_⟩ <;> intro hh <;> cases hh; done)
    | (rename_i hi; exact hit _ hi)

/-- If one search through a map got to its end, no other runs out of input. -/
theorem searchLoop_stable {P : QParams} {room : Nat} {σ τ : Type} {qs qs' : List (Int × QTyp)}
    {cb : σ → Option Val → σ × Bool} {cb' : τ → Option Val → τ × Bool} : ∀ {n : Nat}
    {left : Option Nat} {c c' : Cur} {f g : Found} {s s' : σ},
    searchLoop P room qs cb n left c f s = (.ok (g, c'), s') → ∀ (f2 : Found) (t t' : τ) (e : QErr),
    searchLoop P room qs' cb' n left c f2 t = (.error e, t') → e.stable := by
  intro n
  induction n with
  | zero => intro left c c' f g s s' h; cases h
  | succ n ih =>
    intro left c c' f g s s' h f2 t t' e h2
    unfold searchLoop at h h2
    split at h
    · cases h
    · rename_i hne
      rw [if_neg hne] at h2
      have hok := entry_ok P true c
      cases hen : entry P true c with
      | mk r0 c1 =>
        rw [hen] at h h2 hok
        cases r0 with
        | error e => cases h
        | ok q =>
          obtain ⟨l, it⟩ := q
          simp only at h h2
          cases hss : searchStep qs cb l it c1 f s with
          | mk r1 s1 =>
            rw [hss] at h
            cases r1 with
            | error e => cases h
            | ok f1 =>
              simp only at h
              cases hss2 : searchStep qs' cb' l it c1 f2 t with
              | mk r2 s2 =>
                rw [hss2] at h2
                cases r2 with
                | error e2 =>
                  obtain ⟨h3, rfl⟩ := Prod.mk.inj h2
                  cases h3
                  refine searchStep_stable hss2 fun q hq => ?_
                  have := hok.2.2.2.2 q hq
                  refine ⟨?_, ?_, ?_⟩ <;> rintro rfl
                  · cases this.1
                  · cases this.2
                  · cases this.1
                | ok f3 =>
                  simp only at h2
                  cases hsk : skipValue P room it.val c1 with
                  | error e => rw [hsk] at h; cases h
                  | ok c2 =>
                    rw [hsk] at h h2
                    simp only at h h2
                    cases ha : ascend [⟨true, left⟩] c2 with
                    | mk st c3 =>
                      rw [ha] at h h2
                      cases st with
                      | nil => cases h2
                      | cons l' st' => exact ih h _ _ _ _ h2

end TCose
