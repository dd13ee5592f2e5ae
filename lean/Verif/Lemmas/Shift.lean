import Verif.Lemmas.Returned

/-!
# The decoder does not depend on where in memory the octets are

Moving the window by `k` moves every string by `k` and changes nothing else.
-/

namespace TCose
open Spec

def Cur.sh (k : Nat) (c : Cur) : Cur := ⟨c.pos + k, c.rest⟩
def Str.sh (k : Nat) (s : Str) : Str := ⟨s.off + k, s.bytes⟩
def Val.sh (k : Nat) : Val → Val
  | .bstr s => .bstr (s.sh k)
  | .tstr s => .tstr (s.sh k)
  | v => v
def Itm.sh (k : Nat) (it : Itm) : Itm := ⟨it.val.sh k, it.tags, it.err⟩
def Atom.sh (k : Nat) : Atom → Atom
  | .val v => .val (v.sh k)
  | .tag n => .tag n

/-- Apply to the value of a successful result. -/
def Except.sh {ε α : Type} (f : α → α) : Except ε α → Except ε α
  | .ok a => .ok (f a)
  | .error e => .error e

/-- The tag-content handling looks at content, not at addresses. -/
def QParams.Local (P : QParams) : Prop := ∀ ts v k, P.tagProc ts (v.sh k) = P.tagProc ts v

theorem Cur.sh_adv (k n : Nat) (c : Cur) : (c.sh k).adv n = (c.adv n).sh k := by
  simp [Cur.sh, Cur.adv]; omega

theorem decodeHead_sh (k : Nat) (c : Cur) :
    decodeHead (c.sh k) = ((decodeHead c).1, (decodeHead c).2.sh k) := by
  obtain ⟨pos, rest⟩ := c
  unfold decodeHead Cur.sh
  simp only
  cases rest with
  | nil => rfl
  | cons b r =>
    simp only
    split
    · simp; omega
    · split
      · split
        · simp; omega
        · simp [Cur.adv]; omega
      · split
        · simp; omega
        · simp; omega

theorem decodeStr_sh (k : Nat) {mk : Str → Val} (hmk : ∀ s, (mk s).sh k = mk (s.sh k))
    (ai arg : Nat) (c : Cur) :
    decodeStr mk ai arg (c.sh k) =
      (Except.sh (Atom.sh k) (decodeStr mk ai arg c).1, (decodeStr mk ai arg c).2.sh k) := by
  unfold decodeStr
  split
  · rfl
  · change (if c.rest.length < arg then _ else _) = _
    split
    · rfl
    · simp [Except.sh, Atom.sh, hmk, Cur.sh_adv]
      rfl

theorem decodeType7_sh (k ai arg : Nat) :
    Except.sh (Atom.sh k) (decodeType7 ai arg) = decodeType7 ai arg := by
  unfold decodeType7
  split
  · rfl
  · split
    · rfl
    · split <;> rfl

theorem decodeAtom_sh (k : Nat) (c : Cur) :
    decodeAtom (c.sh k) = (Except.sh (Atom.sh k) (decodeAtom c).1, (decodeAtom c).2.sh k) := by
  unfold decodeAtom
  rw [decodeHead_sh]
  generalize decodeHead c = x
  obtain ⟨r, c1⟩ := x
  cases r with
  | error e => rfl
  | ok q =>
    obtain ⟨major, ai, arg⟩ := q
    simp only
    split
    · split
      · rfl
      · split <;> rfl
    · split
      · split
        · rfl
        · split <;> rfl
      · split
        · exact decodeStr_sh k (fun s => rfl) ai arg c1
        · split
          · exact decodeStr_sh k (fun s => rfl) ai arg c1
          · split
            · split
              · rfl
              · split <;> rfl
            · split
              · split
                · rfl
                · split <;> rfl
              · split
                · split <;> rfl
                · simp only [decodeType7_sh]

theorem nextTagged_sh (P : QParams) (k : Nat) : ∀ (n : Nat) (c : Cur) (tags : List Nat) (over : Bool),
    nextTagged P n (c.sh k) tags over =
      (Except.sh (Itm.sh k) (nextTagged P n c tags over).1, (nextTagged P n c tags over).2.sh k)
  | 0, c, tags, over => rfl
  | n + 1, c, tags, over => by
    unfold nextTagged
    rw [decodeAtom_sh]
    generalize decodeAtom c = x
    obtain ⟨r, c1⟩ := x
    cases r with
    | error e =>
      simp only [Except.sh]
      split <;> rfl
    | ok a =>
      cases a with
      | tag t =>
        simp only [Except.sh, Atom.sh]
        split
        · exact nextTagged_sh P k n c1 _ _
        · exact nextTagged_sh P k n c1 _ _
      | val v => rfl

theorem nextRaw_sh (P : QParams) (k : Nat) (c : Cur) :
    nextRaw P (c.sh k) = (Except.sh (Itm.sh k) (nextRaw P c).1, (nextRaw P c).2.sh k) :=
  nextTagged_sh P k _ c _ _

theorem tagContent_sh {P : QParams} (hP : P.Local) (k : Nat) (it : Itm) :
    tagContent P (it.sh k) = (tagContent P it).sh k := by
  obtain ⟨v, tags, err⟩ := it
  cases err with
  | some e => rfl
  | none =>
    cases tags with
    | nil => rfl
    | cons t ts =>
      have h := hP (t :: ts) v k
      have key : ∀ w : Val, tagContent P ⟨w, t :: ts, none⟩ =
          match w with
          | .arr _ | .map _ | .brk => ⟨w, t :: ts, none⟩
          | w =>
            match P.tagProc (t :: ts) w with
            | .keep => ⟨w, t :: ts, none⟩
            | .retype => ⟨.other, t :: ts, none⟩
            | .fail => ⟨.other, t :: ts, some .tagContent⟩ := by
        intro w
        cases w <;> rfl
      simp only [Itm.sh, key]
      cases v <;> simp only [Val.sh] at h ⊢ <;> (try rw [h]) <;> cases P.tagProc (t :: ts) _ <;> rfl

theorem nextItem_sh {P : QParams} (hP : P.Local) (k : Nat) (c : Cur) :
    nextItem P (c.sh k) = (Except.sh (Itm.sh k) (nextItem P c).1, (nextItem P c).2.sh k) := by
  unfold nextItem
  rw [nextRaw_sh]
  generalize nextRaw P c = x
  obtain ⟨r, c1⟩ := x
  cases r with
  | error e => rfl
  | ok it => simp only [Except.sh, tagContent_sh hP]

def Ent.sh (k : Nat) (q : Option Val × Itm) : Option Val × Itm := (q.1.map (Val.sh k), q.2.sh k)

theorem Val.sh_isLabel (k : Nat) (v : Val) : (v.sh k).isLabel = v.isLabel := by cases v <;> rfl

theorem Val.sh_brk (k : Nat) (v : Val) : v.sh k = .brk ↔ v = .brk := by
  cases v <;> simp [Val.sh]

theorem entry_sh {P : QParams} (hP : P.Local) (k : Nat) (m : Bool) (c : Cur) :
    entry P m (c.sh k) = (Except.sh (Ent.sh k) (entry P m c).1, (entry P m c).2.sh k) := by
  unfold entry
  cases m with
  | true =>
    simp only [if_true]
    rw [nextRaw_sh]
    generalize nextRaw P c = x
    obtain ⟨r, c1⟩ := x
    cases r with
    | error e => rfl
    | ok l =>
      simp only [Except.sh]
      have : (l.sh k).err = l.err := rfl
      rw [this]
      cases l.err with
      | some e => rfl
      | none =>
        simp only
        have h0 : (l.sh k).val = .brk ↔ l.val = .brk := Val.sh_brk k l.val
        by_cases hbrk : l.val = .brk
        · rw [if_pos (h0.mpr hbrk), if_pos hbrk]
        rw [if_neg (fun h => hbrk (h0.mp h)), if_neg hbrk, nextItem_sh hP]
        generalize nextItem P c1 = y
        obtain ⟨r, c2⟩ := y
        cases r with
        | error e => rfl
        | ok v =>
          simp only [Except.sh]
          have h1 : (l.sh k).val.isLabel = l.val.isLabel := Val.sh_isLabel k l.val
          have h2 : (v.sh k).val = .brk ↔ v.val = .brk := Val.sh_brk k v.val
          rw [h1]
          split
          · by_cases hb : v.val = .brk
            · rw [if_pos (h2.mpr hb), if_pos hb]
            · rw [if_neg (fun h => hb (h2.mp h)), if_neg hb]
              rfl
          · rfl
  | false =>
    simp only [Bool.false_eq_true, if_false]
    rw [nextItem_sh hP]
    generalize nextItem P c = y
    obtain ⟨r, c2⟩ := y
    cases r with
    | error e => rfl
    | ok v =>
      simp only [Except.sh]
      have h2 : (v.sh k).val = .brk ↔ v.val = .brk := Val.sh_brk k v.val
      by_cases hb : v.val = .brk
      · rw [if_pos (h2.mpr hb), if_pos hb]
      · rw [if_neg (fun h => hb (h2.mp h)), if_neg hb]
        rfl

theorem ascend_sh (k : Nat) : ∀ (st : List NLvl) (c : Cur),
    ascend st (c.sh k) = ((ascend st c).1, (ascend st c).2.sh k)
  | [], c => rfl
  | ⟨m, some n⟩ :: st, c => by
    unfold ascend
    split
    · exact ascend_sh k st c
    · rfl
  | ⟨m, none⟩ :: st, c => by
    unfold ascend
    change (if c.rest.head? = some 0xff then _ else _) = _
    split
    · rw [Cur.sh_adv]
      exact ascend_sh k st (c.adv 1)
    · rfl

def Push.sh (k : Nat) (q : List NLvl × Cur) : List NLvl × Cur := (q.1, q.2.sh k)

theorem push_sh (room k : Nat) (v : Val) (st : List NLvl) (c : Cur) :
    push room (v.sh k) st (c.sh k) = Except.sh (Push.sh k) (push room v st c) := by
  unfold push
  cases v with
  | arr n =>
    simp only [Val.sh]
    rcases n with _ | _ | n
    · simp only; split <;> simp [Except.sh, Push.sh, ascend_sh]
    · simp [Except.sh, Push.sh, ascend_sh]
    · simp only; split <;> simp [Except.sh, Push.sh]
  | map n =>
    simp only [Val.sh]
    rcases n with _ | _ | n
    · simp only; split <;> simp [Except.sh, Push.sh, ascend_sh]
    · simp [Except.sh, Push.sh, ascend_sh]
    · simp only; split <;> simp [Except.sh, Push.sh]
  | _ => simp [Val.sh, Except.sh, Push.sh, ascend_sh]

theorem skip_sh {P : QParams} (hP : P.Local) (room k : Nat) : ∀ (n : Nat) (st : List NLvl) (c : Cur),
    skip P room n st (c.sh k) = Except.sh (Cur.sh k) (skip P room n st c)
  | n, [], c => by cases n <;> rfl
  | 0, _ :: _, c => rfl
  | n + 1, l :: st, c => by
    unfold skip
    change (if c.rest.isEmpty = true then _ else _) = _
    split
    · rfl
    · rw [entry_sh hP]
      generalize entry P l.isMap c = x
      obtain ⟨r, c1⟩ := x
      cases r with
      | error e => rfl
      | ok q =>
        obtain ⟨lb, it⟩ := q
        simp only [Except.sh, Ent.sh]
        have : (it.sh k).val = it.val.sh k := rfl
        rw [this, push_sh]
        cases push room it.val (l :: st) c1 with
        | error e => rfl
        | ok w =>
          obtain ⟨st', c2⟩ := w
          simp only [Except.sh, Push.sh]
          exact skip_sh hP room k n st' c2

theorem skipAll_sh {P : QParams} (hP : P.Local) (room k : Nat) (st : List NLvl) (c : Cur) :
    skipAll P room st (c.sh k) = Except.sh (Cur.sh k) (skipAll P room st c) :=
  skip_sh hP room k _ st c

theorem skipValue_sh {P : QParams} (hP : P.Local) (room k : Nat) (v : Val) (c : Cur) :
    skipValue P room (v.sh k) (c.sh k) = Except.sh (Cur.sh k) (skipValue P room v c) := by
  unfold skipValue
  rw [push_sh]
  cases push room v [] c with
  | error e => rfl
  | ok w =>
    obtain ⟨st', c2⟩ := w
    simp only [Except.sh, Push.sh]
    exact skipAll_sh hP room k st' c2

/-! ## Map search -/

def Found.sh (k : Nat) (f : Found) : Found := f.map fun q => (q.1, q.2.1.sh k, q.2.2.sh k)

theorem Found.sh_lookup (k : Nat) (i : Int) : ∀ (f : Found),
    (Found.sh k f).lookup i = (f.lookup i).map fun q => (q.1.sh k, q.2.sh k)
  | [] => rfl
  | ⟨j, v, c⟩ :: f => by
    simp only [Found.sh, List.map_cons, List.lookup_cons]
    cases i == j with
    | true => rfl
    | false => exact Found.sh_lookup k i f

theorem QTyp.ok_sh (k : Nat) (t : QTyp) (v : Val) : t.ok (v.sh k) = t.ok v := by
  cases t <;> cases v <;> rfl

/-- Two callbacks that do the same to corresponding labels. -/
def CbSim {σ σ' : Type} (k : Nat) (R : σ → σ' → Prop) (cb : σ → Option Val → σ × Bool)
    (cb' : σ' → Option Val → σ' × Bool) : Prop :=
  ∀ s s' l, R s s' → R (cb s l).1 (cb' s' (l.map (Val.sh k))).1 ∧
    (cb s l).2 = (cb' s' (l.map (Val.sh k))).2

theorem searchStep_sh {σ σ' : Type} {k : Nat} {R : σ → σ' → Prop}
    {cb : σ → Option Val → σ × Bool} {cb' : σ' → Option Val → σ' × Bool} (hcb : CbSim k R cb cb')
    (qs : List (Int × QTyp)) (l : Option Val) (it : Itm) (c1 : Cur) (f : Found) (s : σ) (s' : σ')
    (hR : R s s') :
    (searchStep qs cb' (l.map (Val.sh k)) (it.sh k) (c1.sh k) (Found.sh k f) s').1 =
      Except.sh (Found.sh k) (searchStep qs cb l it c1 f s).1 ∧
    R (searchStep qs cb l it c1 f s).2
      (searchStep qs cb' (l.map (Val.sh k)) (it.sh k) (c1.sh k) (Found.sh k f) s').2 := by
  have hun : ∀ l : Option Val,
      (match cb' s' (l.map (Val.sh k)) with
        | (s', true) => ((.ok (Found.sh k f), s') : Except QErr Found × σ')
        | (s', false) => (.error .callbackFail, s')).1 =
      Except.sh (Found.sh k) (match cb s l with
        | (s', true) => ((.ok f, s') : Except QErr Found × σ)
        | (s', false) => (.error .callbackFail, s')).1 ∧
      R (match cb s l with
        | (s', true) => ((.ok f, s') : Except QErr Found × σ)
        | (s', false) => (.error .callbackFail, s')).2
       (match cb' s' (l.map (Val.sh k)) with
        | (s', true) => ((.ok (Found.sh k f), s') : Except QErr Found × σ')
        | (s', false) => (.error .callbackFail, s')).2 := by
    intro l
    obtain ⟨h1, h2⟩ := hcb s s' l hR
    generalize cb s l = x at h1 h2 ⊢
    generalize cb' s' (l.map (Val.sh k)) = y at h1 h2 ⊢
    obtain ⟨a, b⟩ := x
    obtain ⟨a', b'⟩ := y
    simp only at h1 h2
    subst h2
    cases b with
    | true => exact ⟨rfl, h1⟩
    | false => exact ⟨rfl, h1⟩
  cases l with
  | none => exact hun none
  | some lv =>
    cases lv with
    | int i =>
      unfold searchStep
      simp only [Option.map_some, Val.sh]
      cases hq : qs.lookup i with
      | none => exact hun (some (.int i))
      | some t =>
        simp only
        rw [Found.sh_lookup]
        simp only [Option.isSome_map]
        split
        · exact ⟨rfl, hR⟩
        · have he : (it.sh k).err = it.err := rfl
          rw [he]
          cases it.err with
          | some e => exact ⟨rfl, hR⟩
          | none =>
            simp only
            have hv : t.ok (it.sh k).val = t.ok it.val := QTyp.ok_sh k t it.val
            rw [hv]
            split
            · exact ⟨rfl, hR⟩
            · exact ⟨rfl, hR⟩
    | uint n => exact hun (some (.uint n))
    | bstr b => exact hun (some (.bstr b))
    | tstr b => exact hun (some (.tstr b))
    | arr n => exact hun (some (.arr n))
    | map n => exact hun (some (.map n))
    | null => exact hun (some .null)
    | brk => exact hun (some .brk)
    | other => exact hun (some .other)

def FoundCur.sh (k : Nat) (q : Found × Cur) : Found × Cur := (Found.sh k q.1, q.2.sh k)

theorem searchLoop_sh {P : QParams} (hP : P.Local) (room : Nat) {σ σ' : Type} {k : Nat}
    {R : σ → σ' → Prop} {cb : σ → Option Val → σ × Bool} {cb' : σ' → Option Val → σ' × Bool}
    (hcb : CbSim k R cb cb') (qs : List (Int × QTyp)) : ∀ (n : Nat) (left : Option Nat) (c : Cur)
    (f : Found) (s : σ) (s' : σ'), R s s' →
    (searchLoop P room qs cb' n left (c.sh k) (Found.sh k f) s').1 =
      Except.sh (FoundCur.sh k) (searchLoop P room qs cb n left c f s).1 ∧
    R (searchLoop P room qs cb n left c f s).2
      (searchLoop P room qs cb' n left (c.sh k) (Found.sh k f) s').2
  | 0, left, c, f, s, s', hR => ⟨rfl, hR⟩
  | n + 1, left, c, f, s, s', hR => by
    unfold searchLoop
    have hem : (c.sh k).rest = c.rest := rfl
    rw [hem]
    split
    · exact ⟨rfl, hR⟩
    · rw [entry_sh hP]
      generalize entry P true c = x
      obtain ⟨r, c1⟩ := x
      cases r with
      | error e => exact ⟨rfl, hR⟩
      | ok q =>
        obtain ⟨lb, it⟩ := q
        simp only [Except.sh, Ent.sh]
        obtain ⟨h1, h2⟩ := searchStep_sh hcb qs lb it c1 f s s' hR
        generalize searchStep qs cb lb it c1 f s = y at h1 h2 ⊢
        generalize searchStep qs cb' (lb.map (Val.sh k)) (it.sh k) (c1.sh k) (Found.sh k f) s' = y'
          at h1 h2 ⊢
        obtain ⟨r, t⟩ := y
        obtain ⟨r', t'⟩ := y'
        simp only at h1 h2
        subst h1
        cases r with
        | error e => exact ⟨rfl, h2⟩
        | ok f2 =>
          simp only [Except.sh]
          have : (it.sh k).val = it.val.sh k := rfl
          rw [this, skipValue_sh hP]
          cases skipValue P room it.val c1 with
          | error e => exact ⟨rfl, h2⟩
          | ok c2 =>
            simp only [Except.sh]
            rw [ascend_sh]
            generalize ascend [⟨true, left⟩] c2 = w
            obtain ⟨st, c3⟩ := w
            cases st with
            | nil => exact ⟨rfl, h2⟩
            | cons l st => exact searchLoop_sh hP room hcb qs n l.left c3 f2 t t' h2

end TCose
