import Verif.Lemmas.Stop
import Verif.Lemmas.AnyArray

/-!
# Containers that are cut off

What the decoder has of a container that `Spec.parse` does not read: its head, its tags, and the
elements up to the one that is not read.
-/

namespace TCose
open Spec

variable {P : QParams}

/-! ### The head of a container -/

theorem tagsAt_nums : ∀ (f : Nat) (b : Bytes), ∃ h, TagHeads (tagNums f b) h ∧
    (tagsAt f b).1 = (tagNums f b).length ∧ b = h ++ (tagsAt f b).2 := by
  intro f
  induction f with
  | zero => intro b; exact ⟨[], .nil, rfl, rfl⟩
  | succ f ih =>
    intro b
    rw [tagsAt, tagNums]
    cases e : headAt b with
    | none => exact ⟨[], .nil, rfl, rfl⟩
    | some hd =>
      simp only
      by_cases hc : hd.major = 6 ∧ hd.ai < 28
      · rw [if_pos hc, if_pos hc]
        obtain ⟨h, h1, h2, h3⟩ := ih hd.rest
        obtain ⟨-, -, ⟨-, hb, g1, g2⟩ | ⟨g1, -⟩⟩ := headAt_back e
        · rw [hc.1] at g1
          refine ⟨hb ++ h, .cons g1 h1, by simp [h2], ?_⟩
          rw [List.append_assoc, ← h3]; exact g2
        · omega
      · rw [if_neg hc, if_neg hc]
        exact ⟨[], .nil, rfl, rfl⟩

/-- The head behind the tags is that of a container. -/
structure BoxAt (f : Nat) (b : Bytes) (h : Hd) : Prop where
  head : headAt (tagsAt f b).2 = some h
  go : h.stop = none
  cbor : h.notCbor = false
  box : h.major = 4 ∨ h.major = 5

/-- What is not read although there is nothing wrong with the head is a container. -/
theorem open_box {t d : Nat} : ∀ (f : Nat) (b : Bytes), b.length ≤ f → parse t f d b = none →
    itemStop f b = none → ∃ h, BoxAt f b h := by
  intro f
  induction f with
  | zero =>
    intro b hf _ h
    have : b = [] := List.length_eq_zero_iff.mp (by omega)
    subst this
    cases h
  | succ f ih =>
    intro b hf hp hi
    cases e : headAt b with
    | none =>
      have : tagsAt (f + 1) b = (0, b) := by rw [tagsAt, e]
      unfold itemStop at hi
      rw [this, e] at hi
      cases hi
    | some h =>
      have hlt := rest_lt e
      by_cases hc : h.major = 6 ∧ h.ai < 28
      · have h1 : (tagsAt (f + 1) b).2 = (tagsAt f h.rest).2 := by rw [tagsAt, e]; simp only [if_pos hc]
        have h2 : itemStop f h.rest = none := by
          unfold itemStop at hi ⊢
          rwa [h1] at hi
        have hn : h.notCbor = false := by
          unfold Hd.notCbor
          simp [hc.1]
          omega
        have h3 : parse t f d h.rest = none := by
          rw [parse, e] at hp
          simpa [hn, hc.1] using hp
        obtain ⟨k, hk⟩ := ih h.rest (by omega) h3 h2
        exact ⟨k, by rw [h1]; exact hk.head, hk.go, hk.cbor, hk.box⟩
      · have h1 : (tagsAt (f + 1) b).2 = b := by rw [tagsAt, e]; simp only [if_neg hc]
        unfold itemStop at hi
        rw [h1, e] at hi
        simp only at hi
        by_cases hbrk : h.major = 7 ∧ h.ai = 31
        · rw [if_pos hbrk] at hi; cases hi
        rw [if_neg hbrk] at hi
        obtain ⟨m1, m2, -⟩ := headAt_back e
        have hn : h.notCbor = false := by
          cases hn : h.notCbor with
          | false => rfl
          | true => rw [parse, e] at hp; simp [hn] at hp
        obtain ⟨n1, n2, n3⟩ := notCbor_false hn
        refine ⟨h, by rw [h1]; exact e, hi, hn, ?_⟩
        apply Classical.byContradiction
        intro h45
        obtain ⟨r, hr⟩ := piece_some e hi hn hc
        rw [parse, e] at hp
        simp only [hn, Bool.false_eq_true, if_false] at hp
        by_cases hm0 : h.major = 0
        · rw [if_pos hm0] at hp; cases hp
        rw [if_neg hm0] at hp
        by_cases hm1 : h.major = 1
        · rw [if_pos hm1] at hp; cases hp
        rw [if_neg hm1] at hp
        by_cases hm2 : h.major = 2
        · rw [if_pos hm2] at hp
          unfold Hd.piece at hr
          rw [if_pos (.inl hm2), Option.map_eq_none_iff.mp hp] at hr
          cases hr
        rw [if_neg hm2] at hp
        by_cases hm3 : h.major = 3
        · rw [if_pos hm3] at hp
          unfold Hd.piece at hr
          rw [if_pos (.inr hm3), Option.map_eq_none_iff.mp hp] at hr
          cases hr
        rw [if_neg hm3, if_neg (by omega), if_neg (by omega), if_neg (by omega), if_neg (by omega)] at hp
        split at hp <;> cases hp

/-- The value that the decoder has for the container. -/
def Spec.Hd.open (h : Hd) : Val := if h.major = 4 then .arr h.count else .map h.count

/-- The container without its content. -/
def Spec.Hd.empty (h : Hd) : Item := if h.major = 4 then .arr [] else .map []

theorem BoxAt.emptyAt {f : Nat} {b : Bytes} {h : Hd} (hb : BoxAt f b h) :
    Spec.emptyAt f b = tagged (tagNums f b) h.empty := by
  unfold Spec.emptyAt
  rw [hb.head]
  rfl

theorem BoxAt.contentAt {f : Nat} {b : Bytes} {h : Hd} (hb : BoxAt f b h) :
    Spec.contentAt f b = h.rest := by
  unfold Spec.contentAt
  rw [hb.head]

theorem BoxAt.itemStop {f : Nat} {b : Bytes} {h : Hd} (hb : BoxAt f b h) : Spec.itemStop f b = none := by
  unfold Spec.itemStop
  rw [hb.head]
  simp only
  rw [if_neg (by have := hb.box; omega), hb.go]

/-- The container as it is fetched. -/
def boxItm (P : QParams) (f : Nat) (b : Bytes) (h : Hd) : Itm :=
  ⟨h.open, ((tagNums f b).take P.maxTags).reverse,
    if P.maxTags < (tagNums f b).length then some .tooManyTags else none⟩

theorem BoxAt.raw {f : Nat} {b : Bytes} {h : Hd} (hb : BoxAt f b h) (pos : Nat) :
    ∃ p, nextRaw P ⟨pos, b⟩ = (.ok (boxItm P f b h), ⟨p, h.rest⟩) := by
  obtain ⟨tb, h1, h2, h3⟩ := tagsAt_nums f b
  obtain ⟨fuel, h4, h5⟩ := tagHeads_raw P h1 pos (tagsAt f b).2
  rw [← h3] at h5
  refine ⟨(behind (pos + tb.length) (tagsAt f b).2 h).pos, ?_⟩
  rw [h5]
  unfold boxItm Hd.open
  rcases hb.box with hm | hm
  · rw [nextTagged_val h4 (atom_arr hb.head hb.cbor hb.go hm _)]
    simp [behind, hm]
  · rw [nextTagged_val h4 (atom_map hb.head hb.cbor hb.go hm _)]
    simp [behind, hm]

theorem BoxAt.val {f : Nat} {b : Bytes} {h : Hd} (hb : BoxAt f b h) :
    (boxItm P f b h).val = .arr h.count ∨ (boxItm P f b h).val = .map h.count := by
  unfold boxItm Hd.open
  rcases hb.box with hm | hm
  · exact .inl (if_pos hm)
  · exact .inr (if_neg (by omega))

theorem BoxAt.item {f : Nat} {b : Bytes} {h : Hd} (hb : BoxAt f b h) (pos : Nat) :
    ∃ p, nextItem P ⟨pos, b⟩ = (.ok (boxItm P f b h), ⟨p, h.rest⟩) := by
  obtain ⟨p, hp⟩ := hb.raw (P := P) pos
  exact ⟨p, by unfold nextItem; simp only [hp, tagContent_box hb.val]⟩

theorem BoxAt.entry {f : Nat} {b : Bytes} {h : Hd} (hb : BoxAt f b h) (pos : Nat) :
    ∃ p, TCose.entry P false ⟨pos, b⟩ = (.ok (none, boxItm P f b h), ⟨p, h.rest⟩) := by
  obtain ⟨p, hp⟩ := hb.item (P := P) pos
  exact ⟨p, entry_arr hp (box_brk hb.val)⟩

/-- A head that is wrong. -/
theorem item_stop {f : Nat} {b : Bytes} {s : Stop} (h : itemStop f b = some s) (pos : Nat) :
    (∃ e c1, nextItem P ⟨pos, b⟩ = (.error e, c1) ∧ IsStop s e) ∨
    ∃ it c1, nextItem P ⟨pos, b⟩ = (.ok it, c1) ∧ it.val = .brk ∧ s = .bad := by
  cases hh : headStop f b with
  | some s' =>
    obtain ⟨e, c1, h1, h2⟩ := raw_stop (P := P) hh pos
    left
    have : s' = s := by
      unfold itemStop at h
      unfold headStop at hh
      split at hh
      · rename_i hn
        rw [hn] at h
        cases h; cases hh; rfl
      · rename_i hd hn
        rw [hn] at h
        simp only at h
        split at h
        · rename_i hbrk
          exfalso
          unfold Hd.stop at hh
          simp only [hbrk.1] at hh
          split at hh
          · cases hh
          · simp at hh
        · rw [hh] at h; cases h; rfl
    subst this
    exact ⟨e, c1, by unfold nextItem; simp only [h1], h2⟩
  | none =>
    right
    unfold itemStop at h
    unfold headStop at hh
    split at h
    · rename_i hn
      rw [hn] at hh
      cases hh
    · rename_i hd hn
      rw [hn] at hh
      simp only at hh
      split at h
      · rename_i hbrk
        cases h
        obtain ⟨tb, h1, h2, h3⟩ := tagsAt_nums f b
        obtain ⟨fuel, h4, h5⟩ := tagHeads_raw P h1 pos (tagsAt f b).2
        rw [← h3] at h5
        have h6 := nextTagged_val (P := P) (tags := ((tagNums f b).take P.maxTags).reverse)
          (over := decide (P.maxTags < (tagNums f b).length)) h4
          (atom_break hn hbrk.1 hbrk.2 (pos + tb.length))
        rw [← h5] at h6
        have h7 : ∀ it c, nextRaw P ⟨pos, b⟩ = (.ok it, c) → it.val = .brk →
            nextItem P ⟨pos, b⟩ = (.ok it, c) := by
          intro it c e1 e2
          unfold nextItem
          rw [e1]
          simp only []
          rw [tagContent_break e2]
        exact ⟨_, _, h7 _ _ h6 rfl, rfl, rfl⟩
      · rw [hh] at h; cases h

theorem slot_stop {f : Nat} {b : Bytes} {s : Stop} (h : itemStop f b = some s) (pos : Nat) :
    ∃ e c1, entry P false ⟨pos, b⟩ = (.error e, c1) ∧ IsStop s e := by
  unfold entry
  simp only [Bool.false_eq_true, if_false]
  rcases item_stop (P := P) h pos with ⟨e, c1, h1, h2⟩ | ⟨it, c1, h1, h2, rfl⟩
  · exact ⟨e, c1, by rw [h1], h2⟩
  · exact ⟨.badBreak, c1, by rw [h1]; simp only [h2, if_true], .badBreak⟩

/-! ### The content of a container -/

/-- The content of an array that is not read. -/
theorem box_none {t d f : Nat} {b : Bytes} {h : Hd} (hb : BoxAt f b h) (hf : b.length ≤ f)
    (hp : parse t f (d + 1) b = none) : h.arg ≠ 0 ∧
    (h.major = 4 → (h.ai ≠ 31 → times (parse t f d) h.arg h.rest = none) ∧
      (h.ai = 31 → toBreak (parse t f d) (f + 1) h.rest = none)) ∧
    (h.major = 5 → (h.ai ≠ 31 → times (entryAt t f (parse t f d)) h.arg h.rest = none) ∧
      (h.ai = 31 → toBreak (entryAt t f (parse t f d)) (f + 1) h.rest = none)) := by
  obtain ⟨tb, h1, h2, h3⟩ := tagsAt_nums f b
  have key : parse t (f + 1) (d + 1) (tagsAt f b).2 = none := by
    cases hx : parse t (f + 1) (d + 1) (tagsAt f b).2 with
    | none => rfl
    | some y =>
      obtain ⟨x, r⟩ := y
      obtain ⟨a, ha, hr⟩ := parse_sound _ _ _ _ _ hx
      have hrd : Reads t (d + 1) (tagged (tagNums f b) x) (tb ++ a) := by
        clear h2 h3
        generalize tagNums f b = ts at h1
        induction h1 with
        | nil => exact hr
        | cons hh _ ih => rw [List.append_assoc]; exact .tag hh ih
      have hba : b = (tb ++ a) ++ r := by rw [List.append_assoc, ← ha]; exact h3
      have := parse_complete hrd f (by rw [hba, List.length_append] at hf; omega) r
      rw [← hba, hp] at this
      cases this
  rw [parse, hb.head] at key
  simp only [hb.cbor, Bool.false_eq_true, if_false] at key
  have hgo := hb.go
  unfold Hd.stop at hgo
  simp only [hb.cbor, Bool.false_eq_true, if_false] at hgo
  rcases hb.box with hm | hm
  · simp only [hm] at key hgo
    simp only [Nat.reduceEqDiff, if_false, if_true, or_self] at key hgo
    by_cases h0 : h.arg = 0
    · rw [if_pos h0] at key; cases key
    rw [if_neg h0] at key
    simp only [Option.map_eq_none_iff] at key
    refine ⟨h0, fun _ => ⟨fun ha => ?_, fun ha => ?_⟩, fun h => absurd (hm.symm.trans h) (by simp)⟩
    · rw [if_neg ha] at key
      split at key
      · exact key
      · rw [if_pos ⟨ha, by omega⟩] at hgo; cases hgo
    · rwa [if_pos ha] at key
  · simp only [hm] at key hgo
    simp only [Nat.reduceEqDiff, if_false, if_true, or_self] at key hgo
    by_cases h0 : h.arg = 0
    · rw [if_pos h0] at key; cases key
    rw [if_neg h0] at key
    simp only [Option.map_eq_none_iff] at key
    refine ⟨h0, fun h => absurd (hm.symm.trans h) (by simp), fun _ => ⟨fun ha => ?_, fun ha => ?_⟩⟩
    · rw [if_neg ha] at key
      split at key
      · exact key
      · rw [if_pos ⟨ha, by omega⟩] at hgo; cases hgo
    · rwa [if_pos ha] at key

/-- Elements that are read, up to octets that are not. -/
inductive CutRun (P : QParams) (m : Bool) (d : Nat) : Option Nat → Cur → List Entry → Bytes → Prop
  | stop {left : Option Nat} {pos : Nat} {b : Bytes} : left ≠ some 0 → CutRun P m d left ⟨pos, b⟩ [] b
  | cons {left : Option Nat} {pos : Nat} {a r : Bytes} {e : Entry} {es : List Entry} {last : Bytes} :
      left ≠ some 0 → SlotRun P m d a →
      entry P m ⟨pos, a ++ r⟩ = (.ok (e.label, e.itm), e.cur) →
      skipValue P d e.itm.val e.cur = .ok ⟨pos + a.length, r⟩ →
      CutRun P m d (stepLeft left ⟨pos + a.length, r⟩).1 (stepLeft left ⟨pos + a.length, r⟩).2 es last →
      CutRun P m d left ⟨pos, a ++ r⟩ (e :: es) last

theorem CutRun.left_ne {m : Bool} {d : Nat} {left : Option Nat} {c : Cur} {es : List Entry} {last : Bytes}
    (h : CutRun P m d left c es last) : left ≠ some 0 := by
  cases h <;> assumption

/-- What there is to know of the reading of one element. -/
def SlotIs {α : Type} (P : QParams) (m : Bool) (d : Nat) (Q : α → Entry → Prop)
    (p : Bytes → Option (α × Bytes)) : Prop :=
  ∀ b x r, p b = some (x, r) → ∃ a, b = a ++ r ∧ SlotRun P m d a ∧
    ∀ pos, ∃ l it c1, entry P m ⟨pos, a ++ r⟩ = (.ok (l, it), c1) ∧ Q x ⟨l, it, c1⟩

theorem SlotIs.step {α : Type} {m : Bool} {d : Nat} {Q : α → Entry → Prop}
    {p : Bytes → Option (α × Bytes)} (hp : SlotIs P m d Q p) {b r : Bytes} {x : α}
    (h : p b = some (x, r)) (pos : Nat) : ∃ a e, b = a ++ r ∧ 0 < a.length ∧ SlotRun P m d a ∧
      entry P m ⟨pos, b⟩ = (.ok (e.label, e.itm), e.cur) ∧
      skipValue P d e.itm.val e.cur = .ok ⟨pos + a.length, r⟩ ∧ Q x e := by
  obtain ⟨a, rfl, h1, h2⟩ := hp _ _ _ h
  obtain ⟨l, it, c1, h3, h4⟩ := h2 pos
  obtain ⟨l', it', c1', h5, h6⟩ := h1.2 d [] pos r (by simp)
  rw [h3] at h5
  simp only [Prod.mk.injEq, Except.ok.injEq] at h5
  obtain ⟨⟨rfl, rfl⟩, rfl⟩ := h5
  exact ⟨a, ⟨l, it, c1⟩, rfl, h1.1.length, h1, h3, h6.skipValue, h4⟩

theorem times_cut {α : Type} {m : Bool} {d : Nat} {Q : α → Entry → Prop}
    {p : Bytes → Option (α × Bytes)} (hp : SlotIs P m d Q p) :
    ∀ (n : Nat) (b : Bytes) (pos g : Nat), b.length < g → times p n b = none →
      (∃ es, CutRun P m d (some n) ⟨pos, b⟩ es (front p g b).2 ∧ Each Q (front p g b).1 es) ∧
      p (front p g b).2 = none ∧ (front p g b).2.length ≤ b.length := by
  intro n
  induction n with
  | zero => intro b pos g _ h; cases h
  | succ n ih =>
    intro b pos g hg h
    obtain ⟨g, rfl⟩ : ∃ k, g = k + 1 := ⟨g - 1, by omega⟩
    rw [times] at h
    rw [front]
    cases e : p b with
    | none => exact ⟨⟨[], .stop (by simp), .nil⟩, e, Nat.le_refl _⟩
    | some y =>
      obtain ⟨x, r⟩ := y
      rw [e] at h
      simp only at h ⊢
      have h' : times p n r = none := by
        split at h
        · assumption
        · cases h
      obtain ⟨a, en, rfl, h1, h2, h3, h4, h5⟩ := hp.step e pos
      obtain ⟨⟨es, k1, k2⟩, k3, k4⟩ := ih r (pos + a.length) g
        (by simp only [List.length_append] at hg; omega) h'
      exact ⟨⟨en :: es, .cons (by simp) h2 h3 h4 k1, .cons h5 k2⟩, k3,
        by simp only [List.length_append]; omega⟩

theorem toBreak_cut {α : Type} {m : Bool} {d : Nat} {Q : α → Entry → Prop}
    {p : Bytes → Option (α × Bytes)} (hp : SlotIs P m d Q p) :
    ∀ (g : Nat) (b : Bytes) (pos : Nat), b.length < g → toBreak p g b = none →
      (∃ es, CutRun P m d (Dec.openLvl none ⟨pos, b⟩).1 (Dec.openLvl none ⟨pos, b⟩).2 es (front p g b).2 ∧
        Each Q (front p g b).1 es) ∧
      p (front p g b).2 = none ∧ (front p g b).2.length ≤ b.length := by
  intro g
  induction g with
  | zero => intro b pos hg h; omega
  | succ g ih =>
    intro b pos hg h
    rw [toBreak] at h
    by_cases hff : b.head? = some 0xff
    · rw [if_pos hff] at h; cases h
    rw [if_neg hff] at h
    have ho : Dec.openLvl none ⟨pos, b⟩ = (none, ⟨pos, b⟩) := by
      unfold Dec.openLvl
      simp only
      rw [if_neg hff]
    rw [ho, front]
    cases e : p b with
    | none => exact ⟨⟨[], .stop (by simp), .nil⟩, e, Nat.le_refl _⟩
    | some y =>
      obtain ⟨x, r⟩ := y
      rw [e] at h
      simp only at h ⊢
      have h' : toBreak p g r = none := by
        split at h
        · assumption
        · cases h
      obtain ⟨a, en, rfl, h1, h2, h3, h4, h5⟩ := hp.step e pos
      obtain ⟨⟨es, k1, k2⟩, k3, k4⟩ := ih r (pos + a.length)
        (by simp only [List.length_append] at hg; omega) h'
      exact ⟨⟨en :: es, .cons (by simp) h2 h3 h4 k1, .cons h5 k2⟩, k3,
        by simp only [List.length_append]; omega⟩

theorem parse_slot {f d : Nat} :
    SlotIs P false d (fun x e => Vals P d x e.itm e.cur) (parse P.maxTags f d) := by
  intro b x r h
  obtain ⟨a, h1, h2⟩ := parse_sound _ _ _ _ _ h
  refine ⟨a, h1, (reads_run P h2).slot, fun pos => ?_⟩
  obtain ⟨it, c1, h3, h4⟩ := Vals.of_item (r := r) h2 pos
  exact ⟨none, it, c1, h3, h4⟩

/-- An entry of a map that is read. -/
def EntryRead (P : QParams) (d : Nat) (kv : Item × Item) (e : Entry) : Prop :=
  ((∃ l, e.label = some l ∧ AtomIs kv.1.bare l ∧ kv.1.bare.isLabel = true) ∧
    ∃ cE', ValIs P 4 d kv.2 e.itm e.cur cE') ∨ (kv = (notItem, notItem) ∧ e.label = none)

theorem entryAt_slot {f d : Nat} :
    SlotIs P true d (EntryRead P d) (entryAt P.maxTags f (parse P.maxTags f d)) := by
  intro b kv r h
  unfold entryAt at h
  split at h
  · rename_i hl
    cases h
    obtain ⟨a, h1, h2⟩ := loneAt_back hl
    refine ⟨a, h1, lone_slot h2, fun pos => ?_⟩
    obtain ⟨e, he⟩ := (lone_entry h2).2 pos r
    exact ⟨_, _, _, he, .inr ⟨rfl, rfl⟩⟩
  · split at h
    · cases h
    · rename_i k r1 hk
      split at h
      · rename_i hkey
        split at h
        · cases h
        · rename_i v r2 hv
          cases h
          obtain ⟨a, rfl, h2⟩ := parse_sound _ _ _ _ _ hk
          obtain ⟨a', rfl, h3⟩ := parse_sound _ _ _ _ _ hv
          refine ⟨a ++ a', by simp, (reads_run P h3).key h2 (isKey_iff.mp hkey), fun pos => ?_⟩
          obtain ⟨v, ts, h4, h5, h5', h6⟩ := key_raw (P := P) h2 (isKey_iff.mp hkey) pos (a' ++ r)
          obtain ⟨it, c1, h7, h8, h9⟩ := reads_item P 4 h3 (pos + a.length) r
          rw [List.append_assoc]
          exact ⟨some v, it, c1, entry_map h4 h6 h7 h8, .inl ⟨⟨v, rfl, h5, h5'⟩, _, h9⟩⟩
      · cases h

/-- The content of an array that is not read. -/
theorem BoxAt.array {f d : Nat} {b : Bytes} {h : Hd} (hb : BoxAt f b h) (hf : b.length ≤ f)
    (hm : h.major = 4) (hp : parse P.maxTags f (d + 1) b = none) (p : Nat) :
    (∃ es, CutRun P false d (Dec.openLvl h.count ⟨p, h.rest⟩).1 (Dec.openLvl h.count ⟨p, h.rest⟩).2 es
        (front (parse P.maxTags f d) (f + 1) h.rest).2 ∧
      Each (fun x e => Vals P d x e.itm e.cur) (front (parse P.maxTags f d) (f + 1) h.rest).1 es) ∧
    parse P.maxTags f d (front (parse P.maxTags f d) (f + 1) h.rest).2 = none ∧
    (front (parse P.maxTags f d) (f + 1) h.rest).2.length ≤ f := by
  obtain ⟨h0, h1, -⟩ := box_none hb hf hp
  obtain ⟨h2, h3⟩ := h1 hm
  have hlen : h.rest.length ≤ f := by
    have h4 := rest_lt hb.head
    obtain ⟨tb, -, -, h5⟩ := tagsAt_nums f b
    have := congrArg List.length h5
    simp only [List.length_append] at this
    omega
  unfold Hd.count
  by_cases ha : h.ai = 31
  · rw [if_pos ha]
    obtain ⟨k1, k2, k3⟩ := toBreak_cut (P := P) parse_slot (f + 1) h.rest p (by omega) (h3 ha)
    exact ⟨k1, k2, by omega⟩
  · rw [if_neg ha]
    obtain ⟨k1, k2, k3⟩ := times_cut (P := P) parse_slot h.arg h.rest p (f + 1) (by omega) (h2 ha)
    exact ⟨k1, k2, by omega⟩

/-- The content of a map that is not read. -/
theorem BoxAt.map {f d : Nat} {b : Bytes} {h : Hd} (hb : BoxAt f b h) (hf : b.length ≤ f)
    (hm : h.major = 5) (hp : parse P.maxTags f (d + 1) b = none) (p : Nat) :
    (∃ es, CutRun P true d (Dec.openLvl h.count ⟨p, h.rest⟩).1 (Dec.openLvl h.count ⟨p, h.rest⟩).2 es
        (front (entryAt P.maxTags f (parse P.maxTags f d)) (f + 1) h.rest).2 ∧
      Each (EntryRead P d) (front (entryAt P.maxTags f (parse P.maxTags f d)) (f + 1) h.rest).1 es) ∧
    entryAt P.maxTags f (parse P.maxTags f d)
      (front (entryAt P.maxTags f (parse P.maxTags f d)) (f + 1) h.rest).2 = none ∧
    (front (entryAt P.maxTags f (parse P.maxTags f d)) (f + 1) h.rest).2.length ≤ f := by
  obtain ⟨h0, -, h1⟩ := box_none hb hf hp
  obtain ⟨h2, h3⟩ := h1 hm
  have hlen : h.rest.length ≤ f := by
    have h4 := rest_lt hb.head
    obtain ⟨tb, -, -, h5⟩ := tagsAt_nums f b
    have := congrArg List.length h5
    simp only [List.length_append] at this
    omega
  unfold Hd.count
  by_cases ha : h.ai = 31
  · rw [if_pos ha]
    obtain ⟨k1, k2, k3⟩ := toBreak_cut (P := P) entryAt_slot (f + 1) h.rest p (by omega) (h3 ha)
    exact ⟨k1, k2, by omega⟩
  · rw [if_neg ha]
    obtain ⟨k1, k2, k3⟩ := times_cut (P := P) entryAt_slot h.arg h.rest p (f + 1) (by omega) (h2 ha)
    exact ⟨k1, k2, by omega⟩

/-- Stepping over what is left. -/
theorem CutRun.skip {m : Bool} {d room : Nat} {left : Option Nat} {c : Cur} {es : List Entry} {last : Bytes}
    {s : Stop} (h : CutRun P m d left c es last) (hroom : 1 + d ≤ room)
    (hlast : ∀ left pos, ∃ e, skipAll P room [⟨m, left⟩] ⟨pos, last⟩ = .error e ∧ IsStop s e) :
    ∃ e, skipAll P room [⟨m, left⟩] c = .error e ∧ IsStop s e := by
  induction h with
  | stop _ => exact hlast _ _
  | cons hl h1 h2 h3 h4 ih =>
    rw [skip_slot h1 (by simpa using hroom), ascend_stepLeft hl, if_neg h4.left_ne]
    exact ih hlast

end TCose
