import Verif.Spec.Stop
import Verif.Lemmas.Parse
import Verif.Lemmas.ArrayBody

/-!
# The decoder on octets that cannot be read

Where `Spec.stopItem` says why an item is not read, the decoder stops there, with an error of
that kind.
-/

namespace TCose
open Spec

/-- The error of the decoder is of the kind. -/
def IsStop (s : Stop) (e : QErr) : Prop :=
  Stops e ∧ e ≠ .tooManyTags ∧ (e.notWellFormed = true ↔ s = .bad)

theorem IsStop.hitEnd : IsStop .bad .hitEnd := ⟨⟨nofun, nofun⟩, nofun, by simp [QErr.notWellFormed]⟩
theorem IsStop.badBreak : IsStop .bad .badBreak :=
  ⟨⟨nofun, nofun⟩, nofun, by simp [QErr.notWellFormed]⟩
theorem IsStop.noMore : IsStop .limit .noMoreItems :=
  ⟨⟨nofun, nofun⟩, nofun, by simp [QErr.notWellFormed]⟩
theorem IsStop.deep : IsStop .limit .nestingTooDeep :=
  ⟨⟨nofun, nofun⟩, nofun, by simp [QErr.notWellFormed]⟩
theorem IsStop.tooLong : IsStop .limit .decodeTooLong :=
  ⟨⟨nofun, nofun⟩, nofun, by simp [QErr.notWellFormed]⟩
theorem IsStop.noAlloc : IsStop .limit .noStringAllocator :=
  ⟨⟨nofun, nofun⟩, nofun, by simp [QErr.notWellFormed]⟩
theorem IsStop.label : IsStop .limit .mapLabelType :=
  ⟨⟨nofun, nofun⟩, nofun, by simp [QErr.notWellFormed]⟩

theorem IsStop.inHeader {s : Stop} {e : QErr} (h : IsStop s e) : headErr e = s.inHeader := by
  unfold headErr
  cases s with
  | bad => rw [if_pos (h.2.2.mpr rfl)]; rfl
  | limit => rw [if_neg (fun hc => by cases h.2.2.mp hc)]; rfl

theorem IsStop.outside {s : Stop} {e : QErr} (h : IsStop s e) : stopErr e = s.outside := by
  unfold stopErr
  rw [if_neg h.2.1]
  cases s with
  | bad => rw [if_pos (h.2.2.mpr rfl)]; rfl
  | limit => rw [if_neg (fun hc => by cases h.2.2.mp hc)]; rfl

/-! ### Heads -/

theorem decodeHead_none {b : Bytes} (e : headAt b = none) (pos : Nat) :
    ∃ c1, decodeHead ⟨pos, b⟩ = (.error .hitEnd, c1) := by
  cases b with
  | nil => exact ⟨_, rfl⟩
  | cons b r =>
    simp only [headAt] at e
    unfold decodeHead
    simp only
    split at e
    · cases e
    · rename_i h1
      rw [if_neg (by omega), if_pos (by omega)]
      split at e
      · rename_i h2
        rw [if_pos h2]
        exact ⟨_, rfl⟩
      · cases e

theorem decodeHead_some {b : Bytes} {h : Hd} (e : headAt b = some h) (hn : ¬ (28 ≤ h.ai ∧ h.ai ≤ 30))
    (pos : Nat) : decodeHead ⟨pos, b⟩ =
      (.ok (h.major, h.ai, h.arg), ⟨pos + (b.length - h.rest.length), h.rest⟩) := by
  cases b with
  | nil => cases e
  | cons b r =>
    simp only [headAt] at e
    unfold decodeHead
    simp only
    split at e
    · rename_i h1
      cases e
      simp only [List.length_cons] at hn ⊢
      rw [show r.length + 1 - r.length = 1 by omega]
      by_cases h2 : b.toNat % 32 < 24
      · rw [if_pos h2]
      · rw [if_neg h2, if_neg (by omega), if_neg (by omega)]
        have : b.toNat % 32 = 31 := by omega
        rw [this]
    · rename_i h1
      rw [if_neg (by omega), if_pos (by omega)]
      split at e
      · cases e
      · rename_i h2
        cases e
        rw [if_neg h2]
        simp only [Cur.adv, List.length_cons, List.length_drop, octetsNum_eq]
        congr 2
        generalize 2 ^ (b.toNat % 32 - 24) = k at h2 ⊢
        omega

theorem notCbor_false {h : Hd} (hn : h.notCbor = false) : ¬ (28 ≤ h.ai ∧ h.ai ≤ 30) ∧
    ¬ (h.ai = 31 ∧ (h.major = 0 ∨ h.major = 1 ∨ h.major = 6)) ∧
    ¬ (h.major = 7 ∧ h.ai = 24 ∧ h.arg < 32) := by
  simp only [Hd.notCbor, Bool.or_eq_false_iff, Bool.and_eq_false_iff, decide_eq_false_iff_not,
    beq_eq_false_iff_ne] at hn
  omega

/-- The count in the head of a container. -/
def Spec.Hd.count (h : Hd) : Option Nat := if h.ai = 31 then none else some h.arg

theorem atom_none {b : Bytes} (e : headAt b = none) (pos : Nat) :
    ∃ c1, decodeAtom ⟨pos, b⟩ = (.error .hitEnd, c1) := by
  obtain ⟨c1, h⟩ := decodeHead_none e pos
  exact ⟨c1, by unfold decodeAtom; rw [h]⟩

theorem atom_stop {b : Bytes} {h : Hd} {s : Stop} (e : headAt b = some h) (hs : h.stop = some s)
    (pos : Nat) : ∃ x c1, decodeAtom ⟨pos, b⟩ = (.error x, c1) ∧ x.unrec = true ∧ IsStop s x := by
  unfold Hd.stop at hs
  split at hs
  · cases hs
  rename_i hn
  obtain ⟨h1, -, -⟩ := notCbor_false (by simpa using hn)
  unfold decodeAtom
  rw [decodeHead_some e h1]
  simp only
  split at hs
  · rename_i hm
    have : ∀ mk, ∃ x c1, decodeStr mk h.ai h.arg ⟨pos + (b.length - h.rest.length), h.rest⟩ =
        (.error x, c1) ∧ x.unrec = true ∧ IsStop s x := by
      intro mk
      unfold decodeStr
      split at hs
      · rename_i ha
        cases hs
        rw [if_pos ha]
        exact ⟨_, _, rfl, rfl, .noAlloc⟩
      · rename_i ha
        rw [if_neg ha]
        split at hs
        · rename_i hl
          cases hs
          rw [if_pos hl]
          exact ⟨_, _, rfl, rfl, .hitEnd⟩
        · cases hs
    rcases hm with hm | hm
    · rw [if_neg (by omega), if_neg (by omega), if_pos hm]; exact this _
    · rw [if_neg (by omega), if_neg (by omega), if_neg (by omega), if_pos hm]; exact this _
  · split at hs
    · rename_i hm
      split at hs
      · rename_i ha
        cases hs
        rw [if_neg (by omega), if_neg (by omega), if_neg (by omega), if_neg (by omega), if_pos hm,
          if_neg ha.1, if_pos (by omega)]
        exact ⟨_, _, rfl, rfl, .tooLong⟩
      · cases hs
    · split at hs
      · rename_i hm
        split at hs
        · rename_i ha
          cases hs
          rw [if_neg (by omega), if_neg (by omega), if_neg (by omega), if_neg (by omega),
            if_neg (by omega), if_pos hm, if_neg ha.1, if_pos (by omega)]
          exact ⟨_, _, rfl, rfl, .tooLong⟩
        · cases hs
      · cases hs

/-- The position behind the head. -/
def behind (pos : Nat) (b : Bytes) (h : Hd) : Cur := ⟨pos + (b.length - h.rest.length), h.rest⟩

theorem atom_arr {b : Bytes} {h : Hd} (e : headAt b = some h) (hn : h.notCbor = false)
    (hs : h.stop = none) (hm : h.major = 4) (pos : Nat) :
    decodeAtom ⟨pos, b⟩ = (.ok (.val (.arr h.count)), behind pos b h) := by
  obtain ⟨h1, -, -⟩ := notCbor_false hn
  unfold Hd.stop at hs
  rw [hn] at hs
  simp only [hm] at hs
  unfold decodeAtom
  rw [decodeHead_some e h1]
  simp only [hm, Hd.count, behind]
  by_cases ha : h.ai = 31
  · simp [ha]
  · simp only [ha] at hs
    have : ¬ h.arg > 65534 := fun hc => by simp [hc] at hs; exact ha hs
    simp [ha, this]

theorem atom_map {b : Bytes} {h : Hd} (e : headAt b = some h) (hn : h.notCbor = false)
    (hs : h.stop = none) (hm : h.major = 5) (pos : Nat) :
    decodeAtom ⟨pos, b⟩ = (.ok (.val (.map h.count)), behind pos b h) := by
  obtain ⟨h1, -, -⟩ := notCbor_false hn
  unfold Hd.stop at hs
  rw [hn] at hs
  simp only [hm] at hs
  unfold decodeAtom
  rw [decodeHead_some e h1]
  simp only [hm, Hd.count, behind]
  by_cases ha : h.ai = 31
  · simp [ha]
  · simp only [ha] at hs
    have : ¬ h.arg > 32767 := fun hc => by simp [hc] at hs; exact ha hs
    simp [ha, this]

theorem atom_tag {b : Bytes} {h : Hd} (e : headAt b = some h) (hn : h.notCbor = false)
    (hm : h.major = 6) (pos : Nat) :
    decodeAtom ⟨pos, b⟩ = (.ok (.tag h.arg), behind pos b h) := by
  obtain ⟨h1, h2, -⟩ := notCbor_false hn
  unfold decodeAtom
  rw [decodeHead_some e h1]
  have : h.ai ≠ 31 := fun hc => h2 ⟨hc, .inr (.inr hm)⟩
  simp [hm, this, behind]

theorem atom_break {b : Bytes} {h : Hd} (e : headAt b = some h) (hm : h.major = 7) (ha : h.ai = 31)
    (pos : Nat) : decodeAtom ⟨pos, b⟩ = (.ok (.val .brk), behind pos b h) := by
  unfold decodeAtom
  rw [decodeHead_some e (by omega)]
  simp [hm, ha, behind, decodeType7]

theorem rest_lt {b : Bytes} {h : Hd} (e : headAt b = some h) : h.rest.length < b.length := by
  obtain ⟨-, -, ⟨-, hb, h1, h2⟩ | ⟨-, -, h2⟩⟩ := headAt_back e
  · have := headOf_pos h1
    rw [h2, List.length_append]; omega
  · rw [h2]; simp

theorem tagsAt_end : ∀ (f : Nat) (b : Bytes), b.length ≤ f → ∀ h, headAt (tagsAt f b).2 = some h →
    ¬ (h.major = 6 ∧ h.ai < 28) := by
  intro f
  induction f with
  | zero =>
    intro b hb h e
    have : b = [] := List.length_eq_zero_iff.mp (by omega)
    subst this
    cases e
  | succ f ih =>
    intro b hb h e
    unfold tagsAt at e
    split at e
    · rename_i hn
      simp only at e
      rw [hn] at e
      cases e
    · rename_i h' hs
      split at e
      · exact ih h'.rest (by have := rest_lt hs; omega) h e
      · rename_i hn
        simp only at e
        rw [hs] at e
        cases e
        exact hn

theorem piece_some {b : Bytes} {h : Hd} (e : headAt b = some h) (hs : h.stop = none)
    (hn : h.notCbor = false) (h6 : ¬ (h.major = 6 ∧ h.ai < 28)) : ∃ r, h.piece = some r := by
  obtain ⟨h1, h2, -⟩ := notCbor_false hn
  obtain ⟨-, h3, -⟩ := headAt_back e
  unfold Hd.stop at hs
  rw [hn] at hs
  simp only [Bool.false_eq_true, if_false] at hs
  unfold Hd.piece Hd.string
  split
  · rename_i hm
    rw [if_pos hm] at hs
    split at hs
    · cases hs
    · split at hs
      · cases hs
      · rename_i ha hl
        rw [if_neg (by omega)]
        exact ⟨_, rfl⟩
  · rename_i hm
    rw [if_neg hm] at hs
    split
    · rename_i hm
      rw [if_pos hm] at hs
      split at hs
      · cases hs
      · rw [if_pos (by omega)]
        exact ⟨_, rfl⟩
    · rename_i hm
      rw [if_neg hm] at hs
      split
      · rename_i hm
        rw [if_pos hm] at hs
        split at hs
        · cases hs
        · rw [if_pos (by omega)]
          exact ⟨_, rfl⟩
      · split
        · omega
        · exact ⟨_, rfl⟩

theorem atom_go {b : Bytes} {h : Hd} (e : headAt b = some h) (hs : h.stop = none)
    (h6 : ¬ (h.major = 6 ∧ h.ai < 28)) (pos : Nat) :
    (∃ v c1, decodeAtom ⟨pos, b⟩ = (.ok (.val v), c1)) ∨
    ∃ x c1, x.unrec = false ∧ decodeAtom ⟨pos, b⟩ = (.error x, c1) := by
  cases hn : h.notCbor with
  | true =>
    obtain ⟨a, h1, h2⟩ := notCbor_back e hn
    obtain ⟨x, h3, h4⟩ := decodeAtom_not h2 pos h.rest
    rw [← h1] at h4
    exact .inr ⟨x, _, by rcases h3 with rfl | rfl | rfl <;> rfl, h4⟩
  | false =>
    obtain ⟨r, hr⟩ := piece_some e hs hn h6
    obtain ⟨a, h1, h2⟩ := piece_back e hn hr
    rcases piece_val h2 pos r with ⟨v, h3⟩ | ⟨x, h3, h4⟩
    · rw [← h1] at h3; exact .inl ⟨v, _, h3⟩
    · rw [← h1] at h4; exact .inr ⟨x, _, h3, h4⟩

theorem nextTagged_hard {P : QParams} {fuel : Nat} {c c1 : Cur} {tags : List Nat} {over : Bool}
    {e : QErr} (hf : 0 < fuel) (he : e.unrec = true) (h : decodeAtom c = (.error e, c1)) :
    nextTagged P fuel c tags over = (.error e, c1) := by
  cases fuel with
  | zero => omega
  | succ n => rw [nextTagged, h]; simp [he]

/-- The head behind the tags is wrong. -/
theorem raw_stop {P : QParams} {f : Nat} {b : Bytes} {s : Stop} (h : headStop f b = some s) (pos : Nat) :
    ∃ e c1, nextRaw P ⟨pos, b⟩ = (.error e, c1) ∧ IsStop s e := by
  obtain ⟨ts, hb, h1, -, h3⟩ := tagsAt_back f b
  obtain ⟨fuel, h4, h5⟩ := tagHeads_raw P h1 pos (tagsAt f b).2
  rw [← h3] at h5
  rw [h5]
  unfold headStop at h
  split at h
  · rename_i hn
    cases h
    obtain ⟨c1, h6⟩ := atom_none hn (pos + hb.length)
    exact ⟨_, _, nextTagged_hard h4 rfl h6, .hitEnd⟩
  · rename_i hd hn
    obtain ⟨x, c1, h6, h7, h8⟩ := atom_stop hn h (pos + hb.length)
    exact ⟨_, _, nextTagged_hard h4 h7 h6, h8⟩

theorem raw_go {P : QParams} {f : Nat} {b : Bytes} (h : headStop f b = none) (hf : b.length ≤ f)
    (pos : Nat) : ∃ it c1, nextRaw P ⟨pos, b⟩ = (.ok it, c1) := by
  obtain ⟨ts, hb, h1, -, h3⟩ := tagsAt_back f b
  obtain ⟨fuel, h4, h5⟩ := tagHeads_raw P h1 pos (tagsAt f b).2
  rw [← h3] at h5
  rw [h5]
  unfold headStop at h
  split at h
  · cases h
  · rename_i hd hn
    rcases atom_go hn h (tagsAt_end f b hf hd hn) (pos + hb.length) with ⟨v, c1, h6⟩ | ⟨x, c1, h6, h7⟩
    · exact ⟨_, _, nextTagged_val h4 h6⟩
    · exact ⟨_, _, nextTagged_soft h4 h6 h7⟩

/-! ### Items -/

/-- Stepping over an item whose head was read at `c1` fails. -/
def PushFails (P : QParams) (room : Nat) (v : Val) (st : List NLvl) (c1 : Cur) (e : QErr) : Prop :=
  push room v st c1 = .error e ∨
  ∃ st' c2, push room v st c1 = .ok (st', c2) ∧ skipAll P room st' c2 = .error e

theorem PushFails.skipValue {P : QParams} {room : Nat} {v : Val} {c1 : Cur} {e : QErr}
    (h : PushFails P room v [] c1 e) : skipValue P room v c1 = .error e := by
  unfold TCose.skipValue
  rcases h with h | ⟨st', c2, h1, h2⟩
  · rw [h]
  · rw [h1]; exact h2

/-- The item at the front is not read. -/
def DeadAt (P : QParams) (room : Nat) (st : List NLvl) (pos : Nat) (b : Bytes) (s : Stop) : Prop :=
  ∀ fuel tags over, b.length < fuel →
    (∃ e c1, nextTagged P fuel ⟨pos, b⟩ tags over = (.error e, c1) ∧ IsStop s e) ∨
    (∃ it c1, nextTagged P fuel ⟨pos, b⟩ tags over = (.ok it, c1) ∧ it.val = .brk ∧ s = .bad) ∨
    (∃ it c1 e n, nextTagged P fuel ⟨pos, b⟩ tags over = (.ok it, c1) ∧
      (it.val = .arr n ∨ it.val = .map n) ∧ PushFails P room it.val st c1 e ∧ IsStop s e)

/-- The array element or map entry is not read. -/
def DeadSlot (P : QParams) (m : Bool) (room : Nat) (st : List NLvl) (c : Cur) (s : Stop) : Prop :=
  (∃ e c1, entry P m c = (.error e, c1) ∧ IsStop s e) ∨
  (∃ l it c1 e, entry P m c = (.ok (l, it), c1) ∧ PushFails P room it.val st c1 e ∧ IsStop s e)

theorem tagContent_break {P : QParams} {it : Itm} (h : it.val = .brk) : tagContent P it = it := by
  unfold tagContent
  rw [h]
  split <;> rfl

theorem tagContent_box {P : QParams} {it : Itm} {n : Option Nat} (h : it.val = .arr n ∨ it.val = .map n) :
    tagContent P it = it := by
  unfold tagContent
  rcases h with h | h <;> rw [h] <;> split <;> rfl

/-- The same, with the treatment of tags. -/
theorem DeadAt.item {P : QParams} {room : Nat} {st : List NLvl} {pos : Nat} {b : Bytes} {s : Stop}
    (h : DeadAt P room st pos b s) :
    (∃ e c1, nextItem P ⟨pos, b⟩ = (.error e, c1) ∧ IsStop s e) ∨
    (∃ it c1, nextItem P ⟨pos, b⟩ = (.ok it, c1) ∧ it.val = .brk ∧ s = .bad) ∨
    (∃ it c1 e n, nextItem P ⟨pos, b⟩ = (.ok it, c1) ∧
      (it.val = .arr n ∨ it.val = .map n) ∧ PushFails P room it.val st c1 e ∧ IsStop s e) := by
  unfold nextItem nextRaw
  rcases h (b.length + 1) [] false (by omega) with ⟨e, c1, h1, h2⟩ | ⟨it, c1, h1, h2, h3⟩ |
    ⟨it, c1, e, n, h1, h2, h3, h4⟩
  · exact .inl ⟨e, c1, by simp only [h1], h2⟩
  · exact .inr (.inl ⟨it, c1, by simp only [h1, tagContent_break h2], h2, h3⟩)
  · exact .inr (.inr ⟨it, c1, e, n, by simp only [h1, tagContent_box h2], h2, h3, h4⟩)

theorem box_brk {v : Val} {n : Option Nat} (h : v = .arr n ∨ v = .map n) : v ≠ .brk := by
  rcases h with rfl | rfl <;> nofun

theorem DeadAt.slot {P : QParams} {room : Nat} {st : List NLvl} {pos : Nat} {b : Bytes} {s : Stop}
    (h : DeadAt P room st pos b s) : DeadSlot P false room st ⟨pos, b⟩ s := by
  unfold DeadSlot entry
  simp only [Bool.false_eq_true, if_false]
  rcases h.item with ⟨e, c1, h1, h2⟩ | ⟨it, c1, h1, h2, rfl⟩ | ⟨it, c1, e, n, h1, h2, h3, h4⟩
  · exact .inl ⟨e, c1, by rw [h1], h2⟩
  · exact .inl ⟨.badBreak, c1, by rw [h1]; simp only [h2, if_true], .badBreak⟩
  · exact .inr ⟨none, it, c1, e, by rw [h1]; simp only [if_neg (box_brk h2)], h3, h4⟩

/-- A label, and a value that is not read. -/
theorem DeadAt.value {P : QParams} {room : Nat} {st : List NLvl} {pos pos' : Nat} {b r : Bytes} {s : Stop}
    {v : Val} {tags : List Nat} (hk : nextRaw P ⟨pos, b⟩ = (.ok ⟨v, tags, none⟩, ⟨pos', r⟩))
    (hl : v.isLabel = true) (h : DeadAt P room st pos' r s) : DeadSlot P true room st ⟨pos, b⟩ s := by
  have hv : v ≠ .brk := fun hc => by rw [hc] at hl; cases hl
  unfold DeadSlot entry
  simp only [if_true, hk, if_neg hv]
  rcases h.item with ⟨e, c1, h1, h2⟩ | ⟨it, c1, h1, h2, rfl⟩ | ⟨it, c1, e, n, h1, h2, h3, h4⟩
  · exact .inl ⟨e, c1, by rw [h1], h2⟩
  · exact .inl ⟨.badBreak, c1, by rw [h1]; simp only [hl, h2, if_true], .badBreak⟩
  · exact .inr ⟨some v, it, c1, e, by rw [h1]; simp only [hl, if_true, if_neg (box_brk h2)], h3, h4⟩

/-! ### Containers -/

variable {P : QParams}

theorem skip_dead {m : Bool} {room : Nat} {left : Option Nat} {st : List NLvl} {pos : Nat} {b : Bytes}
    {q : Bytes → Stop} (h : b ≠ [] → DeadSlot P m room (⟨m, left⟩ :: st) ⟨pos, b⟩ (q b)) :
    ∃ e, skipAll P room (⟨m, left⟩ :: st) ⟨pos, b⟩ = .error e ∧ IsStop (stopOr q b) e := by
  rw [skipAll_cons]
  unfold stopOr
  cases b with
  | nil => exact ⟨_, by simp, .noMore⟩
  | cons x b =>
    rw [if_neg (by simp), if_neg (by simp)]
    rcases h (by simp) with ⟨e, c1, h1, h2⟩ | ⟨l, it, c1, e, h1, h2 | ⟨st', c2, h2, h3⟩, h4⟩
    · exact ⟨e, by simp only [h1], h2⟩
    · exact ⟨e, by simp only [h1, h2], h4⟩
    · exact ⟨e, by simp only [h1, h2, h3], h4⟩

theorem skip_slot {m : Bool} {d room : Nat} {left : Option Nat} {st : List NLvl} {pos : Nat} {a r : Bytes}
    (h : SlotRun P m d a) (hroom : st.length + 1 + d ≤ room) :
    skipAll P room (⟨m, left⟩ :: st) ⟨pos, a ++ r⟩ =
      skipAll P room (ascend (⟨m, left⟩ :: st) ⟨pos + a.length, r⟩).1
        (ascend (⟨m, left⟩ :: st) ⟨pos + a.length, r⟩).2 := by
  obtain ⟨hf, hs⟩ := h
  obtain ⟨l, it, c1, he, st', c2, hp, hr⟩ := hs room (⟨m, left⟩ :: st) pos r
    (by simp only [List.length_cons]; omega)
  rw [skipAll_cons]
  obtain ⟨x, s', rfl, -⟩ := hf
  rw [if_neg (by simp)]
  simp only [he, hp, hr]

theorem times_stop {α : Type} {p : Bytes → Option (α × Bytes)} {q : Bytes → Stop} {m : Bool}
    {d room f : Nat} {st : List NLvl} (hroom : st.length + 1 + d ≤ room)
    (hp : ∀ b x r, p b = some (x, r) → ∃ a, b = a ++ r ∧ SlotRun P m d a)
    (hq : ∀ b left pos, b.length ≤ f → p b = none → b ≠ [] →
      DeadSlot P m room (⟨m, left⟩ :: st) ⟨pos, b⟩ (q b)) :
    ∀ (n : Nat) (b : Bytes) (pos g : Nat), b.length ≤ f → b.length < g → times p n b = none →
      ∃ e, skipAll P room (⟨m, some n⟩ :: st) ⟨pos, b⟩ = .error e ∧ IsStop (stopOr q (front p g b).2) e := by
  intro n
  induction n with
  | zero => intro b pos g _ _ h; cases h
  | succ n ih =>
    intro b pos g hb hg h
    obtain ⟨g, rfl⟩ : ∃ g', g = g' + 1 := ⟨g - 1, by omega⟩
    simp only [times] at h
    unfold front
    cases hpb : p b with
    | none =>
      simp only
      exact skip_dead fun hne => hq b _ pos hb hpb hne
    | some xr =>
      obtain ⟨x, r⟩ := xr
      simp only
      obtain ⟨a, rfl, hr⟩ := hp _ _ _ hpb
      have h1 := hr.1.length
      simp only [hpb] at h
      have ht : times p n r = none := by
        cases ht : times p n r with
        | none => rfl
        | some y => rw [ht] at h; cases h
      have hn : n ≠ 0 := fun hc => by rw [hc] at ht; cases ht
      rw [skip_slot hr hroom, ascend, if_neg (by omega)]
      simp only [List.length_append] at hb hg
      exact ih r _ g (by omega) (by omega) ht

theorem toBreak_stop {α : Type} {p : Bytes → Option (α × Bytes)} {q : Bytes → Stop} {m : Bool}
    {d room f : Nat} {st : List NLvl} (hroom : st.length + 1 + d ≤ room)
    (hp : ∀ b x r, p b = some (x, r) → ∃ a, b = a ++ r ∧ SlotRun P m d a)
    (hq : ∀ b left pos, b.length ≤ f → p b = none → b ≠ [] →
      DeadSlot P m room (⟨m, left⟩ :: st) ⟨pos, b⟩ (q b)) :
    ∀ (g : Nat) (b : Bytes) (pos : Nat), b.length ≤ f → b.length < g → toBreak p g b = none →
      ∃ e, skipAll P room (ascend (⟨m, none⟩ :: st) ⟨pos, b⟩).1 (ascend (⟨m, none⟩ :: st) ⟨pos, b⟩).2 =
        .error e ∧ IsStop (stopOr q (front p g b).2) e := by
  intro g
  induction g with
  | zero => intro b pos _ hg; omega
  | succ g ih =>
    intro b pos hb hg h
    simp only [toBreak] at h
    split at h
    · cases h
    rename_i hff
    rw [ascend, if_neg hff]
    unfold front
    cases hpb : p b with
    | none =>
      simp only
      exact skip_dead fun hne => hq b _ pos hb hpb hne
    | some xr =>
      obtain ⟨x, r⟩ := xr
      simp only
      obtain ⟨a, rfl, hr⟩ := hp _ _ _ hpb
      have h1 := hr.1.length
      simp only [hpb] at h
      have ht : toBreak p g r = none := by
        cases ht : toBreak p g r with
        | none => rfl
        | some y => rw [ht] at h; cases h
      rw [skip_slot hr hroom]
      simp only [List.length_append] at hb hg
      exact ih r _ (by omega) (by omega) ht

/-- A container whose content is not read. -/
theorem box_stop {α : Type} {p : Bytes → Option (α × Bytes)} {q : Bytes → Stop} (m : Bool)
    {d room f : Nat} {st : List NLvl} (hroom : st.length + 1 + d ≤ room)
    (hp : ∀ b x r, p b = some (x, r) → ∃ a, b = a ++ r ∧ SlotRun P m d a)
    (hq : ∀ b left pos, b.length ≤ f → p b = none → b ≠ [] →
      DeadSlot P m room (⟨m, left⟩ :: st) ⟨pos, b⟩ (q b)) (cnt : Option Nat) (b : Bytes) (pos : Nat)
    (hb : b.length ≤ f) (hc : ∀ n, cnt = some n → n ≠ 0 ∧ times p n b = none)
    (hn : cnt = none → toBreak p (f + 1) b = none) :
    ∃ e, PushFails P room (if m then .map cnt else .arr cnt) st ⟨pos, b⟩ e ∧
      IsStop (stopOr q (front p (f + 1) b).2) e := by
  have hlt : ¬ st.length ≥ room := by omega
  cases cnt with
  | none =>
    obtain ⟨e, h1, h2⟩ := toBreak_stop hroom hp hq (f + 1) b pos hb (by omega) (hn rfl)
    exact ⟨e, .inr ⟨_, _, by cases m <;> simp only [push, if_neg hlt, Bool.false_eq_true, if_false, if_true], h1⟩, h2⟩
  | some n =>
    obtain ⟨h0, ht⟩ := hc n rfl
    obtain ⟨e, h1, h2⟩ := times_stop hroom hp hq n b pos (f + 1) hb (by omega) ht
    obtain ⟨n, rfl⟩ : ∃ k, n = k + 1 := ⟨n - 1, by omega⟩
    exact ⟨e, .inr ⟨_, _, by cases m <;> simp only [push, if_neg hlt, Bool.false_eq_true, if_false, if_true], h1⟩, h2⟩

theorem push_deep (m : Bool) {cnt : Option Nat} (h0 : cnt ≠ some 0) {room : Nat} {st : List NLvl}
    (hr : room ≤ st.length) (c : Cur) :
    PushFails P room (if m then .map cnt else .arr cnt) st c .nestingTooDeep := by
  refine .inl ?_
  cases cnt with
  | none => cases m <;> simp [push, hr]
  | some n =>
    obtain ⟨n, rfl⟩ : ∃ k, n = k + 1 := ⟨n - 1, by have : n ≠ 0 := fun h => h0 (by rw [h]); omega⟩
    cases m <;> simp [push, hr]

/-! ### The theorem -/

/-- The label of the entry is read. -/
theorem label_parse {t f d : Nat} {b r : Bytes} {h : Hd} (hf : b.length ≤ f)
    (e : headAt (tagsAt f b).2 = some h) (hs : h.stop = none) (hn : h.notCbor = false)
    (hlow : ¬ (h.major = 1 ∧ 9223372036854775807 < h.arg)) (hm : h.major ≤ 3) (hp : h.piece = some r)
    (ht : (tagsAt f b).1 ≤ t) :
    ∃ k a, b = a ++ r ∧ Reads t d k a ∧ IsKey t k ∧ parse t f d b = some (k, r) := by
  obtain ⟨ts, hb, h1, h2, h3⟩ := tagsAt_back f b
  obtain ⟨n1, n2, n3⟩ := notCbor_false hn
  obtain ⟨-, h4, h5⟩ := headAt_back e
  have hai : h.ai < 28 := by
    rcases h5 with ⟨h5, -⟩ | ⟨h5, -⟩
    · exact h5
    · exfalso
      have : h.ai = 31 := by omega
      have : h.major = 2 ∨ h.major = 3 := by omega
      unfold Hd.piece Hd.string at hp
      simp [*] at hp
  obtain ⟨hd, h6, h7⟩ : ∃ hb, HeadOf h.major h.arg hb ∧ (tagsAt f b).2 = hb ++ h.rest := by
    rcases h5 with ⟨-, h5⟩ | ⟨h5, -⟩
    · exact h5
    · omega
  have key : ∀ k0 a0, k0.isLabel = true → (∀ n, k0 = .nint n → n ≤ 9223372036854775807) →
      Reads t d k0 a0 → (tagsAt f b).2 = a0 ++ r →
      ∃ k a, b = a ++ r ∧ Reads t d k a ∧ IsKey t k ∧ parse t f d b = some (k, r) := by
    intro k0 a0 hk hk' hr ha
    have hrd : Reads t d (tagged ts k0) (hb ++ a0) := by
      clear h2 h3 ht
      induction h1 with
      | nil => exact hr
      | cons hh _ ih => rw [List.append_assoc]; exact .tag hh ih
    have hba : b = (hb ++ a0) ++ r := by rw [List.append_assoc, ← ha]; exact h3
    refine ⟨tagged ts k0, hb ++ a0, hba, hrd, ⟨ts, k0, rfl, by omega, hk, hk'⟩, ?_⟩
    have := parse_complete hrd f (by rw [hba, List.length_append] at hf; omega) r
    rwa [← hba] at this
  have hm4 : h.major = 0 ∨ h.major = 1 ∨ h.major = 2 ∨ h.major = 3 := by omega
  rcases hm4 with hm | hm | hm | hm
  · rw [hm] at h6
    have : h.rest = r := by unfold Hd.piece at hp; simpa [hm] using hp
    rw [this] at h7
    exact key (.uint h.arg) hd rfl nofun (.uint h6) h7
  · rw [hm] at h6
    have : h.rest = r := by unfold Hd.piece at hp; simpa [hm] using hp
    rw [this] at h7
    exact key (.nint h.arg) hd rfl (fun n hn => by cases hn; omega) (.nint h6) h7
  · rw [hm] at h6
    unfold Hd.piece at hp
    simp only [hm, true_or, if_true, Option.map_eq_some_iff] at hp
    obtain ⟨s, hs1, hs2⟩ := hp
    obtain ⟨-, hs3, hs4⟩ := string_back hs1
    rw [hs4, hs2] at h7
    rw [hs3] at h6
    exact key (.bstr s.1) (hd ++ s.1) rfl nofun (.bstr h6) (by rw [h7, List.append_assoc])
  · rw [hm] at h6
    unfold Hd.piece at hp
    simp only [hm, or_true, if_true, Option.map_eq_some_iff] at hp
    obtain ⟨s, hs1, hs2⟩ := hp
    obtain ⟨-, hs3, hs4⟩ := string_back hs1
    rw [hs4, hs2] at h7
    rw [hs3] at h6
    exact key (.tstr s.1) (hd ++ s.1) rfl nofun (.tstr h6) (by rw [h7, List.append_assoc])

/-- An entry is not read: the decoder stops at its head, or it has a label. -/
theorem entry_halt {f d room : Nat} {st : List NLvl} {q : Bytes → Stop}
    (ih : ∀ b pos, b.length ≤ f → parse P.maxTags f d b = none → DeadAt P room st pos b (q b))
    (b : Bytes) (pos : Nat) (hf : b.length ≤ f)
    (hb : entryAt P.maxTags f (parse P.maxTags f d) b = none) :
    (∃ e c1, entry P true ⟨pos, b⟩ = (.error e, c1) ∧ IsStop (stopEntry f q b) e) ∨
    ((∃ k r, parse P.maxTags f d b = some (k, r) ∧ isKey P.maxTags k = true) ∧
      DeadSlot P true room st ⟨pos, b⟩ (stopEntry f q b)) := by
  unfold entryAt at hb
  split at hb
  · cases hb
  rename_i hlone
  unfold stopEntry
  obtain ⟨ts, hh, h1, h2, h3⟩ := tagsAt_back f b
  cases e : headAt (tagsAt f b).2 with
  | none =>
    obtain ⟨x, c1, h4, h5⟩ := raw_stop (P := P) (f := f) (b := b) (s := .bad)
      (by unfold headStop; rw [e]) pos
    exact .inl ⟨x, c1, by simp only [entry, if_true, h4], h5⟩
  | some h =>
    simp only
    cases hs : h.stop with
    | some s =>
      obtain ⟨x, c1, h4, h5⟩ := raw_stop (P := P) (f := f) (b := b) (s := s)
        (by unfold headStop; rw [e]; exact hs) pos
      exact .inl ⟨x, c1, by simp only [entry, if_true, h4], h5⟩
    | none =>
      simp only
      have h6 := tagsAt_end f b hf h e
      unfold loneAt at hlone
      rw [e] at hlone
      simp only at hlone
      split at hlone
      · cases hlone
      rename_i hn
      split at hlone
      · cases hlone
      rename_i hlow
      have hn : h.notCbor = false := by simpa using hn
      obtain ⟨r, hr⟩ := piece_some e hs hn h6
      rw [hr] at hlone
      have hts : (tagsAt f b).1 ≤ P.maxTags := by
        apply Classical.byContradiction
        intro hc
        rw [if_pos (by omega)] at hlone
        cases hlone
      -- the label as it is fetched
      have hraw : ∀ v c1, decodeAtom ⟨pos + hh.length, (tagsAt f b).2⟩ = (.ok (.val v), c1) →
          nextRaw P ⟨pos, b⟩ = (.ok ⟨v, (ts.take P.maxTags).reverse, none⟩, c1) := by
        intro v c1 hv
        obtain ⟨fuel, h4, h5⟩ := tagHeads_raw P h1 pos (tagsAt f b).2
        rw [← h3] at h5
        rw [h5, nextTagged_val h4 hv]
        have : ¬ P.maxTags < ts.length := by omega
        simp [this]
      split
      · rename_i hbrk
        refine .inl ⟨.badBreak, behind (pos + hh.length) (tagsAt f b).2 h, ?_, .badBreak⟩
        simp only [entry, if_true, hraw _ _ (atom_break e hbrk.1 hbrk.2 _)]
      · rename_i hbrk
        rw [hr]
        simp only
        split
        · rename_i hm
          obtain ⟨k, a, rfl, hk1, hk2, hk3⟩ := label_parse (d := d) hf e hs hn hlow hm hr hts
          obtain ⟨v, tags, hv1, -, -, hv2⟩ := key_raw (P := P) hk1 hk2 pos r
          have hpr : parse P.maxTags f d r = none := by
            rw [hk3] at hb
            simp only [isKey_iff.mpr hk2, if_true] at hb
            split at hb
            · assumption
            · cases hb
          exact .inr ⟨⟨k, r, hk3, isKey_iff.mpr hk2⟩,
            (ih r _ (by simp only [List.length_append] at hf; omega) hpr).value hv1 hv2⟩
        · rename_i hm
          -- no label
          obtain ⟨a, ha, hpc⟩ := piece_back e hn hr
          have hrest : h.rest = r := by
            unfold Hd.piece at hr
            rw [if_neg (by omega)] at hr
            split at hr
            · split at hr <;> cases hr; rfl
            · split at hr
              · split at hr <;> cases hr; rfl
              · split at hr
                · cases hr
                · cases hr; rfl
          obtain ⟨n1, n2, n3⟩ := notCbor_false hn
          obtain ⟨m1, m2, -⟩ := headAt_back e
          obtain ⟨v, c1, hv, hv1, hv2, hc⟩ : ∃ v c1, decodeAtom ⟨pos + hh.length, (tagsAt f b).2⟩ =
              (.ok (.val v), c1) ∧ v ≠ .brk ∧ v.isLabel = false ∧ c1.rest = r := by
            have h47 : h.major = 4 ∨ h.major = 5 ∨ h.major = 7 := by omega
            rcases h47 with hm | hm | hm
            · exact ⟨_, _, atom_arr e hn hs hm _, nofun, rfl, hrest⟩
            · exact ⟨_, _, atom_map e hn hs hm _, nofun, rfl, hrest⟩
            · have h31 : h.ai ≠ 31 := fun hc => hbrk ⟨hm, hc⟩
              have : ¬ (h.ai = 24 ∧ h.arg ≤ 31) := by omega
              unfold decodeAtom
              rw [decodeHead_some e n1]
              simp only [hm]
              by_cases h22 : h.ai = 22
              · exact ⟨.null, _, by simp [decodeType7, h22]; rfl, nofun, rfl, hrest⟩
              · exact ⟨.other, _, by simp [decodeType7, h31, h22, this]; rfl, nofun, rfl, hrest⟩
          have hrl : r.length ≤ f := by
            have h8 := congrArg List.length h3
            have h9 := congrArg List.length ha
            simp only [List.length_append] at h8 h9
            omega
          obtain ⟨cp, cr⟩ := c1
          simp only at hc
          subst hc
          cases hst : headStop f cr with
          | some s =>
            obtain ⟨x, c2, h4, h5⟩ := raw_stop (P := P) hst cp
            refine .inl ⟨x, c2, ?_, h5⟩
            simp only [entry, if_true, hraw _ _ hv, if_neg hv1, nextItem, h4]
          | none =>
            obtain ⟨it, c2, h4⟩ := raw_go (P := P) hst hrl cp
            refine .inl ⟨.mapLabelType, c2, ?_, .label⟩
            simp only [entry, if_true, hraw _ _ hv, if_neg hv1, nextItem, h4, hv2]
            rfl

/-- The same, with less said. -/
theorem entry_stop {f d room : Nat} {st : List NLvl} {q : Bytes → Stop}
    (ih : ∀ b pos, b.length ≤ f → parse P.maxTags f d b = none → DeadAt P room st pos b (q b))
    (b : Bytes) (pos : Nat) (hf : b.length ≤ f)
    (hb : entryAt P.maxTags f (parse P.maxTags f d) b = none) :
    DeadSlot P true room st ⟨pos, b⟩ (stopEntry f q b) := by
  rcases entry_halt ih b pos hf hb with h | ⟨-, h⟩
  · exact .inl h
  · exact h

theorem entryAt_run {f d : Nat} {b r : Bytes} {kv : Item × Item}
    (h : entryAt P.maxTags f (parse P.maxTags f d) b = some (kv, r)) :
    ∃ a, b = a ++ r ∧ SlotRun P true d a := by
  unfold entryAt at h
  split at h
  · rename_i hl
    cases h
    obtain ⟨a, h1, h2⟩ := loneAt_back hl
    exact ⟨a, h1, lone_slot h2⟩
  · split at h
    · cases h
    · rename_i k r1 hk
      split at h
      · rename_i hkey
        split at h
        · cases h
        · rename_i v r2 hv
          cases h
          obtain ⟨a, rfl, h2⟩ := parse_sound _ _ _ _ _ hk
          obtain ⟨a', rfl, h3⟩ := parse_sound _ _ _ _ _ hv
          exact ⟨a ++ a', by simp, (reads_run P h3).key h2 (isKey_iff.mp hkey)⟩
      · cases h

theorem parse_run {f d : Nat} {b r : Bytes} {x : Item} (h : parse P.maxTags f d b = some (x, r)) :
    ∃ a, b = a ++ r ∧ SlotRun P false d a := by
  obtain ⟨a, h1, h2⟩ := parse_sound _ _ _ _ _ h
  exact ⟨a, h1, (reads_run P h2).slot⟩

/-- An item that is not read stops the decoder, for the reason found. -/
theorem parse_stop : ∀ (f d room : Nat) (st : List NLvl) (b : Bytes) (pos : Nat), st.length + d = room →
    b.length ≤ f → parse P.maxTags f d b = none → DeadAt P room st pos b (stopItem P.maxTags f d b) := by
  intro f
  induction f with
  | zero =>
    intro d room st b pos _ hf _ fuel tags over hfuel
    have : b = [] := List.length_eq_zero_iff.mp (by omega)
    subst this
    obtain ⟨c1, h⟩ := atom_none (b := []) rfl pos
    exact .inl ⟨_, _, nextTagged_hard (by simpa using hfuel) rfl h, .hitEnd⟩
  | succ f ih =>
    intro d room st b pos hroom hf hp fuel tags over hfuel
    have hfu : 0 < fuel := by omega
    unfold parse at hp
    unfold stopItem
    cases e : headAt b with
    | none =>
      obtain ⟨c1, h⟩ := atom_none e pos
      exact .inl ⟨_, _, nextTagged_hard hfu rfl h, .hitEnd⟩
    | some h =>
      rw [e] at hp
      simp only at hp ⊢
      have hlt := rest_lt e
      cases hs : h.stop with
      | some s =>
        obtain ⟨x, c1, h1, h2, h3⟩ := atom_stop e hs pos
        exact .inl ⟨_, _, nextTagged_hard hfu h2 h1, h3⟩
      | none =>
        simp only
        cases hn : h.notCbor with
        | true => rw [hn, if_pos rfl] at hp; cases hp
        | false =>
        obtain ⟨n1, n2, n3⟩ := notCbor_false hn
        obtain ⟨m1, m2, -⟩ := headAt_back e
        rw [hn] at hp
        simp only [Bool.false_eq_true, if_false] at hp
        have hstr : (h.major = 2 ∨ h.major = 3) → h.string ≠ none := by
          intro hm hc
          obtain ⟨r, hr⟩ := piece_some e hs hn (by omega)
          unfold Hd.piece at hr
          rw [if_pos hm, hc] at hr
          cases hr
        have hcount : h.arg ≠ 0 → h.count ≠ some 0 := by
          intro h0 hc
          unfold Hd.count at hc
          split at hc
          · cases hc
          · exact h0 (Option.some.inj hc)
        by_cases hm0 : h.major = 0
        · rw [if_pos hm0] at hp; cases hp
        rw [if_neg hm0] at hp
        by_cases hm1 : h.major = 1
        · rw [if_pos hm1] at hp; cases hp
        rw [if_neg hm1] at hp
        by_cases hm2 : h.major = 2
        · rw [if_pos hm2] at hp
          exact absurd (Option.map_eq_none_iff.mp hp) (hstr (.inl hm2))
        rw [if_neg hm2] at hp
        by_cases hm3 : h.major = 3
        · rw [if_pos hm3] at hp
          exact absurd (Option.map_eq_none_iff.mp hp) (hstr (.inr hm3))
        rw [if_neg hm3] at hp
        by_cases hm : h.major = 4
        · rw [if_pos hm] at hp ⊢
          by_cases h0 : h.arg = 0
          · rw [if_pos h0] at hp; cases hp
          rw [if_neg h0] at hp
          have hat := nextTagged_val (P := P) (tags := tags) (over := over) hfu (atom_arr e hn hs hm pos)
          cases d with
          | zero =>
            exact .inr (.inr ⟨_, _, _, _, hat, .inl rfl, push_deep false (hcount h0) (by omega) _, .deep⟩)
          | succ d =>
            simp only [Option.map_eq_none_iff] at hp
            obtain ⟨x, h1, h2⟩ := box_stop (P := P) (q := stopItem P.maxTags f d) (st := st) false
              (room := room) (d := d) (f := f) (by omega) (fun b x r hb => parse_run hb)
              (fun b left pos hb hpb _ => (ih d room _ b pos (by simp only [List.length_cons]; omega) hb hpb).slot)
              h.count h.rest (pos + (b.length - h.rest.length)) (by omega)
              (by
                intro n hc
                unfold Hd.count at hc
                split at hc
                · cases hc
                · rename_i ha
                  cases hc
                  refine ⟨h0, ?_⟩
                  rw [if_neg ha] at hp
                  split at hp
                  · exact hp
                  · rename_i hbig
                    unfold Hd.stop at hs
                    simp [hn, hm, ha] at hs
                    omega)
              (by
                intro hc
                unfold Hd.count at hc
                split at hc
                · rename_i ha
                  rwa [if_pos ha] at hp
                · cases hc)
            exact .inr (.inr ⟨_, _, x, _, hat, .inl rfl, h1, h2⟩)
        · rw [if_neg hm] at hp ⊢
          by_cases hm : h.major = 5
          · rw [if_pos hm] at hp ⊢
            by_cases h0 : h.arg = 0
            · rw [if_pos h0] at hp; cases hp
            rw [if_neg h0] at hp
            have hat := nextTagged_val (P := P) (tags := tags) (over := over) hfu (atom_map e hn hs hm pos)
            cases d with
            | zero =>
              exact .inr (.inr ⟨_, _, _, _, hat, .inr rfl, push_deep true (hcount h0) (by omega) _, .deep⟩)
            | succ d =>
              simp only [Option.map_eq_none_iff] at hp
              obtain ⟨x, h1, h2⟩ := box_stop (P := P) (q := stopEntry f (stopItem P.maxTags f d)) (st := st) true
                (room := room) (d := d) (f := f) (by omega) (fun b x r hb => entryAt_run hb)
                (fun b left pos hb hpb _ => entry_stop (fun b pos h1 h2 =>
                  ih d room _ b pos (by simp only [List.length_cons]; omega) h1 h2) b pos hb hpb)
                h.count h.rest (pos + (b.length - h.rest.length)) (by omega)
                (by
                  intro n hc
                  unfold Hd.count at hc
                  split at hc
                  · cases hc
                  · rename_i ha
                    cases hc
                    refine ⟨h0, ?_⟩
                    rw [if_neg ha] at hp
                    split at hp
                    · exact hp
                    · rename_i hbig
                      unfold Hd.stop at hs
                      simp [hn, hm, ha] at hs
                      omega)
                (by
                  intro hc
                  unfold Hd.count at hc
                  split at hc
                  · rename_i ha
                    rwa [if_pos ha] at hp
                  · cases hc)
              exact .inr (.inr ⟨_, _, x, _, hat, .inr rfl, h1, h2⟩)
          · rw [if_neg hm] at hp ⊢
            by_cases hm : h.major = 6
            · rw [if_pos hm] at hp ⊢
              have hrec := ih d room st h.rest (pos + (b.length - h.rest.length)) hroom (by omega)
                (by simpa using hp)
              obtain ⟨k, rfl⟩ : ∃ k, fuel = k + 1 := ⟨fuel - 1, by omega⟩
              simp only [nextTagged, atom_tag e hn hm pos, behind]
              split
              · exact hrec k _ _ (by omega)
              · exact hrec k _ _ (by omega)
            · rw [if_neg hm] at hp ⊢
              by_cases ha : h.ai = 31
              · exact .inr (.inl ⟨_, _, nextTagged_val hfu (atom_break e (by omega) ha pos), rfl, rfl⟩)
              · rw [if_neg ha] at hp
                split at hp <;> cases hp

end TCose
