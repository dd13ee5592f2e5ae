import Verif.Spec.Untag
import Verif.Lemmas.Verdict
import Verif.Lemmas.Shift

/-!
# Headers with tags against what is left of them
-/

namespace TCose
open Spec

theorem atomIs_proc {P : QParams} (hl : P.Local) {y : Item} {v : Val} (h : AtomIs y v)
    (ts : List Nat) : P.tagProc ts v = P.tagProc ts y.val := by
  cases y with
  | bstr b =>
    obtain ⟨off, rfl⟩ := h
    have := hl ts (.bstr ⟨0, b⟩) off
    simp only [Val.sh, Str.sh, Nat.zero_add] at this
    exact this
  | tstr b =>
    obtain ⟨off, rfl⟩ := h
    have := hl ts (.tstr ⟨0, b⟩) off
    simp only [Val.sh, Str.sh, Nat.zero_add] at this
    exact this
  | uint n => have h' : v = if n ≤ int64Max then .int n else .uint n := h; rw [h']; rfl
  | nint n => have h' : v = .int (-1 - (n : Int)) := h; rw [h']; rfl
  | null => have h' : v = .null := h; rw [h']; rfl
  | simple n => have h' : v = .other := h; rw [h']; rfl
  | float n => have h' : v = .other := h; rw [h']; rfl
  | _ => cases h

theorem AtomIs.valOf {y : Item} {v : Val} (hy : y.isAtom = true) (h : AtomIs y v) : ValOf y v := by
  cases y <;> first | (cases hy; done) | exact h

theorem tagContent_atom {P : QParams} {y : Item} {v : Val} (h : AtomIs y v) {ts : List Nat}
    (ht : ts ≠ []) : tagContent P ⟨v, ts, none⟩ = match P.tagProc ts v with
      | .keep => ⟨v, ts, none⟩
      | .retype => ⟨.other, ts, none⟩
      | .fail => ⟨.other, ts, some .tagContent⟩ := by
  unfold tagContent
  cases ts with
  | nil => exact absurd rfl ht
  | cons t ts =>
    simp only [Option.isSome_none, List.isEmpty_cons, Bool.or_self, Bool.false_eq_true, if_false]
    cases y with
    | bstr b => obtain ⟨off, rfl⟩ := h; rfl
    | tstr b => obtain ⟨off, rfl⟩ := h; rfl
    | uint n =>
      have h' : v = if n ≤ int64Max then .int n else .uint n := h
      split at h' <;> (subst h'; rfl)
    | nint n => have h' : v = .int (-1 - (n : Int)) := h; subst h'; rfl
    | null => have h' : v = .null := h; subst h'; rfl
    | simple n => have h' : v = .other := h; subst h'; rfl
    | float n => have h' : v = .other := h; subst h'; rfl
    | _ => cases h

theorem tagList_nil {x : Item} (h : x.isTag = false) : x.tagList = [] := by
  cases x <;> first | rfl | cases h

theorem bare_untagged (x : Item) : x.bare.isTag = false := by
  have := Item.bare_isTag x
  cases h : x.bare <;> first | rfl | exact absurd h (this _ _)

/-- With a value that can be read, only the tags matter. -/
theorem untag_live {P : QParams} {x : Item} (h : x.bare.live) :
    x.untag P = if x.tagList = [] then x
      else if P.maxTags < x.tagList.length then unread
      else match (generalizing := false) x.bare with
        | .arr xs => .arr xs
        | .map kvs => .map kvs
        | y => match P.tagProc x.tagList.reverse y.val with
          | .keep => y
          | .retype => .simple 0
          | .fail => unread := by
  unfold Item.untag
  rw [if_neg (by rw [h.1]; simp), if_neg (by rw [h.2]; simp)]
  clear h
  cases x.bare <;> rfl

/-- A value that cannot be read stays so. -/
theorem untag_dead {P : QParams} {x : Item} (h : ¬ x.bare.live) :
    (x.untag P).isRead = false ∧ (x.untag P).isNot = x.bare.isNot := by
  unfold Item.untag
  by_cases h1 : x.bare.isNot = true
  · rw [if_pos h1, h1]; exact ⟨rfl, rfl⟩
  · have h1' : x.bare.isNot = false := by simpa using h1
    rw [if_neg h1]
    by_cases h2 : x.bare.tooLow = true
    · rw [if_pos h2, h1']; exact ⟨rfl, rfl⟩
    · exact absurd ⟨h1', by simpa using h2⟩ h

theorem untag_atom {P : QParams} {x : Item} (hne : x.tagList ≠ []) (hlen : ¬ P.maxTags < x.tagList.length)
    (hatom : x.bare.isAtom = true) (hlive : x.bare.live) :
    x.untag P = match P.tagProc x.tagList.reverse x.bare.val with
      | .keep => x.bare
      | .retype => .simple 0
      | .fail => unread := by
  rw [untag_live hlive, if_neg hne, if_neg hlen]
  clear hlive
  generalize x.tagList.reverse = ts
  revert hatom
  generalize x.bare = y
  intro hatom
  cases y <;> first | rfl | cases hatom

theorem dead_atom {x : Item} (h : ¬ x.live) : x.isAtom = true := by
  cases x <;> first | rfl | exact absurd ⟨rfl, rfl⟩ h

theorem AtomRead.dead {x : Item} {v : Val} {err : Option QErr} (h : AtomRead x v err)
    (hx : ¬ x.live) : v = .other ∧ ∃ e, DeadErr x e ∧ err = some e := by
  rcases h with ⟨h, -⟩ | h
  · exact absurd h hx
  · exact h

/-- What the decoder makes of an item that cannot be read. -/
theorem valIs_dead {P : QParams} {n d : Nat} {x : Item} {it : Itm} {c cE : Cur}
    (h : ValIs P (n + 1) d x it c cE) (hx : ¬ x.bare.live) :
    it.val = .other ∧ ∃ e, DeadErr x.bare e ∧ it.err = some e := by
  by_cases ht : x.isTag = true
  rotate_left
  · have ht : x.isTag = false := by simpa using ht
    rw [bare_of_untagged ht] at hx ⊢
    rw [ValIs_read (dead_atom hx)] at h
    exact h.2.dead hx
  cases x with
  | tag t x =>
    obtain ⟨it0, h0, rfl⟩ := h
    generalize Item.tag t x = X at *
    rw [ValIs_read (dead_atom hx)] at h0
    obtain ⟨h1, e, he, h2⟩ := h0.2.dead hx
    rw [h1, h2]
    exact ⟨rfl, e, he, rfl⟩
  | _ => cases ht

/-- What the decoder makes of an item, and what is left of it. -/
theorem valIs_shown {P : QParams} (hl : P.Local) {n d : Nat} {x : Item} {it : Itm} {c cE : Cur}
    (he : x.bare ≠ unread) (h : ValIs P (n + 2) d x it c cE) : ShownAs (x.untag P) it := by
  by_cases hlive : x.bare.live
  rotate_left
  · obtain ⟨-, e, h1, h2⟩ := valIs_dead h hlive
    obtain ⟨h3, h4⟩ := untag_dead (P := P) hlive
    obtain ⟨-, k1, k2, -, k3⟩ := h1.soft
    exact .inr ⟨h3, e, h2, k2, k1, by rw [k3, h4]⟩
  by_cases ht : x.isTag = true
  rotate_left
  · have ht : x.isTag = false := by simpa using ht
    rw [untag_live hlive, if_pos (tagList_nil ht)]
    rw [bare_of_untagged ht] at hlive he
    obtain ⟨h1, h2⟩ := valIs_valOf h ht hlive
    exact .inl ⟨hlive.isRead he, h1, h2⟩
  cases x with
  | tag t x =>
    obtain ⟨it0, h0, rfl⟩ := h
    generalize hx : Item.tag t x = X at *
    have hne : X.tagList ≠ [] := by rw [← hx]; simp [Item.tagList]
    have he0 : it0.err = none := (valIs_valOf h0 (bare_untagged X) hlive).1
    rw [he0, Option.none_or]
    rw [untag_live hlive, if_neg hne]
    by_cases hlen : P.maxTags < X.tagList.length
    · rw [if_pos hlen, if_pos hlen]
      exact .inr ⟨rfl, .tooManyTags, rfl, by simp, by simp, rfl⟩
    rw [if_neg hlen, if_neg hlen, List.take_of_length_le (by omega)]
    have hrne : X.tagList.reverse ≠ [] := by simpa using hne
    cases hatom : X.bare.isAtom with
    | true =>
      rw [ValIs_atom hatom hlive] at h0
      obtain ⟨-, -, ha⟩ := h0
      rw [tagContent_atom ha hrne, atomIs_proc hl ha]
      have hsel := untag_atom hne hlen hatom hlive
      rw [untag_live hlive, if_neg hne, if_neg hlen] at hsel
      rw [hsel]
      cases P.tagProc X.tagList.reverse X.bare.val with
      | keep => exact .inl ⟨hlive.isRead he, rfl, ha.valOf hatom⟩
      | retype => exact .inl ⟨rfl, rfl, rfl⟩
      | fail => exact .inr ⟨rfl, .tagContent, rfl, by simp, by simp, rfl⟩
    | false =>
      obtain ⟨he0, hv0⟩ := valIs_valOf h0 (bare_untagged X) hlive
      cases hX : X.bare with
      | arr xs =>
        rw [hX] at hv0
        obtain ⟨cnt, hv0⟩ := hv0
        rw [hv0]
        unfold tagContent
        simp only
        split <;> exact .inl ⟨rfl, rfl, cnt, rfl⟩
      | map xs =>
        rw [hX] at hv0
        obtain ⟨cnt, hv0⟩ := hv0
        rw [hv0]
        unfold tagContent
        simp only
        split <;> exact .inl ⟨rfl, rfl, cnt, rfl⟩
      | tag t x => have := bare_untagged X; rw [hX] at this; cases this
      | _ => rw [hX] at hatom; cases hatom
  | _ => cases ht

/-- What is left of an item is a container only if there is one below the tags, and they are not
too many. -/
theorem untag_container {P : QParams} {x : Item} :
    (∀ kvs, x.untag P = .map kvs → x.bare = .map kvs ∧ ¬ (x.isTag = true ∧ P.maxTags < x.tagList.length)) ∧
    (∀ xs, x.untag P = .arr xs → x.bare = .arr xs ∧ ¬ (x.isTag = true ∧ P.maxTags < x.tagList.length)) := by
  have hb := bare_untagged x
  by_cases hlive : x.bare.live
  rotate_left
  · have := (untag_dead (P := P) hlive).1
    constructor
    · intro kvs h; rw [h] at this; cases this
    · intro kvs h; rw [h] at this; cases this
  rw [untag_live hlive]
  split
  · rename_i h0
    have h1 : x.isTag = false := by cases x <;> first | rfl | cases h0
    rw [bare_of_untagged h1, h1]
    exact ⟨fun _ h => ⟨h, by simp⟩, fun _ h => ⟨h, by simp⟩⟩
  split
  · exact ⟨nofun, nofun⟩
  rename_i h0 h1
  have h1 : ¬ (x.isTag = true ∧ P.maxTags < x.tagList.length) := fun h => h1 h.2
  split
  · rename_i h; exact ⟨nofun, fun xs h' => ⟨by rw [h, h'], h1⟩⟩
  · rename_i h; exact ⟨fun xs h' => ⟨by rw [h, h'], h1⟩, nofun⟩
  · split
    · exact ⟨fun _ h => ⟨h, h1⟩, fun _ h => ⟨h, h1⟩⟩
    · exact ⟨nofun, nofun⟩
    · exact ⟨nofun, nofun⟩

/-- Containers stay as they are. -/
theorem tagContent_container {P : QParams} {v : Val} {tags : List Nat} {err : Option QErr}
    (hv : (∃ n, v = .arr n) ∨ ∃ n, v = .map n) : (tagContent P ⟨v, tags, err⟩).val = v := by
  unfold tagContent
  rcases hv with ⟨n, rfl⟩ | ⟨n, rfl⟩
  · simp only; split <;> rfl
  · simp only; split <;> rfl

/-- The elements of an array with tags around it. -/
theorem valIs_elements {P : QParams} {n d : Nat} {x : Item} {it : Itm} {c cE : Cur}
    (h : ValIs P (n + 2) d x it c cE) {xs : List Item} (hx : x.untag P = .arr xs) :
    x.bare = .arr xs ∧ ∃ cnt ces, it.val = .arr cnt ∧ elements P false (d - 1) cnt c = .ok (ces, cE) ∧
      ∃ k, n ≤ k ∧ Each (fun x e => ∃ cE', ValIs P k (d - 1) x e.itm e.cur cE') xs ces := by
  obtain ⟨hbare, -⟩ := untag_container.2 _ hx
  refine ⟨hbare, ?_⟩
  by_cases ht : x.isTag = true
  rotate_left
  · have ht : x.isTag = false := by simpa using ht
    rw [bare_of_untagged ht] at hbare
    subst hbare
    obtain ⟨-, -, cnt, hcv, hel⟩ := h
    obtain ⟨ces, hel, hall⟩ := hel (d - 1) (Nat.le_refl _)
    exact ⟨cnt, ces, hcv, hel, n + 1, by omega, hall⟩
  cases x with
  | tag t x =>
    obtain ⟨it0, h0, rfl⟩ := h
    generalize hX : Item.tag t x = X at *
    rw [hbare] at h0
    obtain ⟨-, -, cnt, hcv, hel⟩ := h0
    obtain ⟨ces, hel, hall⟩ := hel (d - 1) (Nat.le_refl _)
    refine ⟨cnt, ces, ?_, hel, n, Nat.le_refl _, hall⟩
    rw [hcv]
    exact tagContent_container (.inl ⟨_, rfl⟩)
  | _ => cases ht

/-- A header is taken for what is left of it. -/
theorem shown_untag {P : QParams} (hl : P.Local) {h : Header} (he : ∀ p ∈ h, p.2.Real) :
    Shown P h (Header.untag P h) := by
  intro d es hes
  unfold Header.untag
  have : ∀ {h : Header} {es : List Entry} {f : Label × Item → Label × Item},
      Each (fun p e => EntryShows P d (f p) e) h es → Each (EntryShows P d) (h.map f) es := by
    intro h es f hh
    induction hh with
    | nil => exact .nil
    | cons h1 h2 ih => exact .cons h1 ih
  refine this (hes.imp fun p hm e hv => ?_)
  obtain ⟨h1, cE, hv⟩ := hv
  obtain ⟨hr, hre⟩ := he _ hm
  refine ⟨h1, fun i hi hi1 hi6 => ?_⟩
  have hsh := valIs_shown hl hr hv
  simp only
  unfold Item.untagParam
  cases hu : p.2.untag P with
  | arr xs =>
    obtain ⟨hbare, cnt, ces, hcv, hel, k, hk, hall⟩ := valIs_elements hv hu
    rw [hu] at hsh
    refine ⟨?_, fun ys hys => ?_⟩
    · rcases hsh with ⟨-, g1, g2⟩ | ⟨g, -⟩
      · exact .inl ⟨rfl, g1, g2⟩
      · cases g
    · simp only [Item.arr.injEq] at hys
      subst hys
      refine ⟨cnt, ces, cE, hcv, hel, ?_⟩
      have mp : ∀ {xs : List Item} {ces : List Entry},
          Each (fun x e => ShownAs (x.untag P) e.itm) xs ces →
          Each (fun x e => ShownAs x e.itm) (xs.map (Item.untag P)) ces := by
        intro xs ces hh
        induction hh with
        | nil => exact .nil
        | cons h1 h2 ih => exact .cons h1 ih
      refine mp (hall.imp fun x hx e ⟨cE', hv'⟩ => ?_)
      obtain ⟨j, rfl⟩ : ∃ j, k = j + 2 := ⟨k - 2, by omega⟩
      exact valIs_shown hl (hre xs hbare x hx) hv'
  | _ =>
    rw [hu] at hsh
    exact ⟨hsh, by intro xs hxs; cases hxs⟩

end TCose
