import Verif.Spec.AnyItem
import Verif.Lemmas.ArrayBody
import Verif.Lemmas.Untag

/-!
# Elements of an array against the items they are
-/

namespace TCose
open Spec

/-- The decoder has the item, as deep as one likes to look. -/
def Vals (P : QParams) (d : Nat) (x : Item) (it : Itm) (c : Cur) : Prop :=
  ∀ n, ∃ cE, ValIs P n d x it c cE

theorem Spec.Each.all {α β : Type} {R : Nat → α → β → Prop} :
    ∀ {as : List α} {bs : List β}, (∀ n, Each (R n) as bs) → Each (fun a b => ∀ n, R n a b) as bs := by
  intro as
  induction as with
  | nil => intro bs h; cases h 0; exact .nil
  | cons a as ih =>
    intro bs h
    cases h 0 with
    | @cons _ b _ bs _ _ =>
      refine .cons (fun n => ?_) (ih fun n => ?_)
      · cases h n with | cons h1 _ => exact h1
      · cases h n with | cons _ h2 => exact h2

theorem Spec.Each.get {α β : Type} {R : α → β → Prop} {as : List α} {bs : List β}
    (h : Each R as bs) : ∀ i : Nat, (as[i]? = none ∧ bs[i]? = none) ∨
      ∃ a b, as[i]? = some a ∧ bs[i]? = some b ∧ a ∈ as ∧ R a b := by
  induction h with
  | nil => intro i; left; simp
  | @cons a b as bs h1 h2 ih =>
    intro i
    cases i with
    | zero => right; exact ⟨a, b, rfl, rfl, by simp, h1⟩
    | succ i =>
      simp only [List.getElem?_cons_succ]
      rcases ih i with h | ⟨x, y, hx, hy, hm, hr⟩
      · exact .inl h
      · exact .inr ⟨x, y, hx, hy, List.mem_cons_of_mem _ hm, hr⟩

theorem reads_bare {t d : Nat} {x : Item} {b : Bytes} (h : Reads t d x b) :
    ∃ b', Reads t d x.bare b' := by
  rw [← Item.tagged_bare x] at h
  obtain ⟨-, b', -, -, h⟩ := reads_tagged _ h
  exact ⟨b', h⟩

theorem Spec.Reads.not_unread {t d : Nat} {x : Item} {b : Bytes} (h : Reads t d x b) :
    x.bare ≠ unread := by
  obtain ⟨b', h'⟩ := reads_bare h
  intro hc
  rw [hc] at h'
  unfold unread at h'
  generalize hx : Item.simple 25 = y at h'
  cases h' with
  | simple h1 h2 => cases hx; omega
  | simple8 h1 h2 => cases hx; omega
  | notCbor _ => cases hx
  | _ => cases hx

theorem Spec.ReadsAll.each {t d : Nat} {xs : List Item} {bss : List Bytes}
    (h : ReadsAll t d xs bss) : ∀ x ∈ xs, ∃ b, Reads t d x b := by
  induction xs generalizing bss with
  | nil => intro x hx; cases hx
  | cons y xs ih =>
    cases h with
    | cons h1 h2 =>
      intro x hx
      rcases List.mem_cons.mp hx with rfl | hx
      · exact ⟨_, h1⟩
      · exact ih h2 x hx

theorem Spec.ReadsPairs.each {t d : Nat} {kvs : List (Item × Item)} {bss : List Bytes}
    (h : ReadsPairs t d kvs bss) : ∀ kv ∈ kvs, (∃ b, Reads t d kv.2 b) ∨ kv = (notItem, notItem) := by
  induction kvs generalizing bss with
  | nil => intro x hx; cases hx
  | cons y xs ih =>
    cases h with
    | cons h0 h1 h2 h3 =>
      intro x hx
      rcases List.mem_cons.mp hx with rfl | hx
      · exact .inl ⟨_, h2⟩
      · exact ih h3 x hx
    | lone h1 h2 =>
      intro x hx
      rcases List.mem_cons.mp hx with rfl | hx
      · exact .inr rfl
      · exact ih h2 x hx

theorem Spec.Reads.elements {t d : Nat} {xs : List Item} {b : Bytes} (h : Reads t d (.arr xs) b) :
    ∀ x ∈ xs, ∃ b, Reads t (d - 1) x b := by
  cases h with
  | arr0 _ => intro x hx; cases hx
  | arr _ _ h => exact h.each
  | arrIndef h => exact h.each

theorem Spec.Reads.real {t d : Nat} {x : Item} {b : Bytes} (h : Reads t d x b) : x.Real := by
  refine ⟨h.not_unread, fun xs hx y hy => ?_⟩
  obtain ⟨b', h'⟩ := reads_bare h
  rw [hx] at h'
  obtain ⟨b'', h''⟩ := h'.elements y hy
  exact h''.not_unread

theorem Spec.Reads.entries {t d : Nat} {kvs : List (Item × Item)} {b : Bytes}
    (h : Reads t d (.map kvs) b) : ∀ kv ∈ kvs, kv.2.Real := by
  have : ∀ {d : Nat} {bss : List Bytes}, ReadsPairs t d kvs bss → ∀ kv ∈ kvs, kv.2.Real := by
    intro d bss h kv hkv
    rcases h.each kv hkv with ⟨b, h⟩ | rfl
    · exact h.real
    · exact ⟨by simp [notItem, unread, Item.bare], nofun⟩
  cases h with
  | map0 _ => intro x hx; cases hx
  | map _ _ h => exact this h
  | mapIndef h => exact this h

theorem Vals.shown {P : QParams} (hl : P.Local) {d : Nat} {x : Item} {it : Itm} {c : Cur}
    (he : x.Real) (h : Vals P d x it c) : ShownAs (x.untag P) it := by
  obtain ⟨cE, h⟩ := h 2
  exact valIs_shown (n := 0) hl he.1 h

/-- An item that cannot be read. -/
theorem Vals.dead {P : QParams} {d : Nat} {x : Item} {it : Itm} {c : Cur} (h : Vals P d x it c)
    (hx : ¬ x.bare.live) : it.val = .other ∧ ∃ e, DeadErr x.bare e ∧ it.err = some e := by
  obtain ⟨cE, h⟩ := h 1
  exact valIs_dead h hx

/-- The tags of an item that could be read, and when they are too many. -/
theorem Vals.tags {P : QParams} {d : Nat} {x : Item} {it : Itm} {c : Cur} (h : Vals P d x it c) :
    (it.err = some .tooManyTags ↔ x.bare.live ∧ P.maxTags < x.tagList.length) ∧
    (it.err = none → it.tags = x.tagList.reverse) := by
  by_cases hlive : x.bare.live
  rotate_left
  · obtain ⟨-, e, he, herr⟩ := h.dead hlive
    have := he.soft.2.2.2.1
    rw [herr]
    refine ⟨⟨fun h => ?_, fun h => absurd h.1 hlive⟩, nofun⟩
    cases h
    exact absurd rfl this
  simp only [hlive, true_and]
  obtain ⟨cE, h⟩ := h 2
  cases x with
  | tag t x =>
    obtain ⟨it0, h0, rfl⟩ := h
    generalize Item.tag t x = X at *
    rw [(valIs_valOf h0 (bare_untagged X) hlive).1, Option.none_or]
    by_cases hlen : P.maxTags < X.tagList.length
    · rw [if_pos hlen]
      exact ⟨⟨fun _ => hlen, fun _ => rfl⟩, fun h => by cases h⟩
    · rw [if_neg hlen, List.take_of_length_le (by omega)]
      unfold tagContent
      simp only [Option.isSome_none, Bool.false_or]
      split
      · exact ⟨⟨nofun, fun h => absurd h hlen⟩, fun _ => rfl⟩
      · split
        any_goals exact ⟨⟨nofun, fun h => absurd h hlen⟩, fun _ => rfl⟩
        split
        · exact ⟨⟨nofun, fun h => absurd h hlen⟩, fun _ => rfl⟩
        · exact ⟨⟨nofun, fun h => absurd h hlen⟩, fun _ => rfl⟩
        · exact ⟨⟨nofun, fun h => absurd h hlen⟩, fun h => by cases h⟩
  | arr xs => obtain ⟨h1, h2, -⟩ := h; rw [h1, h2]; simp [Item.tagList]
  | map xs => obtain ⟨h1, h2, -⟩ := h; rw [h1, h2]; simp [Item.tagList]
  | _ => simp only [Item.bare] at hlive; rw [ValIs_atom rfl hlive] at h; obtain ⟨h1, h2, -⟩ := h; rw [h1, h2]; simp [Item.tagList]

theorem Vals.mild {P : QParams} (hl : P.Local) {d : Nat} {x : Item} {it : Itm} {c : Cur}
    (he : x.Real) (h : Vals P d x it c) : ∀ e, it.err = some e → Stops e ∧
      e.notWellFormed = x.bare.isNot := by
  intro e herr
  by_cases hlive : x.bare.live
  · rcases h.shown hl he with ⟨-, h, -⟩ | ⟨h1, e', h, h2, h3, h4⟩
    · rw [herr] at h; cases h
    · rw [herr] at h
      cases h
      refine ⟨⟨h3, h2⟩, ?_⟩
      rw [h4, hlive.1]
      rcases unread_cases h1 with h1 | h1
      · exfalso
        rw [untag_live hlive] at h1
        split at h1
        · rename_i h0
          have : x.isTag = false := by cases x <;> first | rfl | cases h0
          rw [bare_of_untagged this, h1] at hlive
          cases hlive.1
        · split at h1
          · cases h1
          · split at h1
            · cases h1
            · cases h1
            · split at h1
              · rw [h1] at hlive; cases hlive.1
              · cases h1
              · cases h1
      · rw [h1]; rfl
  · obtain ⟨-, e', h1, h2⟩ := h.dead hlive
    rw [herr] at h2
    cases h2
    obtain ⟨-, k1, k2, -, k3⟩ := h1.soft
    exact ⟨⟨k1, k2⟩, k3⟩

/-- The element is a byte string without tags. -/
theorem Vals.str {P : QParams} (hl : P.Local) {d : Nat} {x : Item} {it : Itm} {c : Cur}
    (he : x.Real) (h : Vals P d x it c) :
    (∃ s, x = .bstr s.bytes ∧ it.str? = some s) ∨ ((∀ b, x ≠ .bstr b) ∧ it.str? = none) := by
  cases hs : it.str? with
  | some s =>
    left
    refine ⟨s, ?_, rfl⟩
    rw [Itm.str?_some] at hs
    have ht := h.tags.2 (by rw [hs])
    have hnt : x.tagList = [] := by rw [hs] at ht; simpa using ht.symm
    have hsh := h.shown hl he
    have hlive : x.bare.live := Classical.byContradiction fun hn => by
      obtain ⟨-, e, -, h2⟩ := h.dead hn
      rw [hs] at h2
      cases h2
    rw [untag_live hlive, if_pos hnt, hs] at hsh
    rcases hsh with ⟨-, -, hv⟩ | ⟨-, e, hv, -⟩
    · have hb := hv.bytes?
      cases x <;> simp [Item.bytes?, Val.bytes?] at hb
      rw [hb]
    · cases hv
  | none =>
    right
    refine ⟨?_, rfl⟩
    rintro b rfl
    obtain ⟨cE, h⟩ := h 0
    rw [ValIs_atom rfl ⟨rfl, rfl⟩] at h
    obtain ⟨h1, h2, o, h3⟩ := h
    have : it.str? = some ⟨o, b⟩ := Itm.str?_some.mpr (itm_eq h3 h2 h1)
    rw [hs] at this
    cases this

/-- The element is null. -/
theorem Vals.null {P : QParams} (hl : P.Local) {d : Nat} {x : Item} {it : Itm} {c : Cur}
    (he : x.Real) (h : Vals P d x it c) :
    (it.err = none ∧ it.val = .null) ↔ x.untag P = .null := by
  have hsh := h.shown hl he
  generalize x.untag P = y at hsh
  constructor
  · rintro ⟨h1, h2⟩
    rcases hsh with ⟨-, -, hv⟩ | ⟨-, hv⟩
    · rw [h2] at hv
      cases y with
      | uint n =>
        have h' : Val.null = if n ≤ int64Max then .int n else .uint n := hv
        split at h' <;> cases h'
      | nint n => cases hv
      | bstr b => obtain ⟨o, h⟩ := hv; cases h
      | tstr b => obtain ⟨o, h⟩ := hv; cases h
      | arr xs => obtain ⟨o, h⟩ := hv; cases h
      | map xs => obtain ⟨o, h⟩ := hv; cases h
      | tag n x => cases hv
      | null => rfl
      | simple n => cases hv
      | float n => cases hv
    · obtain ⟨e, hv, -⟩ := hv; rw [h1] at hv; cases hv
  · rintro rfl
    rcases hsh with ⟨-, h1, hv⟩ | ⟨h1, -⟩
    · exact ⟨h1, hv⟩
    · cases h1

theorem ValOf.map_iff {x : Item} {v : Val} (h : ValOf x v) : (∃ c, v = .map c) ↔ ∃ xs, x = .map xs := by
  cases x with
  | uint n =>
    have h' : v = if n ≤ int64Max then .int n else .uint n := h
    subst h'
    split <;> simp
  | nint n => have h' : v = .int (-1 - (n : Int)) := h; subst h'; simp
  | arr xs => obtain ⟨c, rfl⟩ := h; simp
  | map xs => simp [ValOf] at h ⊢; exact h
  | tag n x => cases h
  | bstr b => obtain ⟨o, rfl⟩ := h; simp
  | tstr b => obtain ⟨o, rfl⟩ := h; simp
  | null => have h' : v = .null := h; subst h'; simp
  | simple n => have h' : v = .other := h; subst h'; simp
  | float n => have h' : v = .other := h; subst h'; simp

/-- An item that is no map is none for the decoder. -/
theorem Vals.noMap {P : QParams} (hl : P.Local) {d : Nat} {x : Item} {it : Itm} {c : Cur}
    (he : x.Real) (h : Vals P d x it c) {y : Err} (hx : x.header? P = .error y) :
    NoMap it ∧ headErr (it.err.getD .unexpectedType) = y := by
  have hm := h.mild hl he
  refine ⟨⟨fun e h' => (hm e h').1, fun h1 k hk => ?_⟩, ?_⟩
  · rcases h.shown hl he with ⟨-, -, hv⟩ | ⟨-, e, h2, -⟩
    · obtain ⟨kvs, hmap⟩ := hv.map_iff.mp ⟨k, hk⟩
      unfold Item.header? at hx
      rw [hmap] at hx
      cases hx
    · rw [h1] at h2; cases h2
  · have hy : y = if x.bare.isNot then .cborNotWellFormed else .parameterCbor := by
      unfold Item.header? at hx
      split at hx
      · cases hx
      · split at hx
        · rename_i h0; cases hx; rw [if_pos h0]
        · rename_i h0; cases hx; rw [if_neg h0]
    unfold headErr
    cases herr : it.err with
    | some e =>
      rw [Option.getD_some, (hm e herr).2, hy]
    | none =>
      have hlive : x.bare.live := Classical.byContradiction fun hn => by
        obtain ⟨-, e, -, h2⟩ := h.dead hn
        rw [herr] at h2
        cases h2
      rw [hy, hlive.1]
      rfl

/-- The entries of a map. -/
theorem Vals.entries {P : QParams} (hl : P.Local) {d : Nat} {x : Item} {it : Itm} {c : Cur}
    (he : x.Real) (h : Vals P d x it c) {kvs : List (Item × Item)} (hx : x.untag P = .map kvs) :
    it.err = none ∧ ∃ cnt es cE, it.val = .map cnt ∧ elements P true (d - 1) cnt c = .ok (es, cE) ∧
      Each (fun kv e => ((∃ l, e.label = some l ∧ AtomIs kv.1.bare l ∧ kv.1.bare.isLabel = true) ∧
        ∃ cE', ValIs P 4 (d - 1) kv.2 e.itm e.cur cE') ∨
        (kv = (notItem, notItem) ∧ e.label = none)) kvs es := by
  have hsh := h.shown hl he
  have herr : it.err = none := by
    rcases hsh with ⟨-, h1, -⟩ | ⟨h1, -⟩
    · exact h1
    · rw [hx] at h1; cases h1
  refine ⟨herr, ?_⟩
  have hbare := (untag_container.1 _ hx).1
  by_cases ht : x.isTag = true
  · cases x with
    | tag t x =>
      obtain ⟨cE, it0, h0, hit⟩ := h 6
      generalize Item.tag t x = X at *
      rw [hbare] at h0
      obtain ⟨-, -, cnt, hcv, hel⟩ := h0
      obtain ⟨es, hel, hall⟩ := hel (d - 1) (Nat.le_refl _)
      refine ⟨cnt, es, cE, ?_, hel, hall⟩
      rw [hit, hcv]
      exact tagContent_container (.inr ⟨_, rfl⟩)
    | _ => cases ht
  · have hxx : x.bare = x := by cases x <;> first | rfl | exact absurd rfl ht
    rw [hxx] at hbare
    subst hbare
    obtain ⟨cE, -, -, cnt, hcv, hel⟩ := h 5
    obtain ⟨es, hel, hall⟩ := hel (d - 1) (Nat.le_refl _)
    exact ⟨cnt, es, cE, hcv, hel, hall⟩

/-! ### Labels that are byte strings or none -/

/-- An entry with a label that is a byte string or could not be read, given one that is as bad. -/
def relabel (e : Entry) : Entry :=
  match e.label with
  | some (.bstr _) => { e with label := some (.uint 9223372036854775808) }
  | none => { e with label := some (.uint 9223372036854775808),
                     itm := ⟨.other, [], some .unsupported⟩ }
  | _ => e

theorem relabel_eq (e : Entry) : relabel e = e ∨
    (((∃ s, e.label = some (.bstr s)) ∨ e.label = none) ∧
      (relabel e).label = some (.uint 9223372036854775808)) := by
  unfold relabel
  split
  · rename_i s h; exact .inr ⟨.inl ⟨s, h⟩, rfl⟩
  · rename_i h; exact .inr ⟨.inr h, rfl⟩
  · exact .inl rfl

theorem searchFold_relabel {σ : Type} {qs : List (Int × QTyp)} {cb : σ → Option Val → σ × Bool}
    (hcb : ∀ s b n, cb s (some (.bstr b)) = cb s (some (.uint n)))
    (hcn : ∀ s n, cb s none = cb s (some (.uint n))) (es : List Entry) :
    ∀ f s, searchFold qs cb (es.map relabel) f s = searchFold qs cb es f s := by
  induction es with
  | nil => intro f s; rfl
  | cons e es ih =>
    intro f s
    rw [List.map_cons, searchFold, searchFold]
    have : searchStep qs cb (relabel e).label (relabel e).itm (relabel e).cur f s =
        searchStep qs cb e.label e.itm e.cur f s := by
      rcases relabel_eq e with h | ⟨⟨b, h⟩ | h, h'⟩
      · rw [h]
      · rw [h', h]
        unfold searchStep
        simp only [hcb s b 9223372036854775808]
      · rw [h', h]
        unfold searchStep
        simp only [hcn s 9223372036854775808]
    rw [this]
    simp only [ih]

theorem headerFn_relabel {cfg : Config} {P : QParams} {d : Nat} {prot : Bool} {es : List Entry}
    {p : Params} {crit unk : LabelList} :
    headerFn cfg P d prot (es.map relabel) p crit unk = headerFn cfg P d prot es p crit unk := by
  unfold headerFn critParamFn
  rw [searchFold_relabel (by intro s b n; rfl) (by intro s n; rfl),
    searchFold_relabel (by intro s b n; rfl) (by intro s n; rfl)]

/-- A label that is as bad as a byte string. -/
def badLabel : Val → Val
  | .bstr _ => .uint 9223372036854775808
  | l => l

theorem labelOf_item {k : Item} {l : Val} (h : AtomIs k l) (hk : k.isLabel = true) :
    AtomIs (labelOf k).item (badLabel l) := by
  cases k with
  | uint n =>
    have h' : l = if n ≤ int64Max then .int n else .uint n := h
    have : (labelOf (.uint n)).item = .uint n := by simp [labelOf, Label.item, Spec.int]
    rw [this]
    show _ = _
    rw [h']
    split <;> rfl
  | nint n =>
    have h' : l = .int (-1 - (n : Int)) := h
    have : (labelOf (.nint n)).item = .nint n := by
      simp only [labelOf, Label.item, Spec.int]
      rw [if_neg (by omega)]
      congr 1
      omega
    rw [this, h']
    rfl
  | bstr b => obtain ⟨o, rfl⟩ := h; rfl
  | tstr b => obtain ⟨o, rfl⟩ := h; exact ⟨o, rfl⟩
  | _ => cases hk

theorem relabel_entries {P : QParams} {d : Nat} {kvs : List (Item × Item)} {es : List Entry}
    (h : Each (fun (kv : Item × Item) (e : Entry) =>
      ((∃ l, e.label = some l ∧ AtomIs kv.1.bare l ∧ kv.1.bare.isLabel = true) ∧
        ∃ cE', ValIs P 4 d kv.2 e.itm e.cur cE') ∨
        (kv = (notItem, notItem) ∧ e.label = none)) kvs es) :
    Each (EntryIs P d) (kvs.map fun p => (labelOf p.1.bare, p.2)) (es.map relabel) := by
  induction h with
  | nil => exact .nil
  | @cons kv e kvs es h1 h2 ih =>
    refine .cons ?_ ih
    rcases h1 with ⟨⟨l, hl, ha, hk⟩, cE, hv⟩ | ⟨rfl, hl⟩
    · have := labelOf_item ha hk
      unfold relabel
      rw [hl]
      cases l with
      | bstr b => exact ⟨⟨_, rfl, this⟩, cE, hv⟩
      | _ => exact ⟨⟨_, hl, this⟩, cE, hv⟩
    · unfold relabel
      rw [hl]
      refine ⟨⟨_, rfl, rfl⟩, e.cur, ?_⟩
      simp only
      rw [ValIs_read rfl]
      exact ⟨rfl, .inr ⟨rfl, _, .inl ⟨rfl, .inl rfl⟩, rfl⟩⟩

/-- A header, in spite of tags on it and of labels that are byte strings or none. -/
theorem Vals.header {P : QParams} (hl : P.Local) {t d d' : Nat} {x : Item} {it : Itm} {c : Cur}
    {b : Bytes} (he : Reads t d' x b) (h : Vals P d x it c) {hd : Header}
    (hx : x.header? P = .ok hd) :
    it.err = none ∧ ∃ cnt es cE, it.val = .map cnt ∧ elements P true (d - 1) cnt c = .ok (es, cE) ∧
      Each (EntryShows P (d - 1)) (Header.untag P hd) (es.map relabel) := by
  unfold Item.header? at hx
  split at hx
  · rename_i kvs hu
    cases hx
    obtain ⟨h1, cnt, es, cE, h2, h3, h4⟩ := h.entries hl he.real hu
    refine ⟨h1, cnt, es, cE, h2, h3, ?_⟩
    obtain ⟨hb, -⟩ := untag_container.1 _ hu
    obtain ⟨b', hb'⟩ := reads_bare he
    rw [hb] at hb'
    refine shown_untag hl ?_ _ _ (relabel_entries h4)
    intro p hp
    obtain ⟨q, hq, rfl⟩ := List.mem_map.mp hp
    exact hb'.entries q hq
  · split at hx <;> cases hx

theorem Vals.of_item {P : QParams} {x : Item} {b r : Bytes} {d : Nat} (he : Reads P.maxTags d x b)
    (pos : Nat) :
    ∃ it c1, entry P false ⟨pos, b ++ r⟩ = (.ok (none, it), c1) ∧ Vals P d x it c1 := by
  obtain ⟨it, c1, hn, hb, hv⟩ := reads_item P 0 he pos r
  refine ⟨it, c1, entry_arr hn hb, fun n => ?_⟩
  obtain ⟨it', c1', hn', hb', hv'⟩ := reads_item P n he pos r
  rw [hn] at hn'
  simp only [Prod.mk.injEq, Except.ok.injEq] at hn'
  obtain ⟨rfl, rfl⟩ := hn'
  exact ⟨_, hv'⟩

/-- The elements of an array with whatever tags. -/
theorem array_elements {P : QParams} {x : Item} {b r : Bytes} (he : Reads P.maxTags 15 x b) {xs : List Item} (hx : x.untag P = .arr xs) (hl : P.Local) :
    ∃ cnt c1 es, entry P false ⟨0, b ++ r⟩ = (.ok (none, ⟨.arr cnt, x.tagList.reverse, none⟩), c1) ∧
      elements P false 14 cnt c1 = .ok (es, ⟨b.length, r⟩) ∧
      Each (fun x e => Vals P 14 x e.itm e.cur) xs es := by
  obtain ⟨it, c1, hn, hb, hv0⟩ := reads_item P 0 he 0 r
  have hv : ∀ n, ValIs P n 15 x it c1 ⟨b.length, r⟩ := by
    intro n
    obtain ⟨it', c1', hn', hb', hv'⟩ := reads_item P n he 0 r
    rw [hn] at hn'
    simp only [Prod.mk.injEq, Except.ok.injEq] at hn'
    obtain ⟨rfl, rfl⟩ := hn'
    rw [Nat.zero_add] at hv'
    exact hv'
  have hvals : Vals P 15 x it c1 := fun n => ⟨_, hv n⟩
  have herr : it.err = none := by
    rcases hvals.shown hl he.real with ⟨-, h1, -⟩ | ⟨h1, -⟩
    · exact h1
    · rw [hx] at h1; cases h1
  have htags := hvals.tags.2 herr
  have hbare := (untag_container.2 _ hx).1
  have key : ∀ n, ∃ cnt, it.val = .arr cnt ∧ ∃ es, elements P false 14 cnt c1 = .ok (es, ⟨b.length, r⟩) ∧
      Each (fun x e => ∃ cE', ValIs P n 14 x e.itm e.cur cE') xs es := by
    intro n
    by_cases ht : x.isTag = true
    · cases x with
      | tag t x =>
        obtain ⟨it0, h0, hit⟩ := hv (n + 2)
        generalize Item.tag t x = X at *
        rw [hbare] at h0
        obtain ⟨-, -, cnt, hcv, hel⟩ := h0
        obtain ⟨es, hel, hall⟩ := hel 14 (by omega)
        refine ⟨cnt, ?_, es, hel, hall⟩
        rw [hit, hcv]
        exact tagContent_container (.inl ⟨_, rfl⟩)
      | _ => cases ht
    · have hxx : x.bare = x := by cases x <;> first | rfl | exact absurd rfl ht
      rw [hxx] at hbare
      subst hbare
      obtain ⟨-, -, cnt, hcv, hel⟩ := hv (n + 1)
      obtain ⟨es, hel, hall⟩ := hel 14 (by omega)
      exact ⟨cnt, hcv, es, hel, hall⟩
  obtain ⟨cnt, hcv, es, hel, -⟩ := key 0
  refine ⟨cnt, c1, es, ?_, hel, Each.all fun n => ?_⟩
  · rw [entry_arr hn hb, itm_eq hcv htags herr]
  · obtain ⟨cnt', hcv', es', hel', hall⟩ := key n
    rw [hcv] at hcv'
    cases hcv'
    rw [hel] at hel'
    cases hel'
    exact hall

end TCose
