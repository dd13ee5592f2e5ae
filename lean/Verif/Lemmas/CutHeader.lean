import Verif.Lemmas.Cut
import Verif.Lemmas.Seen

/-!
# Headers that are cut off
-/

namespace TCose
open Spec

variable {P : QParams}

/-! ### What is fetched -/

/-- The container without its content, without its tags. -/
theorem untag_empty {ts : List Nat} {x : Item} (hx : x = .arr [] ∨ x = .map []) :
    (tagged ts x).bare = x ∧ (tagged ts x).tagList = ts ∧
    (tagged ts x).untag P = if P.maxTags < ts.length then unread else x := by
  have hb : (tagged ts x).bare = x := bare_tagged (by rcases hx with rfl | rfl <;> rfl) ts
  have ht : (tagged ts x).tagList = ts := by
    rw [tagList_tagged]
    rcases hx with rfl | rfl <;> simp [Item.tagList]
  refine ⟨hb, ht, ?_⟩
  have hlive : (tagged ts x).bare.live := by rw [hb]; rcases hx with rfl | rfl <;> exact ⟨rfl, rfl⟩
  rw [untag_live hlive, ht, hb]
  cases ts with
  | nil =>
    rw [if_pos rfl, if_neg (by simp)]
    rfl
  | cons t ts =>
    rw [if_neg (by simp)]
    split
    · rfl
    · rcases hx with rfl | rfl <;> rfl

theorem BoxAt.empty {f : Nat} {b : Bytes} {h : Hd} (hb : BoxAt f b h) :
    h.empty = .arr [] ∨ h.empty = .map [] := by
  unfold Hd.empty
  rcases hb.box with hm | hm
  · exact .inl (if_pos hm)
  · exact .inr (if_neg (by omega))

/-- What is fetched of a container. -/
def boxFetch (P : QParams) (f : Nat) (b : Bytes) (h : Hd) : Except QErr Itm :=
  if P.maxTags < (tagNums f b).length then .error .tooManyTags else .ok (boxItm P f b h)

theorem BoxAt.fetch {f : Nat} {b : Bytes} {h : Hd} (hb : BoxAt f b h) {d : Dec} (he : d.atEnd = false)
    (hd : d.cur.rest = b) : ∃ p, d.fetch P = (boxFetch P f b h, ⟨p, h.rest⟩) := by
  obtain ⟨⟨pos, b'⟩, ls, err, tags⟩ := d
  cases hd
  obtain ⟨p, hp⟩ := hb.entry (P := P) pos
  refine ⟨p, ?_⟩
  have hne : b' ≠ [] := by
    rintro rfl
    have := hb.head
    obtain ⟨tb, -, -, h5⟩ := tagsAt_nums f ([] : Bytes)
    have h6 : (tagsAt f ([] : Bytes)).2 = [] := (List.append_eq_nil_iff.mp h5.symm).2
    rw [h6] at this
    cases this
  unfold Dec.fetch
  rw [he]
  simp only [Bool.false_or]
  rw [if_neg (by simpa using hne), hp]
  by_cases hm : P.maxTags < (tagNums f b').length
  · simp [boxFetch, boxItm, hm]
  · simp [boxFetch, boxItm, hm]

/-- Octets that are not read: what is fetched of them. -/
theorem fault_fetch {d : Dec} {D : Nat} (he : d.atEnd = false)
    (hp : readItem P.maxTags D d.cur.rest = none) :
    (∃ s e c1, faultAt d.cur.rest = .stop s ∧ d.fetch P = (.error e, c1) ∧ IsStop s e) ∨
    ∃ h p, BoxAt d.cur.rest.length d.cur.rest h ∧
      faultAt d.cur.rest = .open_ (tagged (tagNums d.cur.rest.length d.cur.rest) h.empty) ∧
      d.fetch P = (boxFetch P d.cur.rest.length d.cur.rest h, ⟨p, h.rest⟩) := by
  unfold faultAt
  by_cases hb : d.cur.rest = []
  · left
    refine ⟨.limit, .noMoreItems, d.cur, if_pos hb, ?_, .noMore⟩
    unfold Dec.fetch
    rw [he, hb]
    rfl
  rw [if_neg hb]
  cases hs : itemStop d.cur.rest.length d.cur.rest with
  | some s =>
    left
    obtain ⟨e, c1, h1, h2⟩ := slot_stop (P := P) hs d.cur.pos
    refine ⟨s, e, c1, rfl, ?_, h2⟩
    unfold Dec.fetch
    rw [he]
    simp only [Bool.false_or]
    rw [if_neg (by simpa using hb)]
    have : (⟨d.cur.pos, d.cur.rest⟩ : Cur) = d.cur := rfl
    rw [this] at h1
    rw [h1]
  | none =>
    right
    obtain ⟨h, hh⟩ := open_box d.cur.rest.length d.cur.rest (Nat.le_refl _) hp hs
    obtain ⟨p, h1⟩ := hh.fetch (P := P) he rfl
    exact ⟨h, p, hh, by simp only [hh.emptyAt], h1⟩

/-- The error that comes of what was fetched if it was not what it should be. -/
def stopR : Except QErr Itm → QErr
  | .error e => e
  | .ok _ => .unexpectedType

/-- What is fetched is no map, no string, and nothing of the kind: where such a thing was
expected, there is an error. -/
theorem fault_stop {d : Dec} {D : Nat} (he : d.atEnd = false)
    (hp : readItem P.maxTags D d.cur.rest = none) :
    ∃ r c1, d.fetch P = (r, c1) ∧ Stops (stopR r) ∧
      headErr (stopR r) = (faultAt d.cur.rest).header ∧
      stopErr (stopR r) = (faultAt d.cur.rest).string P ∧
      ∀ it, r = .ok it → ∃ n, it.val = .arr n ∨ it.val = .map n := by
  rcases fault_fetch he hp with ⟨s, e, c1, h1, h2, h3⟩ | ⟨h, p, h0, h1, h2⟩
  · rw [h1]
    exact ⟨_, _, h2, h3.1, h3.inHeader, h3.outside, nofun⟩
  · rw [h1]
    refine ⟨_, _, h2, ?_⟩
    obtain ⟨g1, g2, -⟩ := untag_empty (P := P) (ts := tagNums d.cur.rest.length d.cur.rest) h0.empty
    have g3 : h.empty.isNot = false ∧ h.empty.tooLow = false := by
      rcases h0.empty with h | h <;> rw [h] <;> exact ⟨rfl, rfl⟩
    unfold boxFetch
    by_cases hm : P.maxTags < (tagNums d.cur.rest.length d.cur.rest).length
    · rw [if_pos hm]
      refine ⟨⟨nofun, nofun⟩, rfl, ?_, nofun⟩
      simp [stopR, stopErr, Fault.string, typeFault, g1, g2, g3, hm]
    · rw [if_neg hm]
      refine ⟨⟨nofun, nofun⟩, rfl, ?_, ?_⟩
      · simp [stopR, stopErr, Fault.string, typeFault, g1, g2, g3, hm, QErr.notWellFormed]
      · rintro it hit
        cases hit
        exact ⟨_, h0.val⟩

theorem enterMap_r {d : Dec} {r : Except QErr Itm} {c1 : Cur} (h0 : d.err = none)
    (hf : d.fetch P = (r, c1)) (hn : ∀ it, r = .ok it → ∀ k, it.val ≠ .map k) :
    (d.enterMap P).err = some (stopR r) := by
  unfold Dec.enterMap
  rw [h0, hf]
  cases r with
  | error e => rfl
  | ok it =>
    simp only [Option.isSome_none, Bool.false_eq_true, if_false]
    split
    · rename_i h; exact absurd h (hn it rfl _)
    · rfl

theorem enterArray_r {d : Dec} {r : Except QErr Itm} {c1 : Cur} (h0 : d.err = none)
    (hf : d.fetch P = (r, c1)) (hn : ∀ it, r = .ok it → ∀ k, it.val ≠ .arr k) :
    (d.enterArray P).err = some (stopR r) := by
  unfold Dec.enterArray
  rw [h0, hf]
  cases r with
  | error e => rfl
  | ok it =>
    simp only [Option.isSome_none, Bool.false_eq_true, if_false]
    split
    · rename_i h; exact absurd h (hn it rfl _)
    · rfl

theorem enterBstr_r {d : Dec} {r : Except QErr Itm} {c1 : Cur} (h0 : d.err = none)
    (hf : d.fetch P = (r, c1)) (hn : ∀ it, r = .ok it → ∀ s, ¬ (it.val = .bstr s ∧ it.tags = [])) :
    (d.enterBstrWrapped P).1.err = some (stopR r) := by
  unfold Dec.enterBstrWrapped
  rw [h0, hf]
  cases r with
  | error e => rfl
  | ok it =>
    simp only [Option.isSome_none, Bool.false_eq_true, if_false]
    split
    · rename_i h h'; exact absurd ⟨h, h'⟩ (hn it rfl _)
    · rfl

theorem getByteString_r {d : Dec} {r : Except QErr Itm} {c1 : Cur} (h0 : d.err = none)
    (hf : d.fetch P = (r, c1)) (hn : ∀ it, r = .ok it → ∀ s, ¬ (it.val = .bstr s ∧ it.tags = [])) :
    (d.getByteString P).1.err = some (stopR r) := by
  unfold Dec.getByteString Dec.getNext
  rw [h0, hf]
  cases r with
  | error e => rfl
  | ok it =>
    simp only [Option.isSome_none, Bool.false_eq_true, if_false]
    split
    · rename_i h h'; exact absurd ⟨h, h'⟩ (hn it rfl _)
    · rfl

/-! ### The search -/

/-- The outcome of the search, if it ends with an error behind the entries `es`. -/
def foldStop {σ : Type} (qs : List (Int × QTyp)) (cb : σ → Option Val → σ × Bool) (es : List Entry)
    (e : QErr) (f : Found) (s : σ) : Except QErr (Found × Cur) × σ :=
  match searchFold qs cb es f s with
  | (.error x, s') => (.error x, s')
  | (.ok _, s') => (.error e, s')

theorem search_cut {σ : Type} {qs : List (Int × QTyp)} {cb : σ → Option Val → σ × Bool} {d : Nat}
    {Q : List Entry → QErr → Prop} {left : Option Nat} {c : Cur} {es : List Entry} {last : Bytes}
    (h : CutRun P true d left c es last)
    (hlast : ∀ pos, ∃ stubs e, Q stubs e ∧ ∀ n left f s, 0 < n →
      searchLoop P d qs cb n left ⟨pos, last⟩ f s = foldStop qs cb stubs e f s) :
    ∃ stubs e, Q stubs e ∧ ∀ n f s, c.rest.length < n →
      searchLoop P d qs cb n left c f s = foldStop qs cb (es ++ stubs) e f s := by
  induction h with
  | @stop left pos b hl =>
    obtain ⟨stubs, e, h1, h2⟩ := hlast pos
    exact ⟨stubs, e, h1, fun n f s hn => h2 n left f s (by omega)⟩
  | @cons left pos a r en es last hl h1 h2 h3 h4 ih =>
    obtain ⟨stubs, e, g1, g2⟩ := ih hlast
    refine ⟨stubs, e, g1, fun n f s hn => ?_⟩
    have hpos := h1.1.length
    obtain ⟨n, rfl⟩ : ∃ k, n = k + 1 := ⟨n - 1, by omega⟩
    rw [searchLoop, if_neg (by
      simp only [List.isEmpty_iff]
      intro hc
      have := congrArg List.length hc
      simp only [List.length_append, List.length_nil] at this
      omega), h2]
    unfold foldStop
    rw [List.cons_append, searchFold]
    cases hss : searchStep qs cb en.label en.itm en.cur f s with
    | mk r2 s2 =>
      cases r2 with
      | error x => simp only [hss]
      | ok f2 =>
        simp only [hss, h3]
        rw [ascend_stepLeft hl, if_neg h4.left_ne]
        simp only
        have hlen : (stepLeft left ⟨pos + a.length, r⟩).2.rest.length ≤ r.length :=
          (stepLeft_adv left ⟨pos + a.length, r⟩).length_le
        simp only [List.length_append] at hn
        rw [g2 n f2 s2 (by omega)]
        rfl

/-- The entry that is not read to its end. -/
theorem last_entry {f d : Nat} {b : Bytes} (hf : b.length ≤ f)
    (hb : entryAt P.maxTags f (parse P.maxTags f d) b = none) (pos : Nat) :
    ∃ stubs e, Each (fun kv e => EntryScan (labelOf kv.1.bare, kv.2.untagParam P) (relabel e))
        (lastEntry P.maxTags f d b) stubs ∧
      IsStop (stopOr (stopEntry f (stopItem P.maxTags f d)) b) e ∧
      ∀ {σ : Type} (qs : List (Int × QTyp)) (cb : σ → Option Val → σ × Bool) n left f s, 0 < n →
        searchLoop P d qs cb n left ⟨pos, b⟩ f s = foldStop qs cb stubs e f s := by
  by_cases h0 : b = []
  · subst h0
    have hl : lastEntry P.maxTags f d [] = [] := by
      unfold lastEntry
      cases f <;> simp [parse, headAt]
    rw [hl]
    refine ⟨[], .noMoreItems, .nil, .noMore, ?_⟩
    intro σ qs cb n left f s hn
    obtain ⟨n, rfl⟩ : ∃ k, n = k + 1 := ⟨n - 1, by omega⟩
    rfl
  have hne : (Cur.mk pos b).rest.isEmpty = false := by simpa using h0
  have hso : stopOr (stopEntry f (stopItem P.maxTags f d)) b = stopEntry f (stopItem P.maxTags f d) b :=
    if_neg h0
  rw [hso]
  have halt := entry_halt (P := P) (f := f) (d := d) (room := d) (st := []) (q := stopItem P.maxTags f d)
    (fun b pos hf hp => parse_stop f d d [] b pos (by simp) hf hp) b pos hf hb
  -- an error
  have herr : ∀ e c1, entry P true ⟨pos, b⟩ = (.error e, c1) →
      IsStop (stopEntry f (stopItem P.maxTags f d) b) e → lastEntry P.maxTags f d b = [] →
      ∃ stubs e, Each (fun kv e => EntryScan (labelOf kv.1.bare, kv.2.untagParam P) (relabel e))
          (lastEntry P.maxTags f d b) stubs ∧
        IsStop (stopEntry f (stopItem P.maxTags f d) b) e ∧
        ∀ {σ : Type} (qs : List (Int × QTyp)) (cb : σ → Option Val → σ × Bool) n left f s, 0 < n →
          searchLoop P d qs cb n left ⟨pos, b⟩ f s = foldStop qs cb stubs e f s := by
    intro e c1 h1 h2 h3
    rw [h3]
    refine ⟨[], e, .nil, h2, ?_⟩
    intro σ qs cb n left f s hn
    obtain ⟨n, rfl⟩ : ∃ k, n = k + 1 := ⟨n - 1, by omega⟩
    rw [searchLoop, hne]
    simp only [Bool.false_eq_true, if_false, h1]
    rfl
  -- the key
  have key : ∀ k r, parse P.maxTags f d b = some (k, r) → isKey P.maxTags k = true →
      parse P.maxTags f d r = none ∧ r.length ≤ f ∧ ∃ v tags pos', nextRaw P ⟨pos, b⟩ =
        (.ok ⟨v, tags, none⟩, ⟨pos', r⟩) ∧ AtomIs k.bare v ∧ k.bare.isLabel = true ∧ v.isLabel = true := by
    intro k r hk hkey
    obtain ⟨a, rfl, h2⟩ := parse_sound _ _ _ _ _ hk
    refine ⟨?_, by simp only [List.length_append] at hf; omega, ?_⟩
    · unfold entryAt at hb
      split at hb
      · cases hb
      · rw [hk] at hb
        simp only [hkey, if_true] at hb
        split at hb
        · assumption
        · cases hb
    · obtain ⟨v, ts, h4, h5, h6, h7⟩ := key_raw (P := P) h2 (isKey_iff.mp hkey) pos r
      exact ⟨v, ts, _, h4, h5, h6, h7⟩
  by_cases hc : ∃ k r, parse P.maxTags f d b = some (k, r) ∧ isKey P.maxTags k = true ∧ itemStop f r = none
  · obtain ⟨k, r, hk, hkey, hi⟩ := hc
    obtain ⟨hr, hrl, v, tags, pos', hraw, ha, hkl, hvl⟩ := key k r hk hkey
    obtain ⟨h, hbox⟩ := open_box f r hrl hr hi
    obtain ⟨p, hitem⟩ := hbox.item (P := P) pos'
    have hen := entry_map hraw hvl hitem (box_brk hbox.val)
    have hle : lastEntry P.maxTags f d b = [(k, emptyAt f r)] := by
      unfold lastEntry
      rw [hk]
      simp only [hkey, hi, and_self, if_true]
    rcases halt with ⟨e, c1, h1, -⟩ | ⟨-, ⟨e, c1, h1, -⟩ | ⟨l, it, c1, e, h1, h2, h3⟩⟩
    · rw [hen] at h1; cases h1
    · rw [hen] at h1; cases h1
    rw [hen] at h1
    simp only [Prod.mk.injEq, Except.ok.injEq] at h1
    obtain ⟨⟨rfl, rfl⟩, rfl⟩ := h1
    refine ⟨[⟨some v, boxItm P f r h, ⟨p, h.rest⟩⟩], e, ?_, h3, ?_⟩
    · rw [hle]
      refine .cons ?_ .nil
      have hlab := labelOf_item ha hkl
      have hsh : ShownAs ((emptyAt f r).untagParam P) (boxItm P f r h) := by
        rw [hbox.emptyAt]
        obtain ⟨-, -, g3⟩ := untag_empty (P := P) (ts := tagNums f r) hbox.empty
        unfold Item.untagParam
        rw [g3]
        by_cases hm : P.maxTags < (tagNums f r).length
        · rw [if_pos hm]
          exact .inr ⟨rfl, .tooManyTags, if_pos hm, nofun, nofun, rfl⟩
        · rw [if_neg hm]
          unfold boxItm Hd.open Hd.empty
          rcases hbox.box with h4 | h4
          · rw [if_pos h4, if_pos h4, if_neg hm]
            exact .inl ⟨rfl, rfl, _, rfl⟩
          · rw [if_neg (by omega), if_neg (by omega), if_neg hm]
            exact .inl ⟨rfl, rfl, _, rfl⟩
      unfold relabel
      cases v with
      | bstr s => exact ⟨⟨_, rfl, hlab⟩, fun _ _ _ _ => hsh⟩
      | _ => exact ⟨⟨_, rfl, hlab⟩, fun _ _ _ _ => hsh⟩
    · intro σ qs cb n left f s hn
      obtain ⟨n, rfl⟩ : ∃ k, n = k + 1 := ⟨n - 1, by omega⟩
      rw [searchLoop, hne]
      simp only [Bool.false_eq_true, if_false, hen]
      unfold foldStop
      rw [searchFold]
      simp only
      cases hss : searchStep qs cb (some v) (boxItm P _ r h) ⟨p, h.rest⟩ f s with
      | mk r2 s2 =>
        cases r2 with
        | error x => rfl
        | ok f2 => simp only [h2.skipValue, searchFold]
  · have hle : lastEntry P.maxTags f d b = [] := by
      unfold lastEntry
      cases hk : parse P.maxTags f d b with
      | none => rfl
      | some y =>
        obtain ⟨k, r⟩ := y
        simp only
        exact if_neg fun h => hc ⟨k, r, hk, h.1, h.2⟩
    rcases halt with ⟨e, c1, h1, h2⟩ | ⟨⟨k, r, hk, hkey⟩, ⟨e, c1, h1, h2⟩ | ⟨l, it, c1, e, h1, -, -⟩⟩
    · exact herr e c1 h1 h2 hle
    · exact herr e c1 h1 h2 hle
    · exfalso
      obtain ⟨hr, hrl, v, tags, pos', hraw, ha, hkl, hvl⟩ := key k r hk hkey
      have hi : itemStop f r ≠ none := fun hi => hc ⟨k, r, hk, hkey, hi⟩
      obtain ⟨s, hi⟩ := Option.ne_none_iff_exists'.mp hi
      unfold entry at h1
      rw [if_pos rfl, hraw] at h1
      simp only [if_neg (Val.isLabel_ne_brk hvl), hvl, if_true] at h1
      rcases item_stop (P := P) hi pos' with ⟨e, c1, h3, -⟩ | ⟨it, c1, h3, h4, -⟩
      · rw [h3] at h1; cases h1
      · rw [h3] at h1
        simp only [h4, if_true] at h1
        cases h1

/-! ### The header -/

/-- The entries that are read, as parameters. -/
theorem read_entries (hl : P.Local) {d : Nat} {kvs : List (Item × Item)} {es : List Entry}
    (h : Each (EntryRead P d) kvs es) (hr : ∀ kv ∈ kvs, kv.2.Real) :
    Each EntryScan (Header.untag P (asHeader kvs)) (es.map relabel) := by
  have := shown_untag hl (h := asHeader kvs) (by
    intro p hp
    obtain ⟨q, hq, rfl⟩ := List.mem_map.mp hp
    exact hr q hq) d _ (relabel_entries h)
  exact this.imp fun _ _ _ h => h.scan

theorem Each.append {α β : Type} {R : α → β → Prop} {as as' : List α} {bs bs' : List β}
    (h : Each R as bs) (h' : Each R as' bs') : Each R (as ++ as') (bs ++ bs') := by
  induction h with
  | nil => exact h'
  | cons h1 _ ih => exact .cons h1 ih

/-- All that is read is real. -/
theorem front_real {t f d g : Nat} : ∀ b, ∀ kv ∈ (front (entryAt t f (parse t f d)) g b).1, kv.2.Real := by
  induction g with
  | zero => intro b kv h; cases h
  | succ g ih =>
    intro b kv h
    rw [front] at h
    split at h
    · cases h
    · rename_i x r hx
      rcases List.mem_cons.mp h with rfl | h
      · unfold entryAt at hx
        split at hx
        · cases hx
          exact ⟨by simp [notItem, unread, Item.bare], nofun⟩
        · split at hx
          · cases hx
          · split at hx
            · split at hx
              · cases hx
              · rename_i hv
                cases hx
                obtain ⟨a, -, h2⟩ := parse_sound _ _ _ _ _ hv
                exact h2.real
            · cases hx
      · exact ih r kv h

/-- A header that is not read to its end. -/
theorem header_unread (hl : P.Local) {cfg : Config} {prot : Bool} {st : Parse} {D : Nat} {b : Bytes} {k : Known}
    (h0 : st.d.err = none) (he : st.d.atEnd = false) (hb : st.d.cur.rest = b) (hroom : st.d.room = D + 1)
    (hp : readItem P.maxTags (D + 1) b = none) (hk : KnownIs k st.params st.crit st.unk) :
    ∃ y, (if b = [] then Hdr.no .parameterCbor else headerIn P (D + 1) b).read P cfg.disableContentType prot k =
        .error y ∧ (parseHeader cfg P prot st).1 = .error y := by
  by_cases hb0 : b = []
  · rw [if_pos hb0]
    refine ⟨_, rfl, ?_⟩
    have hf : st.d.fetch P = (.error .noMoreItems, st.d.cur) := by
      unfold Dec.fetch
      rw [he, hb, hb0]
      rfl
    exact parseHeader_noEnter (enterMap_r h0 hf nofun) ⟨nofun, nofun⟩
  rw [if_neg hb0]
  subst hb
  unfold headerIn
  simp only [hp]
  rcases fault_fetch he hp with ⟨s, e, c1, h1, h2, h3⟩ | ⟨h, p, hbox, h1, h2⟩
  · have hs : itemStop st.d.cur.rest.length st.d.cur.rest = some s := by
      unfold faultAt at h1
      rw [if_neg hb0] at h1
      split at h1
      · rename_i hs; cases h1; exact hs
      · cases h1
    rw [hs]
    refine ⟨_, rfl, ?_⟩
    rw [parseHeader_noEnter (enterMap_r h0 h2 nofun) h3.1]
    exact congrArg _ h3.inHeader
  rw [hbox.itemStop, hbox.emptyAt, hbox.contentAt]
  simp only
  obtain ⟨g1, g2, g3⟩ := untag_empty (P := P) (ts := tagNums st.d.cur.rest.length st.d.cur.rest) hbox.empty
  have hnot : h.empty.isNot = false := by
    rcases hbox.empty with h | h <;> rw [h] <;> rfl
  by_cases hc : h.major = 5 ∧ ¬ P.maxTags < (tagNums st.d.cur.rest.length st.d.cur.rest).length
  rotate_left
  · -- no map
    have hh : (tagged (tagNums st.d.cur.rest.length st.d.cur.rest) h.empty).header? P =
        .error .parameterCbor := by
      unfold Item.header?
      rw [g1, g3, hnot]
      by_cases hm : P.maxTags < (tagNums st.d.cur.rest.length st.d.cur.rest).length
      · rw [if_pos hm]
        rfl
      · rw [if_neg hm]
        have h4 : h.major = 4 := by
          have := hbox.box
          omega
        have : h.empty = .arr [] := if_pos h4
        rw [this]
        rfl
    rw [hh]
    refine ⟨_, rfl, ?_⟩
    have hst : Stops (stopR (boxFetch P st.d.cur.rest.length st.d.cur.rest h)) ∧
        headErr (stopR (boxFetch P st.d.cur.rest.length st.d.cur.rest h)) = .parameterCbor := by
      unfold boxFetch
      split <;> exact ⟨⟨nofun, nofun⟩, rfl⟩
    rw [parseHeader_noEnter (enterMap_r h0 h2 ?_) hst.1, hst.2]
    intro it hit k hk
    unfold boxFetch at hit
    split at hit
    · cases hit
    · rename_i hm
      cases hit
      have h4 : h.major = 4 := by
        have := hbox.box
        omega
      unfold boxItm Hd.open at hk
      rw [if_pos h4] at hk
      cases hk
  · obtain ⟨h5, hm⟩ := hc
    have hh : (tagged (tagNums st.d.cur.rest.length st.d.cur.rest) h.empty).header? P = .ok [] := by
      unfold Item.header?
      rw [g3, if_neg hm]
      have : h.empty = .map [] := if_neg (by omega)
      rw [this]
      rfl
    rw [hh]
    simp only [Nat.add_sub_cancel]
    have hbf : boxFetch P st.d.cur.rest.length st.d.cur.rest h =
        .ok (boxItm P st.d.cur.rest.length st.d.cur.rest h) := if_neg hm
    rw [hbf] at h2
    have hval : (boxItm P st.d.cur.rest.length st.d.cur.rest h).val = .map h.count := if_neg (by omega)
    obtain ⟨⟨es, hrun, heach⟩, hlast, hlen⟩ := hbox.map (Nat.le_refl _) h5 hp p
    generalize hfr : front (entryAt P.maxTags st.d.cur.rest.length (parse P.maxTags st.d.cur.rest.length D))
      (st.d.cur.rest.length + 1) h.rest = q at hrun heach hlast hlen ⊢
    have hreal : ∀ kv ∈ q.1, kv.2.Real := by rw [← hfr]; exact front_real _
    obtain ⟨stubs, e, ⟨hs1, hs2⟩, hs3⟩ := search_cut (qs := headerQs) (cb := headerCb)
      (Q := fun stubs e => Each (fun kv e => EntryScan (labelOf kv.1.bare, kv.2.untagParam P) (relabel e))
        (lastEntry P.maxTags st.d.cur.rest.length D q.2) stubs ∧
        IsStop (stopOr (stopEntry st.d.cur.rest.length (stopItem P.maxTags st.d.cur.rest.length D)) q.2) e)
      hrun (fun pos => by
        obtain ⟨stubs, e, k1, k2, k3⟩ := last_entry (P := P) (f := st.d.cur.rest.length) (d := D) hlen hlast pos
        exact ⟨stubs, e, ⟨k1, k2⟩, fun n left f s hn => k3 headerQs headerCb n left f s hn⟩)
    have hall : Each EntryScan (Header.untag P (asHeader (q.1 ++ lastEntry P.maxTags st.d.cur.rest.length D q.2)))
        ((es ++ stubs).map relabel) := by
      unfold asHeader Header.untag
      rw [List.map_append, List.map_append, List.map_append]
      refine Each.append (read_entries hl heach hreal) ?_
      clear hs2 hs3
      generalize lastEntry P.maxTags st.d.cur.rest.length D q.2 = le at hs1
      induction hs1 with
      | nil => exact .nil
      | cons h1 _ ih => exact .cons h1 ih
    have hd1 := Dec.enterMap_intro h0 h2 hval (by rw [hroom]; simp)
    have hlv : (st.d.enterMap P).lvls =
      .map (Dec.openLvl h.count ⟨p, h.rest⟩).2 (Dec.openLvl h.count ⟨p, h.rest⟩).1 :: st.d.lvls := by rw [hd1]
    have hrm : (st.d.enterMap P).room = D := by
      have : st.d.room = D + 1 := hroom
      unfold Dec.room at this ⊢
      rw [hlv, List.length_cons]; omega
    have herr : (st.d.enterMap P).err = none := by rw [hd1]; exact h0
    obtain ⟨ts, hu, hts, hll⟩ := hk.unk
    have hsearch : ∀ s, (st.d.enterMap P).mapSearch P headerQs headerCb s =
        match searchFold headerQs headerCb ((es ++ stubs).map relabel) [] s with
        | (.error x, s') => (.error x, s')
        | (.ok _, s') => (.error e, s') := by
      intro s
      rw [searchFold_relabel (by intro s b n; rfl) (by intro s n; rfl)]
      have hne := hrun.left_ne
      have hs3 := hs3 ((Dec.openLvl h.count ⟨p, h.rest⟩).2.rest.length + 1) [] s (Nat.lt_succ_self _)
      unfold Dec.mapSearch
      rw [hlv, hrm]
      generalize Dec.openLvl h.count ⟨p, h.rest⟩ = o at hs3 hne ⊢
      obtain ⟨cnt, start⟩ := o
      simp only at hs3 hne ⊢
      unfold foldStop at hs3
      rw [hs3]
      generalize searchFold headerQs headerCb (es ++ stubs) [] s = x
      obtain ⟨r, s'⟩ := x
      cases r <;> rfl
    have hscan := scan_exact hall [] [] [] ⟨k.ints, k.texts⟩ ts (fun _ _ => rfl) (by simp [Header.get]) hll hts
    simp only at hscan
    unfold Hdr.read parseHeader Dec.getItemsInMap
    simp only [herr, Option.isSome_none, Bool.false_eq_true, if_false, hsearch, hu]
    cases hsc : scan (Header.untag P (asHeader (q.1 ++ lastEntry P.maxTags st.d.cur.rest.length D q.2))) []
        ⟨k.ints, k.texts⟩ with
    | error y =>
      rw [hsc] at hscan
      obtain ⟨x, s', hx, hy⟩ := hscan
      rw [hx]
      refine ⟨y, rfl, ?_⟩
      rcases hy with ⟨rfl, hy⟩ | ⟨hx1, rfl⟩
      · exact hy
      · simp only
    | ok u' =>
      rw [hsc] at hscan
      obtain ⟨f', ts', hx, -, -, -⟩ := hscan
      rw [hx]
      refine ⟨_, rfl, ?_⟩
      obtain ⟨p1, p2⟩ := hs2.1.param
      rw [← hs2.inHeader, ← p1]
      simp only

end TCose
