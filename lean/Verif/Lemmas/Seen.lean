import Verif.Lemmas.ReadBack
import Verif.Lemmas.Accepted
import Verif.Spec.Seen

/-!
# The items behind the message laid open
-/

namespace TCose
open Spec

theorem bare_tagged {x : Item} (hx : x.bare = x) : ∀ ts : List Nat, (tagged ts x).bare = x := by
  intro ts
  induction ts with
  | nil => exact hx
  | cons t ts ih => exact ih

theorem bare_mkc (v : Val) (ps : List (Item × Item)) : (mkc v ps).bare = mkc v ps := by
  unfold mkc
  split <;> rfl

theorem bare_label {k : Item} (h : k.isLabel = true) : k.bare = k := by
  cases k <;> first | rfl | cases h

theorem bare_atom {x : Item} {v : Val} (h : AtomIs x v) : x.bare = x := by
  cases x <;> first | rfl | exact h.elim

theorem each_nil {α β : Type} {R : α → β → Prop} {bs : List β} (h : Each R [] bs) : bs = [] := by
  cases h; rfl

theorem each_cons {α β : Type} {R : α → β → Prop} {a : α} {as : List α} {bs : List β}
    (h : Each R (a :: as) bs) : ∃ b bs', bs = b :: bs' ∧ R a b ∧ Each R as bs' := by
  cases h with
  | cons h1 h2 => exact ⟨_, _, rfl, h1, h2⟩

theorem each_length {α β : Type} {R : α → β → Prop} {as : List α} {bs : List β}
    (h : Each R as bs) : as.length = bs.length := by
  induction h with
  | nil => rfl
  | cons _ _ ih => simp [ih]

theorem each_mem {α β : Type} {R : α → β → Prop} {as : List α} {bs : List β}
    (h : Each R as bs) {b : β} (hb : b ∈ bs) : ∃ a ∈ as, R a b := by
  induction h with
  | nil => cases hb
  | cons h1 _ ih =>
    rcases List.mem_cons.mp hb with rfl | hb
    · exact ⟨_, by simp, h1⟩
    · obtain ⟨a, ha, hr⟩ := ih hb
      exact ⟨a, by simp [ha], hr⟩

theorem each_append {α β : Type} {R : α → β → Prop} {as as' : List α} {bs bs' : List β}
    (h : Each R as bs) (h' : Each R as' bs') : Each R (as ++ as') (bs ++ bs') := by
  induction h with
  | nil => exact h'
  | cons h1 _ ih => exact .cons h1 ih

/-- What the value of an entry shows of an item without tags. -/
def ValShows (P : QParams) (r : Nat) (e : Entry) (x : Item) : Prop :=
  (AtomIs x e.itm.val ∨ e.itm.val = .other) ∨
  (e.itm.val.isCont = true ∧ ∃ ps, x = mkc e.itm.val ps ∧
    ((e.itm.val.count = some 0 ∧ ps = []) ∨ ∃ r' es c', r = r' + 1 ∧
      elements P e.itm.val.isMap r' e.itm.val.count e.cur = .ok (es, c') ∧
      Each (Shows P r' e.itm.val.isMap) es ps))

theorem Shows.split {P : QParams} {r : Nat} {m : Bool} {e : Entry} {p : Item × Item}
    (h : Shows P r m e p) : KeyShows m e.label p.1 ∧ ValShows P r e p.2.bare ∧
      ∃ ts x, p.2 = tagged ts x ∧ (e.itm.err = none → e.itm.tags = ts.reverse) ∧
        (e.itm.val = .other ∨ x.bare = x) := by
  have hb : ∀ {ts x}, (AtomIs x e.itm.val ∨ e.itm.val = .other) → ValShows P r e (tagged ts x).bare := by
    intro ts x h
    rcases h with h | h
    · rw [bare_tagged (bare_atom h)]; exact .inl (.inl h)
    · exact .inl (.inr h)
  have hb2 : ∀ {x : Item}, (AtomIs x e.itm.val ∨ e.itm.val = .other) →
      (e.itm.val = .other ∨ x.bare = x) := by
    intro x h
    rcases h with h | h
    · exact .inr (bare_atom h)
    · exact .inl h
  cases r with
  | zero =>
    obtain ⟨h1, ts, x, h2, h3, h4⟩ := h
    cases hc : e.itm.val.isCont with
    | true =>
      rw [hc, if_pos rfl] at h4
      obtain ⟨h4, rfl⟩ := h4
      refine ⟨h1, ?_, ts, _, h2, h3, .inr (bare_mkc _ _)⟩
      rw [h2, bare_tagged (bare_mkc _ _)]
      exact .inr ⟨hc, [], rfl, .inl ⟨h4, rfl⟩⟩
    | false =>
      rw [hc, if_neg (by simp)] at h4
      refine ⟨h1, ?_, ts, x, h2, h3, hb2 h4⟩
      rw [h2]; exact hb h4
  | succ r =>
    obtain ⟨h1, ts, x, h2, h3, h4⟩ := h
    cases hc : e.itm.val.isCont with
    | true =>
      rw [hc, if_pos rfl] at h4
      obtain ⟨es, c', ps, h5, h6, rfl⟩ := h4
      refine ⟨h1, ?_, ts, _, h2, h3, .inr (bare_mkc _ _)⟩
      rw [h2, bare_tagged (bare_mkc _ _)]
      exact .inr ⟨hc, ps, rfl, .inr ⟨r, es, c', rfl, h5, h6⟩⟩
    | false =>
      rw [hc, if_neg (by simp)] at h4
      refine ⟨h1, ?_, ts, x, h2, h3, hb2 h4⟩
      rw [h2]; exact hb h4

theorem ValShows.bstr {P : QParams} {r : Nat} {e : Entry} {x : Item} (h : ValShows P r e x)
    {s : Str} (hv : e.itm.val = .bstr s) : x = .bstr s.bytes := by
  rcases h with (h | h) | ⟨h, -⟩
  · rw [hv] at h
    cases x <;> simp only [AtomIs] at h
    · split at h <;> cases h
    · cases h
    · obtain ⟨o, h⟩ := h; cases h; rfl
    · obtain ⟨o, h⟩ := h; cases h
    all_goals cases h
  · rw [hv] at h; cases h
  · rw [hv] at h; cases h

theorem ValShows.tstr {P : QParams} {r : Nat} {e : Entry} {x : Item} (h : ValShows P r e x)
    {s : Str} (hv : e.itm.val = .tstr s) : x = .tstr s.bytes := by
  rcases h with (h | h) | ⟨h, -⟩
  · rw [hv] at h
    cases x <;> simp only [AtomIs] at h
    · split at h <;> cases h
    · cases h
    · obtain ⟨o, h⟩ := h; cases h
    · obtain ⟨o, h⟩ := h; cases h; rfl
    all_goals cases h
  · rw [hv] at h; cases h
  · rw [hv] at h; cases h

theorem ValShows.null {P : QParams} {r : Nat} {e : Entry} {x : Item} (h : ValShows P r e x)
    (hv : e.itm.val = .null) : x = .null := by
  rcases h with (h | h) | ⟨h, -⟩
  · rw [hv] at h
    cases x <;> simp only [AtomIs] at h
    · split at h <;> cases h
    · cases h
    · obtain ⟨o, h⟩ := h; cases h
    · obtain ⟨o, h⟩ := h; cases h
    all_goals first | rfl | (cases h; done)
  · rw [hv] at h; cases h
  · rw [hv] at h; cases h

theorem atomIs_number {x : Item} {i : Int} (h : AtomIs x (.int i)) : x.number = some i := by
  cases x <;> simp only [AtomIs] at h
  · split at h
    · cases h; rfl
    · cases h
  · cases h; rfl
  · obtain ⟨o, h⟩ := h; cases h
  · obtain ⟨o, h⟩ := h; cases h
  all_goals cases h

theorem ValShows.int {P : QParams} {r : Nat} {e : Entry} {x : Item} (h : ValShows P r e x)
    {i : Int} (hv : e.itm.val = .int i) : x.number = some i := by
  rcases h with (h | h) | ⟨h, -⟩
  · rw [hv] at h; exact atomIs_number h
  · rw [hv] at h; cases h
  · rw [hv] at h; cases h

/-- A label is the integer `i` exactly if the key is. -/
theorem KeyShows.int_iff {l : Option Val} {k : Item} (h : KeyShows true l k) {i : Int}
    (hi : i ≤ 9223372036854775807) : l = some (.int i) ↔ k.bare.number = some i := by
  rcases h with ⟨lv, ts, k0, rfl, rfl, h1, h2⟩ | ⟨rfl, rfl⟩
  · rw [bare_tagged (bare_label h2)]
    constructor
    · intro h; cases h; exact atomIs_number h1
    · intro h
      cases k0 <;> simp only [Item.number, Option.some.injEq, reduceCtorEq] at h
      · simp only [AtomIs] at h1
        rw [if_pos (by unfold int64Max; omega)] at h1
        rw [h1, h]
      · simp only [AtomIs] at h1
        rw [h1, h]
  · constructor
    · intro h; cases h
    · intro h; cases h

theorem KeyShows.tstr {l : Option Val} {k : Item} (h : KeyShows true l k) {s : Str}
    (hl : l = some (.tstr s)) : k.bare = .tstr s.bytes := by
  rcases h with ⟨lv, ts, k0, h0, rfl, h1, h2⟩ | ⟨rfl, rfl⟩
  · rw [bare_tagged (bare_label h2)]
    rw [hl] at h0
    cases h0
    cases k0 <;> simp only [AtomIs] at h1
    · split at h1 <;> cases h1
    · cases h1
    · obtain ⟨o, h1⟩ := h1; cases h1
    · obtain ⟨o, h1⟩ := h1; cases h1; rfl
    all_goals cases h1
  · cases hl

/-- The values of a parameter, entry by entry. -/
theorem each_valuesOf {P : QParams} {r : Nat} {es : List Entry} {ps : List (Item × Item)}
    (h : Each (Shows P r true) es ps) {i : Int} (hi : i ≤ 9223372036854775807) :
    Each (ValShows P r) (es.filter (fun e => decide (e.label = some (.int i)))) (valuesOf i ps) := by
  induction h with
  | nil => exact .nil
  | @cons e p es ps h1 _ ih =>
    obtain ⟨s1, s2, -⟩ := h1.split
    unfold Spec.valuesOf
    by_cases hl : e.label = some (.int i)
    · rw [List.filter_cons_of_pos (by simpa using hl), List.filterMap_cons_some
        (by rw [if_pos ((s1.int_iff hi).mp hl)])]
      exact .cons s2 ih
    · rw [List.filter_cons_of_neg (by simpa using hl), List.filterMap_cons_none
        (by rw [if_neg (fun hc => hl ((s1.int_iff hi).mpr hc))])]
      exact ih

/-- What the message laid open shows of its items. -/
structure SeenAs (P : QParams) (v : MsgView) (S : Seen) : Prop where
  tags : v.tags = S.tags.reverse
  pb : v.prot.bytes = S.pb
  sig : v.sig.bytes = S.sig
  prot : Each (Shows P 12 true) v.protEntries S.prot
  unprot : Each (Shows P 13 true) v.unprotEntries S.unprot
  payload : ∃ e : Entry, e.itm = ⟨v.payload, v.payloadTags, none⟩ ∧ ∃ k, Shows P 14 false e (k, S.payload)
  extra : ∃ ps, Each (Shows P 14 false) v.extra ps ∧ S.extra = ps.map (·.2)

theorem strOnly {P : QParams} {e : Entry} {p : Item × Item} (h : Shows P 14 false e p) {s : Str}
    (he : e.itm = ⟨.bstr s, [], none⟩) : p.2 = .bstr s.bytes := by
  obtain ⟨-, h2, ts, x, h3, h4, h5⟩ := h.split
  have h6 : [] = ts.reverse := by
    have := h4 (by rw [he])
    rw [he] at this
    exact this
  have hts : ts = [] := by
    rw [← List.reverse_reverse ts, ← h6]; rfl
  subst hts
  have hb := h2.bstr (s := s) (by rw [he])
  rcases h5 with h5 | h5
  · rw [he] at h5; cases h5
  · rw [h3] at hb ⊢
    exact (h5.symm.trans hb)

/-- Every message laid open is read as items. -/
theorem seen_of_view {P : QParams} {msg : Bytes} {v : MsgView} (h : IsView P msg v) :
    ∃ S : Seen, S.In P.maxTags msg ∧ SeenAs P v S := by
  obtain ⟨-, n, c1, e0, e1, e2, e3, cE, m, c2, a1, a2, a3, a4, a5, a6, a7, a8, a9, a10⟩ := h
  obtain ⟨k, ts, hb, b1, -, b3, b4, -⟩ := entry_back a1
  have b3 := b3 rfl
  obtain ⟨ps, body, d1, d2, d3⟩ := elements_back (entryReads P 14) (v := .arr n) a2
  have hwhole : Reads P.maxTags 15 (tagged ts (mkc (.arr n) ps)) msg := by
    have := b4 rfl 14 ps body d2
    rw [show msg = hb ++ body by
      have : msg = hb ++ c1.rest := b1
      rw [this, d3, a3, List.append_nil]]
    exact this
  obtain ⟨p0, ps, rfl, f0, d1⟩ := each_cons d1
  obtain ⟨p1, ps, rfl, f1, d1⟩ := each_cons d1
  obtain ⟨p2, ps, rfl, f2, d1⟩ := each_cons d1
  obtain ⟨p3, ps, rfl, f3, d1⟩ := each_cons d1
  have g0 := strOnly f0 a4
  have g3 := strOnly f3 a10
  -- the unprotected header
  obtain ⟨us, kvs, g1, hu⟩ : ∃ us kvs, p1.2 = tagged us (.map kvs) ∧
      Each (Shows P 13 true) v.unprotEntries kvs := by
    obtain ⟨-, us, x, h2, -, h4⟩ := f1
    rw [a6] at h4
    rw [show (Val.map m).isCont = true from rfl, if_pos rfl] at h4
    obtain ⟨es, c', ps', h5, h6, rfl⟩ := h4
    have h5' : elements P true 13 m e1.cur = .ok (es, c') := h5
    rw [a8] at h5'
    cases h5'
    exact ⟨us, ps', h2, h6⟩
  -- the protected header
  obtain ⟨pkvs, hp1, hp2⟩ : ∃ pkvs, Each (Shows P 12 true) v.protEntries pkvs ∧
      ((v.prot.bytes = [] ∧ pkvs = []) ∨ ∃ us b rest, v.prot.bytes = b ++ rest ∧
        Reads P.maxTags 13 (tagged us (.map pkvs)) b) := by
    rcases a5 with ⟨q1, q2⟩ | ⟨-, it, kk, c3, c4, q1, q2, q3, q4⟩
    · exact ⟨[], by rw [q2]; exact .nil, .inl ⟨q1, rfl⟩⟩
    · obtain ⟨k', ts', hb', r1, -, -, r4, -⟩ := entry_back q1
      obtain ⟨ps', body', s1, s2, s3⟩ := elements_back (entryReads P 12) (v := .map kk) q4
      refine ⟨ps', s1, .inr ⟨ts', hb' ++ body', c4.rest, ?_, ?_⟩⟩
      · have : v.prot.bytes = hb' ++ c3.rest := r1
        rw [this, s3, List.append_assoc]
      · have := r4 (by rw [q2]; rfl) 12 ps' body' (by rw [q2]; exact s2)
        rw [q2] at this
        exact this
  refine ⟨⟨ts, v.prot.bytes, pkvs, kvs, p2.2, v.sig.bytes, ps.map (·.2)⟩, ⟨⟨us, ?_⟩, hp2⟩,
    ⟨b3, rfl, rfl, hp1, hu, ⟨e2, a9, p2.1, f2⟩, ⟨ps, d1, rfl⟩⟩⟩
  have : mkc (.arr n) (p0 :: p1 :: p2 :: p3 :: ps) =
      .arr (.bstr v.prot.bytes :: tagged us (.map kvs) :: p2.2 :: .bstr v.sig.bytes :: ps.map (·.2)) := by
    simp only [mkc, Val.isMap, Bool.false_eq_true, if_false, List.map_cons]
    rw [g0, g1, g3]
  rw [← this]
  exact hwhole

end TCose
