import Verif.Lemmas.HeaderFn
import Verif.Lemmas.RefuseMsg

/-!
# Decoding of any array, element by element
-/

namespace TCose
open Spec

/-- The byte string without tags that an element is. -/
def Itm.str? (it : Itm) : Option Str :=
  match it.val, it.tags, it.err with
  | .bstr s, [], none => some s
  | _, _, _ => none

theorem Itm.str?_some {it : Itm} {s : Str} : it.str? = some s ↔ it = ⟨.bstr s, [], none⟩ := by
  obtain ⟨v, t, e⟩ := it
  unfold Itm.str?
  constructor
  · intro h
    split at h
    · rename_i h1 h2 h3
      simp only at h1 h2 h3
      cases h
      subst h1 h2 h3
      rfl
    · cases h
  · intro h
    cases h
    rfl

/-- Errors that stop the decoding of an element that is not what it should be. -/
def Stops (e : QErr) : Prop := e ≠ .fuel ∧ e ≠ .callbackFail

/-- Elements are either good or have an error of their own. -/
def Mild (es : List Entry) : Prop := ∀ e ∈ es, ∀ x, e.itm.err = some x → Stops x

/-- An item that is no map. -/
def NoMap (it : Itm) : Prop :=
  (∀ x, it.err = some x → Stops x) ∧ (it.err = none → ∀ k, it.val ≠ .map k)

/-- The code for a header that was not there. -/
def headErr (e : QErr) : Err := if e.notWellFormed then .cborNotWellFormed else .parameterCbor

theorem Stops.param {e : QErr} (h : Stops e) : paramErr e = headErr e ∧ e ≠ .callbackFail := by
  unfold paramErr headErr
  rw [if_neg h.1]
  exact ⟨rfl, h.2⟩

/-- What comes next. -/
def nextOf (c : Cur) : List Entry → Except QErr Itm × Cur
  | [] => (.error .noMoreItems, c)
  | e :: _ => (match e.itm.err with | some x => .error x | none => .ok e.itm, e.cur)

/-- The error of a fetch, or of an element of an unexpected type. -/
def stopOf : List Entry → QErr
  | [] => .noMoreItems
  | e :: _ => e.itm.err.getD .unexpectedType

theorem nextOf_err {c : Cur} {e : Entry} {es : List Entry} {x : QErr} (h : e.itm.err = some x) :
    nextOf c (e :: es) = (.error x, e.cur) := by simp only [nextOf, h]

theorem nextOf_ok {c : Cur} {e : Entry} {es : List Entry} (h : e.itm.err = none) :
    nextOf c (e :: es) = (.ok e.itm, e.cur) := by simp only [nextOf, h]

theorem stopOf_err {e : Entry} {es : List Entry} {x : QErr} (h : e.itm.err = some x) :
    stopOf (e :: es) = x := by simp only [stopOf, h, Option.getD_some]

theorem stopOf_ok {e : Entry} {es : List Entry} (h : e.itm.err = none) :
    stopOf (e :: es) = .unexpectedType := by simp only [stopOf, h, Option.getD_none]

/-- The next element. -/
theorem fetch_next {P : QParams} {left : Option Nat} {ls : List Lvl} {room : Nat} {c : Cur}
    {es : List Entry} {cEnd : Cur} {err : Option QErr} {tags : List Nat}
    (hr : Rem P false room left c es cEnd) :
    (Dec.mk c (.arr left :: ls) err tags).fetch P = nextOf c es := by
  cases es with
  | nil =>
    obtain ⟨rfl, rfl⟩ := Rem_nil_iff.mp hr
    rfl
  | cons e es =>
    cases he : e.itm.err with
    | none => rw [nextOf_ok he]; exact Dec.fetch_rem (d := ⟨c, .arr left :: ls, err, tags⟩) rfl hr he
    | some x =>
      rw [nextOf_err he]; exact Dec.fetch_rem_err (d := ⟨c, .arr left :: ls, err, tags⟩) rfl hr he

theorem stopOf_stops {es : List Entry} (h : Mild es) : Stops (stopOf es) := by
  cases es with
  | nil => exact ⟨by simp [stopOf], by simp [stopOf]⟩
  | cons e es =>
    cases he : e.itm.err with
    | none => rw [stopOf_ok he]; exact ⟨by simp, by simp⟩
    | some x => rw [stopOf_err he]; exact h e (List.mem_cons_self ..) x he

theorem enterBstr_stop {P : QParams} {left : Option Nat} {room : Nat} {c : Cur}
    {es : List Entry} {cEnd : Cur} {tags : List Nat}
    (hr : Rem P false room left c es cEnd) (hn : ∀ e ∈ es.head?, e.itm.str? = none) :
    ((Dec.mk c [.arr left] none tags).enterBstrWrapped P).1.err = some (stopOf es) := by
  unfold Dec.enterBstrWrapped
  simp only [Option.isSome_none, Bool.false_eq_true, if_false]
  rw [fetch_next hr]
  cases es with
  | nil => rfl
  | cons e es =>
    have hn := hn e rfl
    cases he : e.itm.err with
    | some x => rw [nextOf_err he, stopOf_err he]
    | none =>
      rw [nextOf_ok he, stopOf_ok he]
      simp only
      split
      · rename_i s h1 h2
        unfold Itm.str? at hn
        rw [h1, h2, he] at hn
        cases hn
      · rfl

theorem getByteString_stop {P : QParams} {left : Option Nat} {room : Nat} {c : Cur}
    {es : List Entry} {cEnd : Cur} {tags : List Nat}
    (hr : Rem P false room left c es cEnd) (hn : ∀ e ∈ es.head?, e.itm.str? = none) :
    ((Dec.mk c [.arr left] none tags).getByteString P).1.err = some (stopOf es) := by
  unfold Dec.getByteString Dec.getNext
  simp only [Option.isSome_none, Bool.false_eq_true, if_false]
  rw [fetch_next hr]
  cases es with
  | nil => rfl
  | cons e es =>
    have hn := hn e rfl
    cases he : e.itm.err with
    | some x => rw [nextOf_err he, stopOf_err he]
    | none =>
      rw [nextOf_ok he, stopOf_ok he]
      simp only
      split
      · rename_i s h1 h2
        unfold Itm.str? at hn
        rw [h1, h2, he] at hn
        cases hn
      · rfl

/-- A header that cannot be entered. -/
theorem parseHeader_noEnter {cfg : Config} {P : QParams} {prot : Bool} {st : Parse} {e : QErr}
    (h : (st.d.enterMap P).err = some e) (hs : Stops e) :
    (parseHeader cfg P prot st).1 = .error (headErr e) := by
  obtain ⟨h1, h2⟩ := hs.param
  unfold parseHeader
  have h3 : (st.d.enterMap P).getItemsInMap P headerQs headerCb ⟨st.unk, .ok ()⟩ =
      (st.d.enterMap P, [], ⟨st.unk, .ok ()⟩) := by
    unfold Dec.getItemsInMap; simp [h]
  simp only [h3, h]
  cases e <;> first | rfl | exact absurd rfl hs.1 | exact absurd rfl hs.2

theorem enterMap_stop {P : QParams} {left : Option Nat} {ls : List Lvl} {room : Nat} {c : Cur}
    {es : List Entry} {cEnd : Cur} {tags : List Nat}
    (hr : Rem P false room left c es cEnd) (hn : ∀ e ∈ es.head?, NoMap e.itm) :
    ((Dec.mk c (.arr left :: ls) none tags).enterMap P).err = some (stopOf es) := by
  unfold Dec.enterMap
  simp only [Option.isSome_none, Bool.false_eq_true, if_false]
  rw [fetch_next hr]
  cases es with
  | nil => rfl
  | cons e es =>
    have hn := hn e rfl
    cases he : e.itm.err with
    | some x => rw [nextOf_err he, stopOf_err he]
    | none =>
      rw [nextOf_ok he, stopOf_ok he]
      simp only
      split
      · rename_i k h1
        exact absurd h1 (hn.2 he k)
      · rfl

variable {cfg : Config} {P : QParams} {left : Option Nat} {c cEnd : Cur} {tags : List Nat}
  {pay : VPayload} {junk : Junk} {es : List Entry}

/-- The first element is no byte string. -/
theorem body_noProt (hr : Rem P false 14 left c es cEnd) (hm : Mild es)
    (hn : ∀ e ∈ es.head?, e.itm.str? = none) :
    (decodeBody cfg P ⟨c, [.arr left], none, tags⟩ pay junk).1 = .error (headErr (stopOf es)) := by
  have h1 := (stopOf_stops hm).param
  rw [decodeBody_stuck (enterBstr_stop hr hn) h1.2, h1.1]

/-- Entering the byte string with the protected header. -/
theorem fetch_enter {s : Str} {c0 : Cur}
    (hf : (Dec.mk c [.arr left] none tags).fetch P = (.ok ⟨.bstr s, [], none⟩, c0)) :
    (Dec.mk c [.arr left] none tags).enterBstrWrapped P =
      (⟨⟨s.off, s.bytes⟩, [.wrap c0, .arr left], none, []⟩, some (some s)) := by
  rw [Dec.enterBstrWrapped_intro (s := s) rfl hf rfl rfl (by simp [Dec.room, maxDecNesting])]

/-- The element at the front, fetched. -/
theorem rem_fetch {e0 : Entry} {it : Itm} (hr : Rem P false 14 left c (e0 :: es) cEnd) (h0 : e0.itm = it)
    (he : it.err = none) : (Dec.mk c [.arr left] none tags).fetch P = (.ok it, e0.cur) := by
  subst h0
  exact Dec.fetch_rem (P := P) (d := ⟨c, [.arr left], none, tags⟩) rfl hr he

theorem body_enter {e0 : Entry} {s : Str} (hr : Rem P false 14 left c (e0 :: es) cEnd)
    (h0 : e0.itm = ⟨.bstr s, [], none⟩) :
    (Dec.mk c [.arr left] none tags).enterBstrWrapped P =
      (⟨⟨s.off, s.bytes⟩, [.wrap e0.cur, .arr left], none, []⟩, some (some s)) :=
  fetch_enter (rem_fetch hr h0 rfl)

/-- The byte string has something in it that does not begin with a map. -/
theorem fetch_noMap {c0 : Cur} {s : Str} {it : Itm} {c3 : Cur}
    (hf : (Dec.mk c [.arr left] none tags).fetch P = (.ok ⟨.bstr s, [], none⟩, c0)) (hs : s.bytes ≠ [])
    (hen : entry P false ⟨s.off, s.bytes⟩ = (.ok (none, it), c3)) (hn : NoMap it) :
    (decodeBody cfg P ⟨c, [.arr left], none, tags⟩ pay junk).1 =
      .error (headErr (it.err.getD .unexpectedType)) := by
  rw [decodeBody_tail, fetch_enter hf]
  have hlen0 : (wrapOut junk.prot (some (some s))).ub.len = s.bytes.length := rfl
  unfold parseProtected
  rw [if_pos (by rw [hlen0]; simp [hs])]
  have hm : ((Dec.mk ⟨s.off, s.bytes⟩ [.wrap c0, .arr left] none []).enterMap P).err =
      some (it.err.getD .unexpectedType) ∧ Stops (it.err.getD .unexpectedType) := by
    unfold Dec.enterMap Dec.fetch
    simp only [Option.isSome_none, Bool.false_eq_true, if_false, Dec.atEnd, Bool.false_or]
    rw [if_neg (by simpa using hs), hen]
    simp only
    cases h : it.err with
    | some x => exact ⟨rfl, hn.1 x h⟩
    | none =>
      simp only [Option.getD_none]
      refine ⟨?_, by simp, by simp⟩
      split
      · rename_i h1; exact absurd h1 (hn.2 h _)
      · rfl
  obtain ⟨he, hst⟩ := hm
  have := parseHeader_noEnter (cfg := cfg) (prot := true)
    (st := ⟨⟨⟨s.off, s.bytes⟩, [.wrap c0, .arr left], none, []⟩, Params.clear,
      LabelList.clear, LabelList.clear⟩) he hst
  generalize parseHeader cfg P true _ = z at this ⊢
  obtain ⟨r, st⟩ := z
  cases this
  rfl

theorem body_noMap {e0 : Entry} {s : Str} {it : Itm} {c3 : Cur}
    (hr : Rem P false 14 left c (e0 :: es) cEnd)
    (h0 : e0.itm = ⟨.bstr s, [], none⟩) (hs : s.bytes ≠ [])
    (hen : entry P false ⟨s.off, s.bytes⟩ = (.ok (none, it), c3)) (hn : NoMap it) :
    (decodeBody cfg P ⟨c, [.arr left], none, tags⟩ pay junk).1 =
      .error (headErr (it.err.getD .unexpectedType)) :=
  fetch_noMap (rem_fetch hr h0 rfl) hs hen hn

/-- The protected header. -/
theorem fetch_prot {c0 : Cur} {s : Str} {pe : List Entry}
    (hf : (Dec.mk c [.arr left] none tags).fetch P = (.ok ⟨.bstr s, [], none⟩, c0))
    (hip : IsProtected P s pe) :
    (∃ y, headerFn cfg P 12 true pe Params.clear LabelList.clear LabelList.clear = .error y ∧
      (decodeBody cfg P ⟨c, [.arr left], none, tags⟩ pay junk).1 = .error y) ∨
    ∃ p1 crit1 unk1 xs t, headerFn cfg P 12 true pe Params.clear LabelList.clear
        LabelList.clear = .ok (p1, crit1, unk1) ∧ LLok xs ∧ unk1 = mkLL xs.1 xs.2 ∧
      decodeBody cfg P ⟨c, [.arr left], none, tags⟩ pay junk =
        tailBody cfg P pay junk (.slice s) ⟨⟨(stepLeft left c0).2, [.arr (stepLeft left c0).1], none,
          t⟩, p1, crit1, unk1⟩ := by
  rw [decodeBody_tail, fetch_enter hf]
  simp only
  have hlen0 : (wrapOut junk.prot (some (some s))).ub.len = s.bytes.length := rfl
  have hprot : (∃ p1 crit1 unk1, headerFn cfg P 12 true pe Params.clear
        LabelList.clear LabelList.clear = .ok (p1, crit1, unk1) ∧
        HeaderOk cfg P 12 true pe Params.clear LabelList.clear LabelList.clear p1 crit1 unk1 ∧
        ∃ t c', parseProtected cfg P (wrapOut junk.prot (some (some s)))
      ⟨⟨⟨s.off, s.bytes⟩, [.wrap c0, .arr left], none, []⟩,
        Params.clear, LabelList.clear, LabelList.clear⟩ =
      (.ok (), ⟨⟨c', [.wrap c0, .arr left], none, t⟩, p1, crit1, unk1⟩)) ∨
      ∃ y st, headerFn cfg P 12 true pe Params.clear LabelList.clear LabelList.clear = .error y ∧
        parseProtected cfg P (wrapOut junk.prot (some (some s)))
      ⟨⟨⟨s.off, s.bytes⟩, [.wrap c0, .arr left], none, []⟩,
        Params.clear, LabelList.clear, LabelList.clear⟩ = (.error y, st) := by
    unfold parseProtected
    rw [hlen0]
    rcases hip with ⟨hb, hes⟩ | ⟨hb, it, k, c3, c4, hent, hvk, hie, helk⟩
    · rw [hes]
      refine .inl ⟨_, _, _, ?_, headerOk_nil.mpr ⟨rfl, rfl, rfl⟩, [], ⟨s.off, s.bytes⟩, ?_⟩
      · simp [headerFn, searchFold, copyParams, takeAlg, takeKid, takeIv, takePartialIv,
          takeContentType, critParamFn]
      · rw [if_neg (by simp [hb])]
    · rw [if_pos (by simp [hb])]
      rcases headerFn_exact (cfg := cfg) (P := P) (prot := true)
        (st := ⟨⟨⟨s.off, s.bytes⟩, [.wrap c0, .arr left], none, []⟩,
          Params.clear, LabelList.clear, LabelList.clear⟩) rfl
        (by simp [Dec.room, maxDecNesting]) (Dec.fetch_ok.mpr ⟨rfl, hb, hie, none, hent⟩) hvk
        helk LLok_nil mkLL_nil.symm with ⟨p1, crit1, unk1, hfn, hho⟩ | ⟨y, st, hfn, hy⟩
      · obtain ⟨t, ht⟩ := parseHeader_intro (cfg := cfg) (P := P) (prot := true)
          (st := ⟨⟨⟨s.off, s.bytes⟩, [.wrap c0, .arr left], none,
            []⟩, Params.clear, LabelList.clear, LabelList.clear⟩) rfl
          (by simp [Dec.room, maxDecNesting]) (Dec.fetch_ok.mpr ⟨rfl, hb, hie, none, hent⟩) hvk
          helk hho
        exact .inl ⟨p1, crit1, unk1, hfn, hho, t, c4, ht⟩
      · exact .inr ⟨y, st, hfn, hy⟩
  rcases hprot with ⟨p1, crit1, unk1, hfn0, hho0, t, c', hprot⟩ | ⟨y, st, hfn0, hprot⟩
  case inr => rw [hprot]; exact .inl ⟨y, hfn0, rfl⟩
  right
  have hho0' := hho0
  rw [← mkLL_nil] at hho0'
  have hho0'' : HeaderOk cfg P 12 true pe Params.clear (mkLL [] [])
    (mkLL (([], []) : List Int × List Str).1 (([], []) : List Int × List Str).2) p1 crit1 unk1 :=
    hho0'
  obtain ⟨hf1, ⟨xs, hn1, hu1⟩, hcr1⟩ := HeaderOk.facts LLok_nil hho0''
  refine ⟨p1, crit1, unk1, xs, t, hfn0, noteLabels_ok LLok_nil hn1, hu1, ?_⟩
  rw [hprot]
  simp only
  have hexit : (Dec.mk c' [.wrap c0, .arr left] none t).exitBstrWrapped =
      ⟨(stepLeft left c0).2, [.arr (stepLeft left c0).1],
        none, t⟩ := by
    unfold Dec.exitBstrWrapped
    simp only [Option.isSome_none, Bool.false_eq_true, if_false, done_eq]
  rw [hexit]
  rfl

theorem body_prot {e0 : Entry} {s : Str} {pe : List Entry}
    (hr : Rem P false 14 left c (e0 :: es) cEnd)
    (h0 : e0.itm = ⟨.bstr s, [], none⟩) (hip : IsProtected P s pe) :
    (∃ y, headerFn cfg P 12 true pe Params.clear LabelList.clear LabelList.clear = .error y ∧
      (decodeBody cfg P ⟨c, [.arr left], none, tags⟩ pay junk).1 = .error y) ∨
    ∃ p1 crit1 unk1 xs t c', headerFn cfg P 12 true pe Params.clear LabelList.clear
        LabelList.clear = .ok (p1, crit1, unk1) ∧ LLok xs ∧ unk1 = mkLL xs.1 xs.2 ∧
      Rem P false 14 (stepLeft left c').1 (stepLeft left c').2 es cEnd ∧
      decodeBody cfg P ⟨c, [.arr left], none, tags⟩ pay junk =
        tailBody cfg P pay junk (.slice s) ⟨⟨(stepLeft left c').2, [.arr (stepLeft left c').1], none,
          t⟩, p1, crit1, unk1⟩ := by
  obtain ⟨-, -, -, c0', hs0, r1⟩ := Rem_cons_iff.mp hr
  rw [skipValue_simple P 14 (by rw [h0]; rfl)] at hs0
  cases hs0
  rcases fetch_prot (cfg := cfg) (pay := pay) (junk := junk) (rem_fetch (tags := tags) hr h0 rfl) hip with
    h | ⟨p1, crit1, unk1, xs, t, g1, g2, g3, g4⟩
  · exact .inl h
  · exact .inr ⟨p1, crit1, unk1, xs, t, _, g1, g2, g3, r1, g4⟩

variable {prot : Buf} {p1 : Params} {crit1 unk1 : LabelList}

/-- The second element is no map. -/
theorem tail_noMap (hr : Rem P false 14 left c es cEnd) (hm : Mild es)
    (hn : ∀ e ∈ es.head?, NoMap e.itm) :
    (tailBody cfg P pay junk prot ⟨⟨c, [.arr left], none, tags⟩, p1, crit1, unk1⟩).1 =
      .error (headErr (stopOf es)) := by
  have := parseHeader_noEnter (cfg := cfg) (P := P) (prot := false)
    (st := ⟨⟨c, [.arr left], none, tags⟩, p1, crit1, unk1⟩) (enterMap_stop hr hn) (stopOf_stops hm)
  unfold tailBody
  generalize parseHeader cfg P false _ = z at this ⊢
  obtain ⟨r, st⟩ := z
  cases this
  rfl

/-- What follows the headers. -/
def restBody (P : QParams) (pay : VPayload) (junk : Junk) (d : Dec) : Except Err (Buf × UB) :=
  match takePayload P d pay junk.payload with
  | .error x => .error x
  | .ok (d, payload) =>
    match decodeErr (((d.getByteString P).1).exitArray P).finish with
    | .error x => .error x
    | .ok () => .ok (payload, (strOut junk.sig (d.getByteString P).2).ub)

/-- The unprotected header. -/
theorem fetch_unprot {it : Itm} {c1 : Cur} {k : Option Nat} {ue : List Entry} {cE : Cur}
    {xs : List Int × List Str}
    (hf : (Dec.mk c [.arr left] none tags).fetch P = (.ok it, c1)) (h1 : it.val = .map k)
    (hel : elements P true 13 k c1 = .ok (ue, cE)) (hxs : LLok xs)
    (hu : unk1 = mkLL xs.1 xs.2) :
    (∃ y, headerFn cfg P 13 false ue p1 crit1 unk1 = .error y ∧
      (tailBody cfg P pay junk prot ⟨⟨c, [.arr left], none, tags⟩, p1, crit1, unk1⟩).1 = .error y) ∨
    ∃ p2 crit2 unk2 t, headerFn cfg P 13 false ue p1 crit1 unk1 = .ok (p2, crit2, unk2) ∧
      ∀ y, restBody P pay junk ⟨(stepLeft left cE).2, [.arr (stepLeft left cE).1], none, t⟩ =
          .error y →
        (tailBody cfg P pay junk prot ⟨⟨c, [.arr left], none, tags⟩, p1, crit1, unk1⟩).1 =
          .error y := by
  rcases headerFn_exact (cfg := cfg) (P := P) (prot := false)
    (st := ⟨⟨c, [.arr left], none, tags⟩, p1, crit1, unk1⟩) rfl
    (by simp [Dec.room, maxDecNesting]) hf h1 hel hxs hu with
    ⟨p2, crit2, unk2, hfn1, hho1⟩ | ⟨y, st, hfn1, hy⟩
  case inr =>
    left
    refine ⟨y, hfn1, ?_⟩
    unfold tailBody
    rw [hy]
  right
  obtain ⟨t2, h2⟩ := parseHeader_intro (cfg := cfg) (P := P) (prot := false)
    (st := ⟨⟨c, [.arr left], none, tags⟩, p1, crit1, unk1⟩) rfl
    (by simp [Dec.room, maxDecNesting]) hf h1 hel hho1
  refine ⟨p2, crit2, unk2, t2, hfn1, fun y hy => ?_⟩
  unfold tailBody
  rw [h2]
  simp only [done_eq]
  unfold restBody at hy
  cases htp : takePayload P ⟨(stepLeft left cE).2, [.arr (stepLeft left cE).1], none, t2⟩ pay
      junk.payload with
  | error x => rw [htp] at hy; cases hy; rfl
  | ok z =>
    obtain ⟨d, payload⟩ := z
    rw [htp] at hy
    simp only at hy ⊢
    cases hde : decodeErr (((d.getByteString P).1).exitArray P).finish with
    | error x => rw [hde] at hy; cases hy; rfl
    | ok u => rw [hde] at hy; cases hy

theorem tail_unprot {e1 : Entry} {k : Option Nat} {ue : List Entry} {cE : Cur}
    {xs : List Int × List Str}
    (hr : Rem P false 14 left c (e1 :: es) cEnd)
    (h1 : e1.itm.val = .map k) (he : e1.itm.err = none)
    (hel : elements P true 13 k e1.cur = .ok (ue, cE)) (hxs : LLok xs)
    (hu : unk1 = mkLL xs.1 xs.2) :
    (∃ y, headerFn cfg P 13 false ue p1 crit1 unk1 = .error y ∧
      (tailBody cfg P pay junk prot ⟨⟨c, [.arr left], none, tags⟩, p1, crit1, unk1⟩).1 = .error y) ∨
    ∃ p2 crit2 unk2 t c', headerFn cfg P 13 false ue p1 crit1 unk1 = .ok (p2, crit2, unk2) ∧
      Rem P false 14 (stepLeft left c').1 (stepLeft left c').2 es cEnd ∧
      ∀ y, restBody P pay junk ⟨(stepLeft left c').2, [.arr (stepLeft left c').1], none, t⟩ =
          .error y →
        (tailBody cfg P pay junk prot ⟨⟨c, [.arr left], none, tags⟩, p1, crit1, unk1⟩).1 =
          .error y := by
  obtain ⟨-, -, -, c1', hs1, r2⟩ := Rem_cons_iff.mp hr
  have hs1' : skipValue P 14 e1.itm.val e1.cur = .ok cE := by
    rw [h1, skipValue_map]; exact ⟨_, hel⟩
  rw [hs1'] at hs1
  cases hs1
  rcases fetch_unprot (cfg := cfg) (pay := pay) (junk := junk) (prot := prot) (p1 := p1) (crit1 := crit1)
    (rem_fetch (tags := tags) hr rfl he) h1 hel hxs hu with h | ⟨p2, crit2, unk2, t, g1, g2⟩
  · exact .inl h
  · exact .inr ⟨p2, crit2, unk2, t, _, g1, r2, g2⟩

/-- The code for a byte string that was not there. -/
def stopErr (e : QErr) : Err :=
  if e = .tooManyTags then .tooManyTags
  else if e.notWellFormed then .cborNotWellFormed else .sign1Format

theorem Stops.decode {e : QErr} (h : Stops e) : decodeErr (some e) = .error (stopErr e) := by
  unfold decodeErr stopErr
  simp only
  rw [if_neg h.1]
  repeat' split
  all_goals rfl

theorem sticky_finish {d : Dec} {e : QErr} (h : d.err = some e) (hs : Stops e) :
    decodeErr (((d.getByteString P).1).exitArray P).finish = .error (stopErr e) := by
  rw [getByteString_sticky (by rw [h]; simp), exitArray_sticky (by rw [h]; simp), finish_some h,
    hs.decode]

/-- The payload is no byte string, but should be. -/
theorem rest_inline {w : Bool} (hr : Rem P false 14 left c es cEnd) (hm : Mild es)
    (hn : ∀ e ∈ es.head?, e.itm.str? = none) :
    restBody P (.inline w) junk ⟨c, [.arr left], none, tags⟩ = .error (stopErr (stopOf es)) := by
  unfold restBody takePayload
  simp only
  rw [sticky_finish (getByteString_stop hr hn) (stopOf_stops hm)]

/-- The payload is not null, but should be. -/
theorem rest_detached {p : UB} (hr : Rem P false 14 left c es cEnd)
    (hn : ∀ e ∈ es.head?, ¬ (e.itm.err = none ∧ e.itm.val = .null)) :
    restBody P (.detached p) junk ⟨c, [.arr left], none, tags⟩ = .error .cborFormatting := by
  unfold restBody takePayload Dec.getNext
  simp only
  rw [fetch_next hr]
  cases es with
  | nil => rfl
  | cons e es =>
    have hn := hn e rfl
    cases he : e.itm.err with
    | some x => rw [nextOf_err he]
    | none =>
      rw [nextOf_ok he]
      simp only
      rw [if_neg (fun h => hn ⟨he, h⟩)]

/-- The payload of an element is there. -/
def PayThere (pay : VPayload) (e : Entry) : Prop :=
  match pay with
  | .inline _ => ∃ s, e.itm = ⟨.bstr s, [], none⟩
  | .detached _ => e.itm.err = none ∧ e.itm.val = .null

/-- The payload is there. -/
theorem fetch_payload {e2 : Entry}
    (hf : (Dec.mk c [.arr left] none tags).fetch P = (.ok e2.itm, e2.cur))
    (hp : PayThere pay e2) : ∃ b t,
      takePayload P ⟨c, [.arr left], none, tags⟩ pay junk.payload =
        .ok (⟨(stepLeft left e2.cur).2, [.arr (stepLeft left e2.cur).1], none, t⟩, b) := by
  unfold takePayload
  cases pay with
  | inline w =>
    obtain ⟨s, h⟩ := hp
    simp only
    rw [Dec.getByteString_intro (s := s) rfl hf (by rw [h]) (by rw [h])]
    simp only [done_eq]
    exact ⟨_, _, rfl⟩
  | detached p =>
    obtain ⟨h1, h2⟩ := hp
    simp only
    rw [Dec.getNext_intro hf]
    simp only [done_eq, h2, if_true]
    exact ⟨_, _, rfl⟩

theorem PayThere.simple {e2 : Entry} (hp : PayThere pay e2) :
    e2.itm.val.isSimple = true ∧ e2.itm.err = none := by
  cases pay with
  | inline w => obtain ⟨s, h⟩ := hp; rw [h]; exact ⟨rfl, rfl⟩
  | detached p => obtain ⟨h1, h2⟩ := hp; rw [h2]; exact ⟨rfl, h1⟩

theorem rest_payload {e2 : Entry} (hr : Rem P false 14 left c (e2 :: es) cEnd)
    (hp : PayThere pay e2) : ∃ b c' t,
      Rem P false 14 (stepLeft left c').1 (stepLeft left c').2 es cEnd ∧
      takePayload P ⟨c, [.arr left], none, tags⟩ pay junk.payload =
        .ok (⟨(stepLeft left c').2, [.arr (stepLeft left c').1], none, t⟩, b) := by
  obtain ⟨-, -, -, c', hs, r3⟩ := Rem_cons_iff.mp hr
  have hsim := hp.simple
  rw [skipValue_simple P 14 hsim.1] at hs
  cases hs
  obtain ⟨b, t, h⟩ := fetch_payload (junk := junk) (rem_fetch (tags := tags) hr rfl hsim.2) hp
  exact ⟨b, _, t, r3, h⟩

/-- The signature is no byte string. -/
theorem rest_noSig {e2 : Entry} (hr : Rem P false 14 left c (e2 :: es) cEnd) (hm : Mild es)
    (hp : PayThere pay e2) (hn : ∀ e ∈ es.head?, e.itm.str? = none) :
    restBody P pay junk ⟨c, [.arr left], none, tags⟩ = .error (stopErr (stopOf es)) := by
  obtain ⟨b, c', t, r3, ht⟩ := rest_payload (tags := tags) (junk := junk) hr hp
  unfold restBody
  rw [ht]
  simp only
  have h1 := getByteString_stop (tags := t) r3 hn
  rw [exitArray_sticky (by rw [h1]; simp), finish_some h1, (stopOf_stops hm).decode]

/-- Something follows the array. -/
theorem rest_extra {e2 e3 : Entry} {s : Str} (hr : Rem P false 14 left c (e2 :: e3 :: es) cEnd)
    (hp : PayThere pay e2) (h3 : e3.itm = ⟨.bstr s, [], none⟩) (hend : cEnd.rest ≠ []) :
    restBody P pay junk ⟨c, [.arr left], none, tags⟩ = .error .cborNotWellFormed := by
  obtain ⟨b, c', t, r3, ht⟩ := rest_payload (tags := tags) (junk := junk) hr hp
  unfold restBody
  rw [ht]
  simp only
  obtain ⟨-, -, -, c4, hs, r4⟩ := Rem_cons_iff.mp r3
  rw [skipValue_simple P 14 (by rw [h3]; rfl)] at hs
  cases hs
  have f := Dec.fetch_rem (P := P) (d := ⟨(stepLeft left c').2, [.arr (stepLeft left c').1], none, t⟩)
    rfl r3 (by rw [h3])
  rw [Dec.getByteString_intro (s := s) rfl f (by rw [h3]) (by rw [h3])]
  simp only [done_eq]
  have hx : (Dec.mk (stepLeft (stepLeft left c').1 e3.cur).2
      [.arr (stepLeft (stepLeft left c').1 e3.cur).1] none []).exitArray P =
      (Dec.mk (stepLeft (stepLeft left c').1 e3.cur).2 [] none []).done cEnd :=
    Dec.exitArray_intro rfl rfl r4
  rw [hx]
  unfold Dec.finish Dec.done Dec.itemDone
  simp [hend, decodeErr, QErr.notWellFormed]

end TCose
