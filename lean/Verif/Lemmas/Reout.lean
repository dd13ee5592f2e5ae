import Verif.TCose.Verify

/-!
# What is decoded inside a wrapped string does not depend on what is behind it
-/

namespace TCose

def Lvl.reout (o : Cur) : Lvl → Lvl
  | .arr left => .arr left
  | .map start cnt => .map start cnt
  | .wrap _ => .wrap o

/-- The decoder with another place to continue behind wrapped strings. -/
def Dec.reout (o : Cur) (d : Dec) : Dec := { d with lvls := d.lvls.map (Lvl.reout o) }

def Parse.reout (o : Cur) (st : Parse) : Parse := { st with d := st.d.reout o }

theorem Dec.room_reout (o : Cur) (d : Dec) : (d.reout o).room = d.room := by
  simp [Dec.room, Dec.reout]

theorem Dec.atEnd_reout (o : Cur) (d : Dec) : (d.reout o).atEnd = d.atEnd := by
  obtain ⟨cur, lvls, err, tags⟩ := d
  unfold Dec.atEnd Dec.reout
  cases lvls with
  | nil => rfl
  | cons l ls =>
    cases l with
    | arr n => rcases n with _ | _ | n <;> rfl
    | map => rfl
    | wrap => rfl

theorem Dec.fetch_reout (P : QParams) (o : Cur) (d : Dec) : (d.reout o).fetch P = d.fetch P := by
  unfold Dec.fetch
  rw [Dec.atEnd_reout]
  rfl

theorem itemDone_reout (o : Cur) (ls : List Lvl) (c : Cur) :
    Dec.itemDone (ls.map (Lvl.reout o)) c =
      ((Dec.itemDone ls c).1.map (Lvl.reout o), (Dec.itemDone ls c).2) := by
  cases ls with
  | nil => rfl
  | cons l ls =>
    cases l with
    | arr n =>
      cases n with
      | none =>
        simp only [List.map_cons, Lvl.reout, Dec.itemDone]
        split <;> rfl
      | some n => rfl
    | map => rfl
    | wrap => rfl

theorem Dec.done_reout (o : Cur) (d : Dec) (c : Cur) : (d.reout o).done c = (d.done c).reout o := by
  unfold Dec.done Dec.reout
  simp only [itemDone_reout]

theorem Dec.getNext_reout (P : QParams) (o : Cur) (d : Dec) :
    (d.reout o).getNext P = ((d.getNext P).1, (d.getNext P).2.reout o) := by
  unfold Dec.getNext
  rw [Dec.fetch_reout]
  generalize d.fetch P = x
  obtain ⟨r, c1⟩ := x
  cases r with
  | error e => rfl
  | ok it => simp only [Dec.done_reout]; rfl

theorem Dec.enterMap_reout (P : QParams) (o : Cur) (d : Dec) :
    (d.reout o).enterMap P = (d.enterMap P).reout o := by
  unfold Dec.enterMap
  rw [Dec.fetch_reout, Dec.room_reout]
  show (if d.err.isSome then _ else _) = _
  split
  · rfl
  · generalize d.fetch P = x
    obtain ⟨r, c1⟩ := x
    cases r with
    | error e => rfl
    | ok it =>
      cases hv : it.val with
      | map n =>
        simp only [hv]
        split <;> rfl
      | _ => simp only [hv]; rfl

theorem Dec.mapSearch_reout (P : QParams) (o : Cur) (d : Dec) {σ : Type} (qs : List (Int × QTyp))
    (cb : σ → Option Val → σ × Bool) (s : σ) :
    (d.reout o).mapSearch P qs cb s = d.mapSearch P qs cb s := by
  unfold Dec.mapSearch
  rw [Dec.room_reout]
  obtain ⟨cur, lvls, err, tags⟩ := d
  unfold Dec.reout
  simp only
  cases lvls with
  | nil => rfl
  | cons l ls =>
    cases l with
    | arr => rfl
    | wrap => rfl
    | map start cnt => rcases cnt with _ | _ | n <;> rfl

theorem Dec.getItemsInMap_reout (P : QParams) (o : Cur) (d : Dec) {σ : Type}
    (qs : List (Int × QTyp)) (cb : σ → Option Val → σ × Bool) (s : σ) :
    (d.reout o).getItemsInMap P qs cb s =
      ((d.getItemsInMap P qs cb s).1.reout o, (d.getItemsInMap P qs cb s).2) := by
  unfold Dec.getItemsInMap
  rw [Dec.mapSearch_reout]
  show (if d.err.isSome then _ else _) = _
  split
  · rfl
  · generalize d.mapSearch P qs cb s = x
    obtain ⟨r, s'⟩ := x
    cases r <;> rfl

theorem Dec.enterArrayFromMap_reout (P : QParams) (o : Cur) (d : Dec) (i : Int) :
    (d.reout o).enterArrayFromMap P i = (d.enterArrayFromMap P i).reout o := by
  unfold Dec.enterArrayFromMap
  rw [Dec.mapSearch_reout, Dec.room_reout]
  show (if d.err.isSome then _ else _) = _
  split
  · rfl
  · generalize d.mapSearch P [(i, .arr)] (fun (s : Unit) _ => (s, true)) () = x
    obtain ⟨r, s'⟩ := x
    cases r with
    | error e => rfl
    | ok f =>
      rcases hf : f.lookup i with _ | ⟨v, c⟩
      · simp only [hf]; rfl
      · cases v with
        | arr n =>
          simp only [hf]
          split <;> rfl
        | _ => simp only [hf]; rfl

theorem Dec.exitArray_reout (P : QParams) (o : Cur) (d : Dec) :
    (d.reout o).exitArray P = (d.exitArray P).reout o := by
  unfold Dec.exitArray
  rw [Dec.room_reout]
  show (if d.err.isSome then _ else _) = _
  split
  · rfl
  · cases hl : d.lvls with
    | nil => simp only [Dec.reout, hl]; rfl
    | cons l ls =>
      have hd : ∀ c, ({ d.reout o with lvls := ls.map (Lvl.reout o) } : Dec).done c =
          (({ d with lvls := ls } : Dec).done c).reout o := fun c => by
        rw [← Dec.done_reout]; rfl
      have hl2 : (d.reout o).lvls = l.reout o :: ls.map (Lvl.reout o) := by
        simp [Dec.reout, hl]
      rw [hl2]
      cases l with
      | map => simp only [Lvl.reout]; rfl
      | wrap => simp only [Lvl.reout]; rfl
      | arr left =>
        rcases left with _ | _ | n
        case some.zero => simp only [Lvl.reout]; exact hd _
        all_goals
          simp only [Lvl.reout]
          show (match skipAll P (d.room + 1) _ d.cur with
            | .error e => _
            | .ok c => _) = _
          generalize skipAll P (d.room + 1) _ d.cur = x
          cases x with
          | error e => simp only; rfl
          | ok c => exact hd c

theorem Dec.exitMap_reout (P : QParams) (o : Cur) (d : Dec) :
    (d.reout o).exitMap P = (d.exitMap P).reout o := by
  unfold Dec.exitMap
  rw [Dec.room_reout]
  show (if d.err.isSome then _ else _) = _
  split
  · rfl
  · cases hl : d.lvls with
    | nil => simp only [Dec.reout, hl]; rfl
    | cons l ls =>
      have hd : ∀ c, ({ d.reout o with lvls := ls.map (Lvl.reout o) } : Dec).done c =
          (({ d with lvls := ls } : Dec).done c).reout o := fun c => by
        rw [← Dec.done_reout]; rfl
      have hl2 : (d.reout o).lvls = l.reout o :: ls.map (Lvl.reout o) := by
        simp [Dec.reout, hl]
      rw [hl2]
      cases l with
      | arr => simp only [Lvl.reout]; rfl
      | wrap => simp only [Lvl.reout]; rfl
      | map start left =>
        rcases left with _ | _ | n
        case some.zero => simp only [Lvl.reout]; exact hd _
        all_goals
          simp only [Lvl.reout]
          generalize skipAll P (d.room + 1) _ start = x
          cases x with
          | error e => simp only; rfl
          | ok c => exact hd c

theorem critLoop_reout (P : QParams) (o : Cur) : ∀ (n : Nat) (d : Dec) (ni nt : Nat) (l : LabelList),
    critLoop P n (d.reout o) ni nt l =
      ((critLoop P n d ni nt l).1, (critLoop P n d ni nt l).2.1,
        (critLoop P n d ni nt l).2.2.reout o) := by
  intro n
  induction n with
  | zero => intro d ni nt l; rfl
  | succ n ih =>
    intro d ni nt l
    rw [critLoop, critLoop, Dec.getNext_reout]
    generalize d.getNext P = x
    obtain ⟨r, d1⟩ := x
    cases r with
    | error e => cases e <;> rfl
    | ok it =>
      simp only
      cases hv : it.val with
      | int i => simp only; split <;> first | rfl | exact ih _ _ _ _
      | tstr i => simp only; split <;> first | rfl | exact ih _ _ _ _
      | _ => simp only

theorem decodeCritical_reout (P : QParams) (o : Cur) (d : Dec) (prot : Bool) (l : LabelList) :
    decodeCritical P (d.reout o) prot l =
      ((decodeCritical P d prot l).1, (decodeCritical P d prot l).2.1,
        (decodeCritical P d prot l).2.2.reout o) := by
  unfold decodeCritical
  rw [Dec.enterArrayFromMap_reout]
  generalize d.enterArrayFromMap P 2 = d1
  simp only
  show (match d1.err with
    | some .labelNotFound => _
    | some _ => _
    | none => _) = _
  cases he : d1.err with
  | some e => cases e <;> rfl
  | none =>
    simp only
    cases prot with
    | false => rfl
    | true =>
      simp only [Bool.not_true, Bool.false_eq_true, if_false]
      have := critLoop_reout P o (d1.cur.rest.length + 1) { d1 with err := none } 0 0 l
      change critLoop P ((d1.reout o).cur.rest.length + 1) { d1.reout o with err := none } 0 0 l = _
        at this
      rw [this]
      generalize critLoop P (d1.cur.rest.length + 1) { d1 with err := none } 0 0 l = y
      obtain ⟨r, l', d3⟩ := y
      cases r with
      | error x => rfl
      | ok u =>
        cases u
        simp only [Dec.exitArray_reout]
        split <;> rfl

theorem parseHeader_reout (cfg : Config) (P : QParams) (prot : Bool) (o : Cur) (st : Parse) :
    parseHeader cfg P prot (st.reout o) =
      ((parseHeader cfg P prot st).1, (parseHeader cfg P prot st).2.reout o) := by
  unfold parseHeader
  simp only
  rw [show (st.reout o).d.enterMap P = (st.d.enterMap P).reout o from Dec.enterMap_reout P o st.d]
  rw [show (st.reout o).unk = st.unk from rfl, Dec.getItemsInMap_reout]
  generalize (st.d.enterMap P).getItemsInMap P headerQs headerCb ⟨st.unk, .ok ()⟩ = x
  obtain ⟨d2, f, cb⟩ := x
  simp only
  show (match d2.err with
    | some .callbackFail => _
    | some e => _
    | none => _) = _
  cases he : d2.err with
  | some e => cases e <;> rfl
  | none =>
    simp only
    show (match copyParams cfg prot f st.params with
      | .error x => _
      | .ok p => _) = _
    cases hc : copyParams cfg prot f st.params with
    | error x => rfl
    | ok p =>
      simp only
      rw [show (st.reout o).crit = st.crit from rfl, decodeCritical_reout]
      generalize decodeCritical P d2 prot st.crit = y
      obtain ⟨r, crit, d3⟩ := y
      simp only [Dec.exitMap_reout]
      rfl

theorem Dec.getByteString_reout (P : QParams) (o : Cur) (d : Dec) :
    (d.reout o).getByteString P = ((d.getByteString P).1.reout o, (d.getByteString P).2) := by
  unfold Dec.getByteString
  rw [Dec.getNext_reout]
  show (if d.err.isSome then _ else _) = _
  split
  · rfl
  · generalize d.getNext P = x
    obtain ⟨r, d1⟩ := x
    cases r with
    | error e => rfl
    | ok it =>
      simp only
      cases hv : it.val with
      | bstr s =>
        cases ht : it.tags with
        | nil => rfl
        | cons => rfl
      | _ => rfl

theorem Dec.finish_reout (o : Cur) (d : Dec) : (d.reout o).finish = d.finish := by
  unfold Dec.finish
  show (match d.err with
    | some e => _
    | none => _) = _
  cases d.err with
  | some e => rfl
  | none => simp [Dec.reout]

/-- What is left of the decoding when the protected parameters were read. -/
def tailBody (cfg : Config) (P : QParams) (pay : VPayload) (junk : Junk) (prot : Buf) (st : Parse) :
    Except Err Decoded × Parse :=
  match parseHeader cfg P false st with
  | (.error x, st) => (.error x, st)
  | (.ok (), st) =>
    match takePayload P st.d pay junk.payload with
    | .error x => (.error x, st)
    | .ok (d, payload) =>
      match decodeErr (((d.getByteString P).1).exitArray P).finish with
      | .error x => (.error x, st)
      | .ok () =>
        (.ok { params := st.params, crit := st.crit, unk := st.unk, prot := prot,
               payload := payload, sig := strOut junk.sig (d.getByteString P).2 }, st)

theorem decodeBody_tail (cfg : Config) (P : QParams) (d : Dec) (pay : VPayload) (junk : Junk) :
    decodeBody cfg P d pay junk =
      match parseProtected cfg P (wrapOut junk.prot (d.enterBstrWrapped P).2)
        { d := (d.enterBstrWrapped P).1, params := Params.clear, crit := LabelList.clear,
          unk := LabelList.clear } with
      | (.error x, st) => (.error x, st)
      | (.ok (), st) =>
        tailBody cfg P pay junk (wrapOut junk.prot (d.enterBstrWrapped P).2)
          { st with d := st.d.exitBstrWrapped } := by
  unfold decodeBody tailBody
  rfl

theorem takePayload_reout (P : QParams) (o : Cur) (d : Dec) (pay : VPayload) (junk : UB) :
    takePayload P (d.reout o) pay junk =
      match takePayload P d pay junk with
      | .error x => .error x
      | .ok (d1, b) => .ok (d1.reout o, b) := by
  cases pay with
  | detached p =>
    simp only [takePayload, Dec.getNext_reout]
    generalize d.getNext P = x
    obtain ⟨r, d1⟩ := x
    cases r with
    | error e => rfl
    | ok it => simp only; split <;> rfl
  | inline w => simp only [takePayload, Dec.getByteString_reout]

theorem tailBody_reout (cfg : Config) (P : QParams) (pay : VPayload) (junk : Junk) (prot : Buf)
    (o : Cur) (st : Parse) :
    tailBody cfg P pay junk prot (st.reout o) =
      ((tailBody cfg P pay junk prot st).1, (tailBody cfg P pay junk prot st).2.reout o) := by
  unfold tailBody
  rw [parseHeader_reout]
  generalize parseHeader cfg P false st = x
  obtain ⟨r, st1⟩ := x
  cases r with
  | error x => rfl
  | ok u =>
    cases u
    simp only
    rw [show (st1.reout o).d = st1.d.reout o from rfl, takePayload_reout]
    cases takePayload P st1.d pay junk.payload with
    | error x => rfl
    | ok w =>
      obtain ⟨d, b⟩ := w
      simp only [Dec.getByteString_reout, Dec.exitArray_reout, Dec.finish_reout]
      cases decodeErr (((d.getByteString P).1).exitArray P).finish with
      | error x => rfl
      | ok u => rfl

theorem parseProtected_reout (cfg : Config) (P : QParams) (prot : Buf) (o : Cur) (st : Parse) :
    parseProtected cfg P prot (st.reout o) =
      ((parseProtected cfg P prot st).1, (parseProtected cfg P prot st).2.reout o) := by
  unfold parseProtected
  split
  · exact parseHeader_reout cfg P true o st
  · rfl

end TCose
