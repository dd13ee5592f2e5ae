import Verif.Lemmas.Shift

/-!
# Decoding and verification of a moved message
-/

namespace TCose
open Spec

def Lvl.sh (k : Nat) : Lvl → Lvl
  | .arr l => .arr l
  | .map s n => .map (s.sh k) n
  | .wrap o => .wrap (o.sh k)

/-- Decoder `d'` is `d` moved by `k`; the tags of the last item may differ. -/
structure DSim (k : Nat) (d d' : Dec) : Prop where
  cur : d'.cur = d.cur.sh k
  lvls : d'.lvls = d.lvls.map (Lvl.sh k)
  err : d'.err = d.err

theorem itemDone_sh (k : Nat) (ls : List Lvl) (c : Cur) :
    Dec.itemDone (ls.map (Lvl.sh k)) (c.sh k) =
      ((Dec.itemDone ls c).1.map (Lvl.sh k), (Dec.itemDone ls c).2.sh k) := by
  cases ls with
  | nil => rfl
  | cons l ls =>
    cases l with
    | map s n => rfl
    | wrap o => rfl
    | arr n =>
      cases n with
      | some n => rfl
      | none =>
        simp only [List.map_cons, Lvl.sh, Dec.itemDone]
        change (if c.rest.head? = some 0xff then _ else _) = _
        split
        · rw [Cur.sh_adv]; rfl
        · rfl

section
variable {P : QParams} {k : Nat} {d d' : Dec}

theorem DSim.room (h : DSim k d d') : d'.room = d.room := by
  unfold Dec.room
  rw [h.lvls, List.length_map]

theorem DSim.atEnd (h : DSim k d d') : d'.atEnd = d.atEnd := by
  unfold Dec.atEnd
  rw [h.lvls]
  cases d.lvls with
  | nil => rfl
  | cons l ls =>
    cases l with
    | arr n => rcases n with _ | _ | n <;> rfl
    | map s n => rfl
    | wrap o => rfl

theorem DSim.fetch (hP : P.Local) (h : DSim k d d') :
    d'.fetch P = (Except.sh (Itm.sh k) (d.fetch P).1, (d.fetch P).2.sh k) := by
  unfold Dec.fetch
  rw [h.atEnd, h.cur]
  have : (d.cur.sh k).rest = d.cur.rest := rfl
  rw [this]
  split
  · rfl
  · rw [entry_sh hP]
    generalize entry P false d.cur = x
    obtain ⟨r, c1⟩ := x
    cases r with
    | error e => rfl
    | ok q =>
      obtain ⟨l, it⟩ := q
      simp only [Except.sh, Ent.sh]
      have : (it.sh k).err = it.err := rfl
      rw [this]
      cases it.err <;> rfl

theorem DSim.done (h : DSim k d d') (c : Cur) : DSim k (d.done c) (d'.done (c.sh k)) := by
  unfold Dec.done
  rw [h.lvls, itemDone_sh]
  exact ⟨rfl, rfl, h.err⟩

theorem DSim.withTags (h : DSim k d d') (t t' : List Nat) :
    DSim k { d with tags := t } { d' with tags := t' } := ⟨h.cur, h.lvls, h.err⟩

theorem DSim.setErr (h : DSim k d d') (c : Cur) (e : Option QErr) :
    DSim k { d with cur := c, err := e } { d' with cur := c.sh k, err := e } := ⟨rfl, h.lvls, rfl⟩

theorem DSim.setErr' (h : DSim k d d') (e : Option QErr) :
    DSim k { d with err := e } { d' with err := e } := ⟨h.cur, h.lvls, rfl⟩

theorem DSim.getNext (hP : P.Local) (h : DSim k d d') :
    (d'.getNext P).1 = Except.sh (Itm.sh k) (d.getNext P).1 ∧
    DSim k (d.getNext P).2 (d'.getNext P).2 := by
  unfold Dec.getNext
  rw [h.fetch hP]
  generalize d.fetch P = x
  obtain ⟨r, c1⟩ := x
  cases r with
  | error e => exact ⟨rfl, rfl, h.lvls, h.err⟩
  | ok it => exact ⟨rfl, (h.done c1).withTags _ _⟩

theorem openLvl_sh (k : Nat) (n : Option Nat) (c : Cur) :
    Dec.openLvl n (c.sh k) = ((Dec.openLvl n c).1, (Dec.openLvl n c).2.sh k) := by
  cases n with
  | some n => rfl
  | none =>
    simp only [Dec.openLvl]
    change (if c.rest.head? = some 0xff then _ else _) = _
    split
    · rw [Cur.sh_adv]
    · rfl

theorem DSim.isSome (h : DSim k d d') : d'.err.isSome = d.err.isSome := by rw [h.err]

theorem DSim.enterMap (hP : P.Local) (h : DSim k d d') :
    DSim k (d.enterMap P) (d'.enterMap P) := by
  unfold Dec.enterMap
  rw [h.isSome]
  split
  · exact h
  · rw [h.fetch hP, h.room]
    generalize d.fetch P = x
    obtain ⟨r, c1⟩ := x
    cases r with
    | error e => exact h.setErr _ _
    | ok it =>
      obtain ⟨v, tags, err⟩ := it
      simp only [Except.sh, Itm.sh]
      cases v with
      | map n =>
        simp only [Val.sh]
        split
        · exact h.setErr _ _
        · rw [openLvl_sh, h.lvls]
          exact ⟨rfl, rfl, h.err⟩
      | _ => exact h.setErr _ _

theorem DSim.mapSearch (hP : P.Local) (h : DSim k d d') {σ σ' : Type} {R : σ → σ' → Prop}
    {cb : σ → Option Val → σ × Bool} {cb' : σ' → Option Val → σ' × Bool} (hcb : CbSim k R cb cb')
    (qs : List (Int × QTyp)) (s : σ) (s' : σ') (hR : R s s') :
    (d'.mapSearch P qs cb' s').1 = Except.sh (Found.sh k) (d.mapSearch P qs cb s).1 ∧
    R (d.mapSearch P qs cb s).2 (d'.mapSearch P qs cb' s').2 := by
  unfold Dec.mapSearch
  rw [h.room, h.lvls]
  cases d.lvls with
  | nil => exact ⟨rfl, hR⟩
  | cons l ls =>
    cases l with
    | arr n => exact ⟨rfl, hR⟩
    | wrap o => exact ⟨rfl, hR⟩
    | map st n =>
      have key : ∀ n : Option Nat,
          (match searchLoop P d.room qs cb' ((st.sh k).rest.length + 1) n (st.sh k) [] s' with
            | (.error e, s) => ((.error e, s) : Except QErr Found × σ')
            | (.ok (found, _), s) => (.ok found, s)).1 =
          Except.sh (Found.sh k)
            (match searchLoop P d.room qs cb (st.rest.length + 1) n st [] s with
            | (.error e, s) => ((.error e, s) : Except QErr Found × σ)
            | (.ok (found, _), s) => (.ok found, s)).1 ∧
          R (match searchLoop P d.room qs cb (st.rest.length + 1) n st [] s with
            | (.error e, s) => ((.error e, s) : Except QErr Found × σ)
            | (.ok (found, _), s) => (.ok found, s)).2
           (match searchLoop P d.room qs cb' ((st.sh k).rest.length + 1) n (st.sh k) [] s' with
            | (.error e, s) => ((.error e, s) : Except QErr Found × σ')
            | (.ok (found, _), s) => (.ok found, s)).2 := by
        intro n
        obtain ⟨h1, h2⟩ := searchLoop_sh hP d.room hcb qs (st.rest.length + 1) n st [] s s' hR
        have e1 : Found.sh k [] = [] := rfl
        have e2 : (st.sh k).rest = st.rest := rfl
        rw [e1] at h1 h2
        rw [e2]
        generalize searchLoop P d.room qs cb (st.rest.length + 1) n st [] s = x at h1 h2 ⊢
        generalize searchLoop P d.room qs cb' (st.rest.length + 1) n (st.sh k) [] s' = y at h1 h2 ⊢
        obtain ⟨r, t⟩ := x
        obtain ⟨r', t'⟩ := y
        simp only at h1 h2
        subst h1
        cases r with
        | error e => exact ⟨rfl, h2⟩
        | ok q => exact ⟨rfl, h2⟩
      rcases n with _ | _ | n
      · exact key none
      · exact ⟨rfl, hR⟩
      · exact key (some (n + 1))

theorem DSim.getItemsInMap (hP : P.Local) (h : DSim k d d') {σ σ' : Type} {R : σ → σ' → Prop}
    {cb : σ → Option Val → σ × Bool} {cb' : σ' → Option Val → σ' × Bool} (hcb : CbSim k R cb cb')
    (qs : List (Int × QTyp)) (s : σ) (s' : σ') (hR : R s s') :
    DSim k (d.getItemsInMap P qs cb s).1 (d'.getItemsInMap P qs cb' s').1 ∧
    (d'.getItemsInMap P qs cb' s').2.1 = Found.sh k (d.getItemsInMap P qs cb s).2.1 ∧
    R (d.getItemsInMap P qs cb s).2.2 (d'.getItemsInMap P qs cb' s').2.2 := by
  unfold Dec.getItemsInMap
  rw [h.isSome]
  split
  · exact ⟨h, rfl, hR⟩
  · obtain ⟨h1, h2⟩ := h.mapSearch hP hcb qs s s' hR
    generalize d.mapSearch P qs cb s = x at h1 h2 ⊢
    generalize d'.mapSearch P qs cb' s' = y at h1 h2 ⊢
    obtain ⟨r, t⟩ := x
    obtain ⟨r', t'⟩ := y
    simp only at h1 h2
    subst h1
    cases r with
    | error e => exact ⟨h.setErr' _, rfl, h2⟩
    | ok f => exact ⟨h, rfl, h2⟩

theorem DSim.enterArrayFromMap (hP : P.Local) (h : DSim k d d') (i : Int) :
    DSim k (d.enterArrayFromMap P i) (d'.enterArrayFromMap P i) := by
  unfold Dec.enterArrayFromMap
  rw [h.isSome]
  split
  · exact h
  · obtain ⟨h1, -⟩ := h.mapSearch hP (R := fun (_ _ : Unit) => True)
      (cb := fun (s : Unit) _ => (s, true)) (cb' := fun (s : Unit) _ => (s, true))
      (fun s s' l _ => ⟨trivial, rfl⟩) [(i, .arr)] () () trivial
    rw [h.room]
    generalize d.mapSearch P [(i, .arr)] (fun (s : Unit) _ => (s, true)) () = x at h1 ⊢
    generalize d'.mapSearch P [(i, .arr)] (fun (s : Unit) _ => (s, true)) () = y at h1 ⊢
    obtain ⟨r, t⟩ := x
    obtain ⟨r', t'⟩ := y
    simp only at h1
    subst h1
    cases r with
    | error e => exact h.setErr' _
    | ok f =>
      simp only [Except.sh]
      rw [Found.sh_lookup]
      cases f.lookup i with
      | none => exact h.setErr' _
      | some q =>
        obtain ⟨v, c⟩ := q
        simp only [Option.map_some]
        cases v with
        | arr n =>
          simp only [Val.sh]
          split
          · exact h.setErr' _
          · rw [openLvl_sh, h.lvls]
            exact ⟨rfl, rfl, h.err⟩
        | _ => exact h.setErr' _

theorem DSim.exitArray (hP : P.Local) (h : DSim k d d') :
    DSim k (d.exitArray P) (d'.exitArray P) := by
  have hr := h.room
  obtain ⟨cur, lvls, err, tags⟩ := d
  obtain ⟨cur', lvls', err', tags'⟩ := d'
  obtain ⟨h1, h2, h3⟩ := h
  simp only at h1 h2 h3
  subst h1 h2 h3
  unfold Dec.exitArray
  simp only
  split
  · exact ⟨rfl, rfl, rfl⟩
  · rw [hr]
    generalize Dec.room _ = rm
    cases lvls with
    | nil => exact ⟨rfl, rfl, rfl⟩
    | cons l ls =>
      have hls : DSim k (Dec.mk cur ls err' tags)
        (Dec.mk (cur.sh k) (ls.map (Lvl.sh k)) err' tags') := ⟨rfl, rfl, rfl⟩
      cases l with
      | map s n => exact ⟨rfl, rfl, rfl⟩
      | wrap o => exact ⟨rfl, rfl, rfl⟩
      | arr n =>
        rcases n with _ | _ | n
        · simp only [List.map_cons, Lvl.sh]
          rw [skipAll_sh hP]
          cases skipAll P (rm + 1) [⟨false, none⟩] cur with
          | error e => exact ⟨rfl, rfl, rfl⟩
          | ok c => exact hls.done c
        · exact hls.done _
        · simp only [List.map_cons, Lvl.sh]
          rw [skipAll_sh hP]
          cases skipAll P (rm + 1) [⟨false, some (n + 1)⟩] cur with
          | error e => exact ⟨rfl, rfl, rfl⟩
          | ok c => exact hls.done c

theorem DSim.exitMap (hP : P.Local) (h : DSim k d d') :
    DSim k (d.exitMap P) (d'.exitMap P) := by
  have hr := h.room
  obtain ⟨cur, lvls, err, tags⟩ := d
  obtain ⟨cur', lvls', err', tags'⟩ := d'
  obtain ⟨h1, h2, h3⟩ := h
  simp only at h1 h2 h3
  subst h1 h2 h3
  unfold Dec.exitMap
  simp only
  split
  · exact ⟨rfl, rfl, rfl⟩
  · rw [hr]
    generalize Dec.room _ = rm
    cases lvls with
    | nil => exact ⟨rfl, rfl, rfl⟩
    | cons l ls =>
      have hls : DSim k (Dec.mk cur ls err' tags)
        (Dec.mk (cur.sh k) (ls.map (Lvl.sh k)) err' tags') := ⟨rfl, rfl, rfl⟩
      cases l with
      | arr s => exact ⟨rfl, rfl, rfl⟩
      | wrap o => exact ⟨rfl, rfl, rfl⟩
      | map st n =>
        rcases n with _ | _ | n
        · simp only [List.map_cons, Lvl.sh]
          rw [skipAll_sh hP]
          cases skipAll P (rm + 1) [⟨true, none⟩] st with
          | error e => exact ⟨rfl, rfl, rfl⟩
          | ok c => exact hls.done c
        · exact hls.done _
        · simp only [List.map_cons, Lvl.sh]
          rw [skipAll_sh hP]
          cases skipAll P (rm + 1) [⟨true, some (n + 1)⟩] st with
          | error e => exact ⟨rfl, rfl, rfl⟩
          | ok c => exact hls.done c

theorem DSim.exitBstrWrapped (h : DSim k d d') :
    DSim k d.exitBstrWrapped d'.exitBstrWrapped := by
  obtain ⟨cur, lvls, err, tags⟩ := d
  obtain ⟨cur', lvls', err', tags'⟩ := d'
  obtain ⟨h1, h2, h3⟩ := h
  simp only at h1 h2 h3
  subst h1 h2 h3
  unfold Dec.exitBstrWrapped
  simp only
  split
  · exact ⟨rfl, rfl, rfl⟩
  · cases lvls with
    | nil => exact ⟨rfl, rfl, rfl⟩
    | cons l ls =>
      have hls : DSim k (Dec.mk cur ls err' tags)
        (Dec.mk (cur.sh k) (ls.map (Lvl.sh k)) err' tags') := ⟨rfl, rfl, rfl⟩
      cases l with
      | arr s => exact ⟨rfl, rfl, rfl⟩
      | map s n => exact ⟨rfl, rfl, rfl⟩
      | wrap o => exact hls.done _

theorem DSim.enterBstrWrapped (hP : P.Local) (h : DSim k d d') :
    DSim k (d.enterBstrWrapped P).1 (d'.enterBstrWrapped P).1 ∧
    (d'.enterBstrWrapped P).2 = (d.enterBstrWrapped P).2.map (Option.map (Str.sh k)) := by
  unfold Dec.enterBstrWrapped
  rw [h.isSome]
  split
  · exact ⟨h, rfl⟩
  · rw [h.fetch hP, h.room]
    generalize d.fetch P = x
    obtain ⟨r, c1⟩ := x
    cases r with
    | error e => exact ⟨h.setErr _ _, rfl⟩
    | ok it =>
      obtain ⟨v, tags, err⟩ := it
      simp only [Except.sh, Itm.sh]
      cases v with
      | bstr s =>
        cases tags with
        | nil =>
          simp only [Val.sh]
          split
          · exact ⟨h.setErr _ _, rfl⟩
          · rw [h.lvls]
            exact ⟨⟨rfl, rfl, h.err⟩, rfl⟩
        | cons t ts => exact ⟨h.setErr _ _, rfl⟩
      | _ => exact ⟨h.setErr _ _, rfl⟩

theorem DSim.getByteString (hP : P.Local) (h : DSim k d d') :
    DSim k (d.getByteString P).1 (d'.getByteString P).1 ∧
    (d'.getByteString P).2 = (d.getByteString P).2.map (Str.sh k) := by
  unfold Dec.getByteString
  rw [h.isSome]
  split
  · exact ⟨h, rfl⟩
  · obtain ⟨h1, h2⟩ := h.getNext hP
    generalize d.getNext P = x at h1 h2 ⊢
    generalize d'.getNext P = y at h1 h2 ⊢
    obtain ⟨r, d1⟩ := x
    obtain ⟨r', d1'⟩ := y
    simp only at h1 h2
    subst h1
    cases r with
    | error e => exact ⟨h2.setErr' _, rfl⟩
    | ok it =>
      obtain ⟨v, tags, err⟩ := it
      simp only [Except.sh, Itm.sh]
      cases v with
      | bstr s =>
        cases tags with
        | nil => exact ⟨h2, rfl⟩
        | cons t ts => exact ⟨h2.setErr' _, rfl⟩
      | _ => exact ⟨h2.setErr' _, rfl⟩

theorem DSim.finish (h : DSim k d d') : d'.finish = d.finish := by
  unfold Dec.finish
  rw [h.err, h.lvls, h.cur]
  have : (d.cur.sh k).rest = d.cur.rest := rfl
  rw [this]
  cases d.lvls <;> rfl

end

end TCose
