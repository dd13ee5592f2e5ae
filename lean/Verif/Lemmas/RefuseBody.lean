import Verif.Lemmas.RefuseDec
import Verif.Lemmas.Reout
import Verif.Spec.Cose

/-!
# Refused messages, whatever follows
-/

namespace TCose
open Spec

/-- The error codes that say no more than that the octets could not be read as a
COSE_Sign1 message. -/
def Err.isFormat : Err → Bool
  | .cborNotWellFormed | .parameterCbor | .sign1Format | .cborFormatting | .modelHang => true
  | _ => false

theorem paramErr_isFormat (e : QErr) : (paramErr e).isFormat = true := by
  unfold paramErr
  split
  · rfl
  · split <;> rfl

theorem Dec.enterMap_ext {P : QParams} {x : Bytes} {d : Dec} (he : d.err = none)
    (h : ∀ e, (d.enterMap P).err = some e → e.stable)
    (h2 : (d.enterMap P).err = none → ∀ start ls,
      (d.enterMap P).lvls = .map start none :: ls → start.rest ≠ []) :
    (d.ext x).enterMap P = (d.enterMap P).ext x := by
  have he2 : (d.ext x).err = none := he
  unfold Dec.enterMap at h h2 ⊢
  rw [he2, Dec.room_ext]
  rw [he] at h h2 ⊢
  simp only [Option.isSome_none, Bool.false_eq_true, if_false] at h h2 ⊢
  cases hf : d.fetch P with
  | mk r c1 =>
    rw [hf] at h h2
    cases r with
    | error e =>
      rw [Dec.fetch_ext hf (by intro e' he'; cases he'; exact h _ rfl)]
      rfl
    | ok it =>
      rw [Dec.fetch_ext hf (by intro e' he'; cases he')]
      cases hv : it.val with
      | map n =>
        simp only [hv] at h h2 ⊢
        by_cases hr : d.room = 0
        · simp only [hr, if_true]; rfl
        · simp only [hr, if_false] at h2 ⊢
          have : n ≠ none ∨ c1.rest ≠ [] := by
            cases n with
            | some k => exact .inl (by simp)
            | none =>
              refine .inr fun hc => ?_
              rw [openLvl_none_nil hc] at h2
              exact h2 trivial c1 d.lvls rfl hc
          rw [openLvl_ext this]
          rfl
      | _ => simp only [hv]; rfl

theorem Dec.mapSearch_empty {P : QParams} {d : Dec} {σ : Type} {qs : List (Int × QTyp)}
    {cb : σ → Option Val → σ × Bool} {s : σ} {start : Cur} {ls : List Lvl}
    (hl : d.lvls = .map start none :: ls) (hr : start.rest = []) :
    d.mapSearch P qs cb s = (.error .noMoreItems, s) := by
  unfold Dec.mapSearch
  rw [hl]
  simp only [hr, List.length_nil, searchLoop, List.isEmpty_nil, if_true]

theorem Dec.exitMap_ext {P : QParams} {x : Bytes} {d : Dec} (he : d.err = none)
    (hne : (d.exitMap P).err = none) :
    (d.exitMap P).cur.rest = [] ∨ (d.ext x).exitMap P = (d.exitMap P).ext x := by
  unfold Dec.exitMap at hne ⊢
  have he2 : (d.ext x).err = none := he
  rw [he2, Dec.room_ext]
  rw [he] at hne ⊢
  simp only [Option.isSome_none, Bool.false_eq_true, if_false] at hne ⊢
  have key : ∀ ls c, ((Dec.mk d.cur ls none d.tags).done c).cur.rest = [] ∨
      (Dec.mk (d.ext x).cur (ls.map (Lvl.ext x)) none (d.ext x).tags).done (c.ext x) =
        ((Dec.mk d.cur ls none d.tags).done c).ext x := by
    intro ls c
    by_cases hc : c.rest = []
    · exact .inl (Dec.done_nil hc)
    · exact .inr (by rw [← Dec.done_ext hc]; rfl)
  cases hl : d.lvls with
  | nil => rw [hl] at hne; cases hne
  | cons l ls =>
    have hl2 : (d.ext x).lvls = l.ext x :: ls.map (Lvl.ext x) := by simp [Dec.ext, hl]
    rw [hl] at hne
    rw [hl2]
    cases l with
    | arr => cases hne
    | wrap => cases hne
    | map start cnt =>
      rcases cnt with _ | _ | n
      case some.zero => simp only [Lvl.ext]; exact key ls start
      all_goals
        simp only [Lvl.ext] at hne ⊢
        cases hs : skipAll P (d.room + 1) _ start with
        | error e => rw [hs] at hne; cases hne
        | ok c =>
          rw [skipAll_ext hs]
          simp only
          exact key ls c

theorem decodeCritical_false {P : QParams} {d : Dec} (he : d.err = none) (l : LabelList) :
    decodeCritical P d false l =
      match d.mapSearch P [(2, .arr)] (fun (s : Unit) _ => (s, true)) () with
      | (.error e, _) =>
        if e = .labelNotFound then (.ok (), l, d) else (.error .critParameter, l, d)
      | (.ok f, _) =>
        match f.lookup 2 with
        | some (.arr n, c) =>
          if d.room = 0 then (.error .critParameter, l, d)
          else (.error .parameterNotProtected, l,
            { d with cur := (Dec.openLvl n c).2, lvls := .arr (Dec.openLvl n c).1 :: d.lvls })
        | _ => (.ok (), l, d) := by
  have hdd : ({ d with err := none } : Dec) = d := by
    obtain ⟨cur, lvls, err, tags⟩ := d
    simp only at he
    subst he
    rfl
  unfold decodeCritical Dec.enterArrayFromMap
  simp only [he, Option.isSome_none, Bool.false_eq_true, if_false]
  cases d.mapSearch P [(2, .arr)] (fun (s : Unit) _ => (s, true)) () with
  | mk r u =>
    cases r with
    | error e =>
      cases e <;> simp [hdd]
    | ok f =>
      simp only
      rcases f.lookup 2 with _ | ⟨v, c⟩
      · simp only [hdd]
      · cases v with
        | arr n =>
          simp only
          by_cases hr : d.room = 0
          · simp only [hr, if_true, hdd]
          · simp only [hr, if_false, Bool.not_false, if_true]
        | _ => simp only [hdd]

theorem push_cbFail {room : Nat} {v : Val} {st : List NLvl} {c : Cur} :
    push room v st c ≠ .error .callbackFail := by
  unfold push
  intro h
  cases v with
  | arr n => rcases n with _ | _ | k <;> simp only at h <;> (try split at h) <;> cases h
  | map n => rcases n with _ | _ | k <;> simp only at h <;> (try split at h) <;> cases h
  | _ => cases h

theorem skip_cbFail (P : QParams) (room : Nat) : ∀ (n : Nat) (st : List NLvl) (c : Cur),
    skip P room n st c ≠ .error .callbackFail := by
  intro n
  induction n with
  | zero =>
    intro st c h
    cases st with
    | nil => rw [skip_nil] at h; cases h
    | cons l st => cases h
  | succ n ih =>
    intro st c h
    cases st with
    | nil => rw [skip_nil] at h; cases h
    | cons l st =>
      rw [skip] at h
      split at h
      · cases h
      · have he := entry_ok P l.isMap c
        generalize entry P l.isMap c = x at he h
        obtain ⟨r, c1⟩ := x
        cases r with
        | error e =>
          simp only [Except.error.injEq] at h
          subst h
          cases he.1
        | ok p =>
          obtain ⟨lab, it⟩ := p
          simp only at h
          cases hp : push room it.val (l :: st) c1 with
          | error e =>
            rw [hp] at h
            simp only [Except.error.injEq] at h
            subst h
            exact push_cbFail hp
          | ok q =>
            rw [hp] at h
            exact ih _ _ h

theorem skipValue_cbFail (P : QParams) (room : Nat) (v : Val) (c : Cur) :
    skipValue P room v c ≠ .error .callbackFail := by
  unfold skipValue
  intro h
  cases hp : push room v [] c with
  | error e =>
    rw [hp] at h
    simp only [Except.error.injEq] at h
    subst h
    exact push_cbFail hp
  | ok q =>
    rw [hp] at h
    exact skip_cbFail P room _ _ _ h


/-- A search stopped by the callback: the callback has said so. -/
theorem searchLoop_cbFail (P : QParams) (room : Nat) {σ : Type} (qs : List (Int × QTyp))
    (cb : σ → Option Val → σ × Bool) (Q : σ → Prop) (hQ : ∀ s l s', cb s l = (s', false) → Q s') :
    ∀ (n : Nat) (left : Option Nat) (c : Cur) (f : Found) (s s' : σ),
    searchLoop P room qs cb n left c f s = (.error .callbackFail, s') → Q s' := by
  intro n
  induction n with
  | zero => intro left c f s s' h; cases h
  | succ n ih =>
    intro left c f s s' h
    rw [searchLoop] at h
    split at h
    · cases h
    · have he := entry_ok P true c
      generalize entry P true c = x at he h
      obtain ⟨r, c1⟩ := x
      cases r with
      | error e =>
        simp only [Prod.mk.injEq, Except.error.injEq] at h
        obtain ⟨rfl, -⟩ := h
        cases he.1
      | ok p =>
        obtain ⟨lab, it⟩ := p
        simp only at h
        have hs : ∀ s2, searchStep qs cb lab it c1 f s = (.error .callbackFail, s2) → Q s2 := by
          intro s2 hs
          have hcb : (match cb s lab with
              | (s', true) => (Except.ok f, s')
              | (s', false) => (Except.error QErr.callbackFail, s')) =
                (Except.error QErr.callbackFail, s2) → Q s2 := by
            cases hy : cb s lab with
            | mk s3 b =>
              cases b with
              | true => intro h; cases h
              | false => intro h; cases h; exact hQ _ _ _ hy
          unfold searchStep at hs
          simp only at hs
          split at hs
          · split at hs
            · split at hs
              · cases hs
              · split at hs
                · rename_i e hie
                  simp only [Prod.mk.injEq, Except.error.injEq] at hs
                  obtain ⟨rfl, -⟩ := hs
                  cases (he.2.2.2.2 _ hie).2
                · split at hs <;> cases hs
            · exact hcb hs
          · exact hcb hs
        generalize searchStep qs cb lab it c1 f s = y at h hs
        obtain ⟨r2, s2⟩ := y
        cases r2 with
        | error e =>
          simp only [Prod.mk.injEq, Except.error.injEq] at h
          obtain ⟨rfl, rfl⟩ := h
          exact hs s2 rfl
        | ok f2 =>
          simp only at h
          cases hv : skipValue P room it.val c1 with
          | error e =>
            rw [hv] at h
            simp only [Prod.mk.injEq, Except.error.injEq] at h
            obtain ⟨rfl, -⟩ := h
            exact absurd hv (skipValue_cbFail P room _ _)
          | ok c2 =>
            rw [hv] at h
            simp only at h
            generalize ascend [⟨true, left⟩] c2 = z at h
            obtain ⟨st3, c3⟩ := z
            cases st3 with
            | nil => cases h
            | cons l st3 => exact ih _ _ _ _ _ h

theorem Dec.mapSearch_cbFail {P : QParams} {d : Dec} {qs : List (Int × QTyp)} {s s' : CbCtx}
    (h : d.mapSearch P qs headerCb s = (.error .callbackFail, s')) : ∃ y, s'.ret = .error y := by
  have hQ : ∀ (s : CbCtx) l s', headerCb s l = (s', false) → ∃ y, s'.ret = .error y := by
    intro s l s' h
    unfold headerCb at h
    simp only at h
    split at h
    · cases h
    · rename_i x _
      cases h
      exact ⟨x, rfl⟩
  unfold Dec.mapSearch at h
  split at h
  · cases h
  · rename_i start cnt _ _ _
    have := searchLoop_cbFail P d.room qs headerCb _ hQ (start.rest.length + 1) cnt start [] s
    generalize searchLoop P d.room qs headerCb (start.rest.length + 1) cnt start [] s = x at h this
    obtain ⟨r, s2⟩ := x
    cases r with
    | error e =>
      simp only [Prod.mk.injEq, Except.error.injEq] at h
      obtain ⟨rfl, rfl⟩ := h
      exact this _ rfl
    | ok q => cases h
  · cases h

theorem parseHeader_ext {cfg : Config} {P : QParams} {x : Bytes} {st st' : Parse}
    {r : Except Err Unit} (he : st.d.err = none) (h : parseHeader cfg P false st = (r, st'))
    (hy : ∀ y, r = .error y → y.isFormat = false ∨ ∃ q, st'.d.err = some q ∧ q.stable) :
    (∃ y st'', r = .error y ∧
      parseHeader cfg P false { st with d := st.d.ext x } = (.error y, st'')) ∨
    (r = .ok () ∧ st'.d.err = none ∧ (st'.d.cur.rest = [] ∨
      parseHeader cfg P false { st with d := st.d.ext x } =
        (.ok (), { st' with d := st'.d.ext x }))) := by
  unfold parseHeader at h ⊢
  simp only at h ⊢
  have hcb : (st.d.enterMap P).err ≠ some .callbackFail := by
    unfold Dec.enterMap
    rw [he]
    simp only [Option.isSome_none, Bool.false_eq_true, if_false]
    cases hf : st.d.fetch P with
    | mk r0 c1 =>
      cases r0 with
      | error e => simpa using fetch_notCb hf
      | ok it =>
        cases hv : it.val <;> simp only [hv] <;> first
          | (split <;> simp [he]; done)
          | simp
  cases hd1 : (st.d.enterMap P).err with
  | some e =>
    have hg : (st.d.enterMap P).getItemsInMap P headerQs headerCb ⟨st.unk, .ok ()⟩ =
        (st.d.enterMap P, [], ⟨st.unk, .ok ()⟩) := by
      unfold Dec.getItemsInMap; simp [hd1]
    rw [hg] at h
    simp only [hd1] at h
    have hne : e ≠ .callbackFail := fun hc => hcb (by rw [hd1, hc])
    have h' : (r, st') = (.error (paramErr e), { st with d := st.d.enterMap P }) := by
      rw [← h]
      cases e <;> first | rfl | exact absurd rfl hne
    obtain ⟨rfl, rfl⟩ := Prod.mk.inj h'
    have hst : e.stable := by
      rcases hy _ rfl with hf | ⟨q, hq, hs⟩
      · rw [paramErr_isFormat] at hf; cases hf
      · simp only [hd1, Option.some.injEq] at hq; subst hq; exact hs
    have hx : (st.d.ext x).enterMap P = (st.d.enterMap P).ext x :=
      Dec.enterMap_ext he (fun e' he' => by rw [hd1] at he'; cases he'; exact hst)
        (fun hn => by rw [hd1] at hn; cases hn)
    have hg2 : ((st.d.ext x).enterMap P).getItemsInMap P headerQs headerCb ⟨st.unk, .ok ()⟩ =
        ((st.d.enterMap P).ext x, [], ⟨st.unk, .ok ()⟩) := by
      rw [hx]
      have : ((st.d.enterMap P).ext x).err = some e := hd1
      unfold Dec.getItemsInMap; simp [this]
    left
    refine ⟨paramErr e, { st with d := (st.d.enterMap P).ext x }, rfl, ?_⟩
    rw [hg2]
    have : ((st.d.enterMap P).ext x).err = some e := hd1
    simp only [this]
  | none =>
    obtain ⟨-, it, n, c1, hf, hv, hroom, hd1'⟩ := Dec.enterMap_ok rfl hd1
    have hlv : (st.d.enterMap P).lvls =
      .map (Dec.openLvl n c1).2 (Dec.openLvl n c1).1 :: st.d.lvls := by rw [hd1']
    generalize hgd : st.d.enterMap P = d1 at *
    cases hms : d1.mapSearch P headerQs headerCb ⟨st.unk, .ok ()⟩ with
    | mk r0 cb =>
      have hgi : d1.getItemsInMap P headerQs headerCb ⟨st.unk, .ok ()⟩ =
          match r0 with
          | .error e => ({ d1 with err := some e }, [], cb)
          | .ok found => (d1, found, cb) := by
        unfold Dec.getItemsInMap
        rw [hd1]
        simp only [Option.isSome_none, Bool.false_eq_true, if_false, hms]
        cases r0 <;> rfl
      -- the search ran past the end, or what follows does not matter
      have hstab : ∀ e, r0 = .error e → e.stable := by
        intro e hr0
        subst hr0
        simp only at hgi
        rw [hgi] at h
        by_cases hc : e = .callbackFail
        · subst hc; decide
        · have h' : (r, st') = (.error (paramErr e), { st with d := { d1 with err := some e }, unk := cb.unk }) := by
            rw [← h]
            cases e <;> first | rfl | exact absurd rfl hc
          obtain ⟨rfl, rfl⟩ := Prod.mk.inj h'
          rcases hy _ rfl with hf | ⟨q, hq, hs⟩
          · rw [paramErr_isFormat] at hf; cases hf
          · simp only [Option.some.injEq] at hq; subst hq; exact hs
      have hx : (st.d.ext x).enterMap P = d1.ext x := by
        rw [← hgd]
        refine Dec.enterMap_ext he (fun e' he' => by rw [hgd, hd1] at he'; cases he') ?_
        rw [hgd]
        intro _ start ls hl hr
        rw [Dec.mapSearch_empty hl hr] at hms
        obtain ⟨rfl, -⟩ := Prod.mk.inj hms
        exact absurd rfl (hstab _ rfl).2.1
      have hms2 := Dec.mapSearch_ext (x := x) hms hstab
      have hd1x : (d1.ext x).err = none := hd1
      have hgi2 : (d1.ext x).getItemsInMap P headerQs headerCb ⟨st.unk, .ok ()⟩ =
          match r0 with
          | .error e => ({ d1.ext x with err := some e }, [], cb)
          | .ok found => (d1.ext x, found.ext x, cb) := by
        unfold Dec.getItemsInMap
        rw [hd1x]
        simp only [Option.isSome_none, Bool.false_eq_true, if_false, hms2]
        cases r0 <;> rfl
      rw [hx, hgi2]
      rw [hgi] at h
      cases r0 with
      | error e =>
        simp only at h ⊢
        by_cases hc : e = .callbackFail
        · subst hc
          obtain ⟨rfl, rfl⟩ := Prod.mk.inj h
          cases hcr : cb.ret with
          | error y => exact .inl ⟨y, ⟨{ d1.ext x with err := some .callbackFail }, st.params, st.crit,
              cb.unk⟩, rfl, rfl⟩
          | ok u => obtain ⟨y, hy'⟩ := Dec.mapSearch_cbFail hms; rw [hcr] at hy'; cases hy'
        · have h' : (r, st') = (.error (paramErr e), { st with d := { d1 with err := some e }, unk := cb.unk }) := by
            rw [← h]
            cases e <;> first | rfl | exact absurd rfl hc
          obtain ⟨rfl, rfl⟩ := Prod.mk.inj h'
          refine .inl ⟨paramErr e, ⟨{ d1.ext x with err := some e }, st.params, st.crit, cb.unk⟩,
            rfl, ?_⟩
          cases e <;> first | rfl | exact absurd rfl hc
      | ok f =>
        simp only [hd1, hd1x, copyParams_ext] at h ⊢
        cases hcp : copyParams cfg false f st.params with
        | error y =>
          simp only [hcp] at h ⊢
          obtain ⟨rfl, rfl⟩ := Prod.mk.inj h
          exact .inl ⟨y, _, rfl, rfl⟩
        | ok p =>
          simp only [hcp] at h ⊢
          rw [decodeCritical_false hd1] at h
          rw [decodeCritical_false hd1x, Dec.room_ext]
          cases hms3 : d1.mapSearch P [(2, .arr)] (fun (s : Unit) _ => (s, true)) () with
          | mk r1 u =>
            have hst3 : ∀ e, r1 = .error e → e.stable := by
              intro e hr1
              subst hr1
              exact Dec.mapSearch_stable hms _ _ _ hms3
            have hms4 := Dec.mapSearch_ext (x := x) hms3 hst3
            rw [hms4]
            rw [hms3] at h
            -- behind the map
            have hok : (r, st') = (.ok (), { d := d1.exitMap P, params := p, crit := st.crit, unk := cb.unk }) →
                r = .ok () ∧ st'.d.err = none ∧ (st'.d.cur.rest = [] ∨
                  ((.ok () : Except Err Unit), Parse.mk ((d1.ext x).exitMap P) p st.crit cb.unk) =
                    (.ok (), { st' with d := st'.d.ext x })) := by
              intro h'
              obtain ⟨rfl, rfl⟩ := Prod.mk.inj h'
              obtain ⟨es, cEnd, hr, -⟩ := (Dec.mapSearch_ok hlv headerQs headerCb _ _ _).mp hms
              have hem := Dec.exitMap_intro hd1 hlv hr
              have hne : (d1.exitMap P).err = none := by rw [hem]; exact hd1
              refine ⟨rfl, hne, ?_⟩
              rcases Dec.exitMap_ext (x := x) hd1 hne with h1 | h1
              · exact .inl h1
              · exact .inr (by rw [h1])
            cases r1 with
            | error e =>
              simp only [extF] at h ⊢
              by_cases hl : e = .labelNotFound
              · simp only [hl, if_true] at h ⊢
                exact .inr (hok h.symm)
              · simp only [hl, if_false] at h ⊢
                obtain ⟨rfl, rfl⟩ := Prod.mk.inj h
                exact .inl ⟨_, _, rfl, rfl⟩
            | ok g =>
              simp only [extF, Found.lookup_ext] at h ⊢
              rcases hlk : g.lookup 2 with _ | ⟨v, c⟩
              · simp only [hlk, Option.map] at h ⊢
                exact .inr (hok h.symm)
              · cases v with
                | arr k =>
                  simp only [hlk, Option.map] at h ⊢
                  by_cases hr : d1.room = 0
                  · simp only [hr, if_true] at h ⊢
                    obtain ⟨rfl, rfl⟩ := Prod.mk.inj h
                    exact .inl ⟨_, _, rfl, rfl⟩
                  · simp only [hr, if_false] at h ⊢
                    obtain ⟨rfl, rfl⟩ := Prod.mk.inj h
                    exact .inl ⟨_, _, rfl, rfl⟩
                | _ =>
                  simp only [hlk, Option.map] at h ⊢
                  exact .inr (hok h.symm)

theorem Dec.fetch_nil {P : QParams} {d : Dec} (h : d.cur.rest = []) :
    d.fetch P = (.error .noMoreItems, d.cur) := by
  unfold Dec.fetch
  simp [h]

theorem Dec.getByteString_nil {P : QParams} {d : Dec} (he : d.err = none) (h : d.cur.rest = []) :
    (d.getByteString P).1.err = some .noMoreItems := by
  unfold Dec.getByteString Dec.getNext
  rw [he, Dec.fetch_nil h]
  rfl

theorem Dec.getNext_ext {P : QParams} {x : Bytes} {d d1 : Dec} {it : Itm}
    (h : d.getNext P = (.ok it, d1)) :
    d1.cur.rest = [] ∨ (d.ext x).getNext P = (.ok it, d1.ext x) := by
  unfold Dec.getNext at h ⊢
  cases hf : d.fetch P with
  | mk r c1 =>
    rw [hf] at h
    cases r with
    | error e => cases h
    | ok it' =>
      simp only [Prod.mk.injEq, Except.ok.injEq] at h
      obtain ⟨rfl, rfl⟩ := h
      rw [Dec.fetch_ext hf (by intro e he; cases he)]
      by_cases hc : c1.rest = []
      · exact .inl (Dec.done_nil hc)
      · exact .inr (by simp only [Dec.done_ext hc]; rfl)

theorem Dec.getByteString_ext {P : QParams} {x : Bytes} {d d1 : Dec} {o : Option Str}
    (he : d.err = none) (h : d.getByteString P = (d1, o)) :
    (d1.err = none → d1.cur.rest = [] ∨ (d.ext x).getByteString P = (d1.ext x, o)) ∧
    (∀ e, d1.err = some e → e.stable → ((d.ext x).getByteString P).1.err = some e) := by
  have he2 : (d.ext x).err = none := he
  unfold Dec.getByteString at h ⊢
  rw [he2]
  rw [he] at h
  simp only [Option.isSome_none, Bool.false_eq_true, if_false] at h ⊢
  cases hg : d.getNext P with
  | mk r d2 =>
    rw [hg] at h
    cases r with
    | error e =>
      obtain ⟨rfl, rfl⟩ := Prod.mk.inj h
      refine ⟨fun h => (by cases h), fun e' h1 hs => ?_⟩
      cases h1
      have : (d.ext x).getNext P = (.error e, d2.ext x) := by
        unfold Dec.getNext at hg ⊢
        cases hf : d.fetch P with
        | mk r c1 =>
          rw [hf] at hg
          cases r with
          | ok it => cases hg
          | error e' =>
            simp only [Prod.mk.injEq, Except.error.injEq] at hg
            obtain ⟨rfl, rfl⟩ := hg
            rw [Dec.fetch_ext hf (by intro e he; cases he; exact hs)]
            rfl
      rw [this]
    | ok it =>
      simp only at h
      have hd2 : d2.err = none := by
        obtain ⟨c1, -, h2⟩ := Dec.getNext_ok hg
        rw [h2]; exact he
      -- the item itself does not change
      have hnext : ∃ d3, (d.ext x).getNext P = (.ok it, d3) := by
        unfold Dec.getNext at hg ⊢
        cases hf : d.fetch P with
        | mk r c1 =>
          rw [hf] at hg
          cases r with
          | error e => cases hg
          | ok it' =>
            simp only [Prod.mk.injEq, Except.ok.injEq] at hg
            obtain ⟨rfl, rfl⟩ := hg
            rw [Dec.fetch_ext hf (by intro e he; cases he)]
            exact ⟨_, rfl⟩
      have hmain : ∀ (s : Str), it.val = .bstr s → it.tags = [] →
          (d1.err = none → d1.cur.rest = [] ∨
            (match (d.ext x).getNext P with
            | (.error e, d1) => ({ d1 with err := some e }, none)
            | (.ok it, d1) =>
              match it.val, it.tags with
              | .bstr s, [] => (d1, some s)
              | _, _ => ({ d1 with err := some .unexpectedType }, none)) = (d1.ext x, o)) ∧
          (∀ e, d1.err = some e → e.stable →
            (match (d.ext x).getNext P with
            | (.error e, d1) => (({ d1 with err := some e } : Dec), (none : Option Str))
            | (.ok it, d1) =>
              match it.val, it.tags with
              | .bstr s, [] => (d1, some s)
              | _, _ => ({ d1 with err := some .unexpectedType }, none)).1.err = some e) := by
        intro s hv ht
        rw [hv, ht] at h
        obtain ⟨rfl, rfl⟩ := Prod.mk.inj h
        refine ⟨fun _ => ?_, fun e h1 => by rw [hd2] at h1; cases h1⟩
        rcases Dec.getNext_ext (x := x) hg with h1 | h1
        · exact .inl h1
        · right; rw [h1]; simp only [hv, ht]
      obtain ⟨d3, hd3⟩ := hnext
      by_cases hb : (∃ s, it.val = .bstr s) ∧ it.tags = []
      · obtain ⟨⟨s, hv⟩, ht⟩ := hb
        exact hmain s hv ht
      · have hgen : ∀ d0 : Dec, (match it.val, it.tags with
            | .bstr s, [] => (d0, some s)
            | _, _ => ({ d0 with err := some .unexpectedType }, none)) =
            (({ d0 with err := some .unexpectedType } : Dec), (none : Option Str)) := by
          intro d0
          split
          · rename_i s hv ht
            exact absurd ⟨⟨s, hv⟩, ht⟩ hb
          · rfl
        obtain ⟨rfl, rfl⟩ := Prod.mk.inj ((hgen d2).symm.trans h)
        refine ⟨fun h => (by cases h), fun e h1 _ => ?_⟩
        cases h1
        rw [hd3]
        exact congrArg (fun z => z.1.err) (hgen d3)

theorem decodeErr_nonFormat {o : Option QErr} {y : Err} (h : decodeErr o = .error y)
    (hy : y.isFormat = false) : o = some .tooManyTags ∧ y = .tooManyTags := by
  cases o with
  | none => cases h
  | some e =>
    unfold decodeErr at h
    simp only at h
    split at h
    · cases h; cases hy
    · split at h
      · rename_i he; cases h; exact ⟨by rw [he], rfl⟩
      · split at h
        · cases h; cases hy
        · cases h; cases hy

theorem Dec.finish_tooManyTags {d : Dec} (h : d.finish = some .tooManyTags) :
    d.err = some .tooManyTags := by
  unfold Dec.finish at h
  cases he : d.err with
  | some e => rw [he] at h; exact h
  | none =>
    rw [he] at h
    simp only at h
    split at h
    · cases h
    · split at h <;> cases h

theorem finish_some {d : Dec} {e : QErr} (h : d.err = some e) : d.finish = some e := by
  unfold Dec.finish; rw [h]

theorem Dec.exitArray_tooManyTags {P : QParams} {x : Bytes} {d : Dec} (he : d.err = none)
    (h : (d.exitArray P).err = some .tooManyTags) :
    d.cur.rest ≠ [] ∧ ((d.ext x).exitArray P).err = some .tooManyTags := by
  have he2 : (d.ext x).err = none := he
  unfold Dec.exitArray at h ⊢
  rw [he2, Dec.room_ext]
  rw [he] at h
  simp only [Option.isSome_none, Bool.false_eq_true, if_false] at h ⊢
  cases hl : d.lvls with
  | nil => rw [hl] at h; cases h
  | cons l ls =>
    have hl2 : (d.ext x).lvls = l.ext x :: ls.map (Lvl.ext x) := by simp [Dec.ext, hl]
    rw [hl] at h
    rw [hl2]
    cases l with
    | map => cases h
    | wrap => cases h
    | arr left =>
      have hdone : ∀ c, ((Dec.mk d.cur ls none d.tags).done c).err ≠ some .tooManyTags := by
        intro c; unfold Dec.done; simp
      rcases left with _ | _ | n
      case some.zero =>
        simp only at h
        exact absurd h (hdone d.cur)
      all_goals
        simp only [Lvl.ext] at h ⊢
        show _ ∧ (match skipAll P (d.room + 1) _ (d.cur.ext x) with
          | .error e => _
          | .ok c => _ : Dec).err = _
        cases hs : skipAll P (d.room + 1) _ d.cur with
        | ok c =>
          rw [hs] at h
          exact absurd h (hdone c)
        | error e =>
          rw [hs] at h
          simp only [Option.some.injEq] at h
          subst h
          refine ⟨fun hc => ?_, ?_⟩
          · unfold skipAll at hs
            rw [hc] at hs
            simp only [List.length_nil, skip] at hs
            rw [if_pos (by simp [hc])] at hs
            cases hs
          · rw [skipAll_err hs (by decide)]

/-- The unprotected parameters, the payload and the signature: an error that does
not come from the end of the input stays. -/
theorem tailBody_ext {cfg : Config} {P : QParams} {x : Bytes} {pay : VPayload} {junk : Junk}
    {prot : Buf} {st st' : Parse} {y : Err} (he : st.d.err = none)
    (h : tailBody cfg P pay junk prot st = (.error y, st'))
    (hy : y.isFormat = false ∨ ∃ q, st'.d.err = some q ∧ q.stable) :
    ∃ st'', tailBody cfg P pay junk prot { st with d := st.d.ext x } = (.error y, st'') := by
  unfold tailBody at h ⊢
  cases hp : parseHeader cfg P false st with
  | mk r st1 =>
    rw [hp] at h
    cases r with
    | error y' =>
      obtain ⟨h1, rfl⟩ := Prod.mk.inj h
      cases h1
      rcases parseHeader_ext (x := x) he hp (by intro y' h'; cases h'; exact hy) with
        ⟨y', st'', h1, h2⟩ | ⟨h1, -⟩
      · cases h1
        rw [h2]
        exact ⟨st'', rfl⟩
      · cases h1
    | ok u =>
      cases u
      simp only at h
      rcases parseHeader_ext (x := x) he hp (by intro y' h'; cases h') with
        ⟨y', st'', h1, -⟩ | ⟨-, hn, hor⟩
      · cases h1
      · -- the only error left is the one for too many tags
        have hst : st' = st1 := by
          split at h
          · exact (Prod.mk.inj h).2.symm
          · split at h
            · exact (Prod.mk.inj h).2.symm
            · cases h
        subst hst
        have hyf : y.isFormat = false := by
          rcases hy with hy | ⟨q, hq, -⟩
          · exact hy
          · rw [hn] at hq; cases hq
        -- from the payload on
        have hsig : ∀ (d : Dec) (b : Buf), d.err = none →
            decodeErr (((d.getByteString P).1).exitArray P).finish = .error y →
            d.cur.rest ≠ [] ∧
            decodeErr ((((d.ext x).getByteString P).1).exitArray P).finish = .error y := by
          intro d b hd h
          obtain ⟨h1, rfl⟩ := decodeErr_nonFormat h hyf
          have h2 := Dec.finish_tooManyTags h1
          have hne : d.cur.rest ≠ [] := by
            intro hc
            have := Dec.getByteString_nil (P := P) hd hc
            rw [exitArray_sticky (by rw [this]; simp), this] at h2
            cases h2
          refine ⟨hne, ?_⟩
          cases hg : d.getByteString P with
          | mk d1 o =>
            rw [hg] at h2
            have hx := Dec.getByteString_ext (x := x) hd hg
            cases hd1 : d1.err with
            | some e =>
              rw [exitArray_sticky (by rw [hd1]; simp), hd1] at h2
              cases h2
              have h3 := hx.2 _ hd1 (by decide)
              rw [exitArray_sticky (by rw [h3]; simp), finish_some h3]
              rfl
            | none =>
              have h4 := Dec.exitArray_tooManyTags (x := x) hd1 h2
              rcases hx.1 hd1 with h5 | h5
              · exact absurd h5 h4.1
              · rw [h5, finish_some h4.2]
                rfl
        have hend : ∀ (p : Except Err (Dec × Buf)), takePayload P st'.d pay junk.payload = p →
            ∃ d b, p = .ok (d, b) ∧
              decodeErr (((d.getByteString P).1).exitArray P).finish = .error y := by
          intro p hpp
          rw [hpp] at h
          cases p with
          | error y' =>
            have hf : y'.isFormat = true := by
              unfold takePayload at hpp
              cases pay with
              | inline w => cases hpp
              | detached q =>
                simp only at hpp
                split at hpp
                · split at hpp
                  · cases hpp
                  · cases hpp; rfl
                · cases hpp; rfl
            obtain ⟨h1, -⟩ := Prod.mk.inj h
            cases h1
            rw [hf] at hyf; cases hyf
          | ok w =>
            obtain ⟨d, b⟩ := w
            refine ⟨d, b, rfl, ?_⟩
            simp only at h
            split at h
            · rename_i y' hy'
              obtain ⟨h1, -⟩ := Prod.mk.inj h
              cases h1
              exact hy'
            · cases h
        obtain ⟨d, b, hpay, hfin⟩ := hend _ rfl
        -- the payload
        have hpayx : ∃ d' b', takePayload P (st'.d.ext x) pay junk.payload = .ok (d', b') ∧
            st'.d.cur.rest ≠ [] ∧
            decodeErr (((d'.getByteString P).1).exitArray P).finish = .error y := by
          unfold takePayload at hpay ⊢
          cases pay with
          | inline w =>
            simp only [Except.ok.injEq, Prod.mk.injEq] at hpay ⊢
            obtain ⟨rfl, rfl⟩ := hpay
            refine ⟨_, _, ⟨rfl, rfl⟩, ?_⟩
            cases hg : st'.d.getByteString P with
            | mk d1 o =>
              rw [hg] at hfin
              have hx := Dec.getByteString_ext (x := x) hn hg
              cases hd1 : d1.err with
              | some e =>
                simp only [getByteString_sticky (d := d1) (P := P) (by rw [hd1]; simp)] at hfin
                rw [exitArray_sticky (by rw [hd1]; simp), finish_some hd1] at hfin
                obtain ⟨h1, rfl⟩ := decodeErr_nonFormat hfin hyf
                cases h1
                have h3 := hx.2 _ hd1 (by decide)
                refine ⟨fun hc => ?_, ?_⟩
                · have := Dec.getByteString_nil (P := P) hn hc
                  rw [hg] at this
                  simp only [hd1] at this
                  cases this
                · rw [getByteString_sticky (by rw [h3]; simp),
                    exitArray_sticky (by rw [h3]; simp), finish_some h3]
                  rfl
              | none =>
                have h4 := hsig d1 (strOut junk.payload o) hd1 hfin
                refine ⟨fun hc => ?_, ?_⟩
                · have := Dec.getByteString_nil (P := P) hn hc
                  rw [hg] at this
                  simp only [hd1] at this
                  cases this
                · rcases hx.1 hd1 with h5 | h5
                  · exact absurd h5 h4.1
                  · rw [h5]; exact h4.2
          | detached q =>
            simp only at hpay ⊢
            cases hg : st'.d.getNext P with
            | mk r d1 =>
              rw [hg] at hpay
              cases r with
              | error e => cases hpay
              | ok it =>
                simp only at hpay
                by_cases hv : it.val = .null
                · rw [if_pos hv] at hpay
                  simp only [Except.ok.injEq, Prod.mk.injEq] at hpay
                  obtain ⟨rfl, rfl⟩ := hpay
                  have hd1 : d1.err = none := by
                    obtain ⟨c1, -, h2⟩ := Dec.getNext_ok hg
                    rw [h2]; exact hn
                  have h4 := hsig d1 (.ext q) hd1 hfin
                  rcases Dec.getNext_ext (x := x) hg with h5 | h5
                  · exact absurd h5 h4.1
                  · rw [h5]
                    simp only [hv, if_true]
                    refine ⟨_, _, rfl, fun hc => ?_, h4.2⟩
                    unfold Dec.getNext at hg
                    rw [Dec.fetch_nil hc] at hg
                    cases hg
                · rw [if_neg hv] at hpay
                  cases hpay
        obtain ⟨d', b', h1, h2, h3⟩ := hpayx
        rcases hor with hc | hor
        · exact absurd hc h2
        · rw [hor]
          simp only [h1, h3]
          exact ⟨_, rfl⟩

end TCose
