import Verif.Lemmas.RefuseBody
import Verif.Lemmas.DecodeBody

/-!
# A message refused for what its beginning says
-/

namespace TCose
open Spec

theorem Dec.enterBstrWrapped_notCb {P : QParams} {d : Dec} (he : d.err = none) :
    (d.enterBstrWrapped P).1.err ≠ some .callbackFail := by
  unfold Dec.enterBstrWrapped
  rw [he]
  simp only [Option.isSome_none, Bool.false_eq_true, if_false]
  cases hf : d.fetch P with
  | mk r c1 =>
    cases r with
    | error e => simpa using fetch_notCb hf
    | ok it =>
      simp only
      split
      · split
        · simp
        · simp
      · simp

theorem Dec.enterBstrWrapped_err_ext {P : QParams} {x : Bytes} {d : Dec} {e : QErr}
    (he : d.err = none) (h : (d.enterBstrWrapped P).1.err = some e) (hs : e.stable) :
    ((d.ext x).enterBstrWrapped P).1.err = some e := by
  have he2 : (d.ext x).err = none := he
  unfold Dec.enterBstrWrapped at h ⊢
  rw [he2, Dec.room_ext]
  rw [he] at h
  simp only [Option.isSome_none, Bool.false_eq_true, if_false] at h ⊢
  cases hf : d.fetch P with
  | mk r c1 =>
    rw [hf] at h
    cases r with
    | error e' =>
      simp only [Option.some.injEq] at h
      subst h
      rw [Dec.fetch_ext hf (by intro e he; cases he; exact hs)]
    | ok it =>
      rw [Dec.fetch_ext hf (by intro e he; cases he)]
      simp only at h ⊢
      split
      · rename_i s hv ht
        simp only [hv, ht] at h
        split
        · rename_i hr
          rw [if_pos hr] at h
          exact h
        · rename_i hr
          rw [if_neg hr] at h
          cases h
      · rename_i hne
        split at h
        · rename_i s hv ht
          exact absurd ht (hne s hv)
        · exact h

/-- Nothing could be read as the protected bucket. -/
theorem decodeBody_stuck {cfg : Config} {P : QParams} {d : Dec} {pay : VPayload} {junk : Junk}
    {e : QErr} (h : (d.enterBstrWrapped P).1.err = some e) (hc : e ≠ .callbackFail) :
    decodeBody cfg P d pay junk = (.error (paramErr e),
      ⟨(d.enterBstrWrapped P).1, Params.clear, LabelList.clear, LabelList.clear⟩) := by
  rw [decodeBody_tail]
  unfold parseProtected
  split
  · rename_i x st heq
    split at heq
    · rw [parseHeader_stuck (e := e) h hc] at heq
      obtain ⟨h1, rfl⟩ := Prod.mk.inj heq
      cases h1
      rfl
    · cases heq
  · rename_i st heq
    split at heq
    · rw [parseHeader_stuck (e := e) h hc] at heq
      cases heq
    · obtain ⟨-, rfl⟩ := Prod.mk.inj heq
      unfold tailBody
      simp only
      rw [exitBstrWrapped_sticky (by rw [h]; simp), parseHeader_stuck (e := e) h hc]

/-- Decoding behind the array head: an error that does not come from the end of
the input stays. -/
theorem decodeBody_ext {cfg : Config} {P : QParams} {x : Bytes} {d : Dec} {pay : VPayload}
    {junk : Junk} {y : Err} {st' : Parse} {left : Option Nat} (he : d.err = none)
    (hl : d.lvls = [.arr left]) (h : decodeBody cfg P d pay junk = (.error y, st'))
    (hy : y.isFormat = false ∨ (∃ q, st'.d.err = some q ∧ q.stable) ∨
      ((d.enterBstrWrapped P).1.err = none ∧ ∃ st,
        parseProtected cfg P (wrapOut junk.prot (d.enterBstrWrapped P).2)
          { d := (d.enterBstrWrapped P).1, params := Params.clear, crit := LabelList.clear,
            unk := LabelList.clear } = (.error y, st))) :
    ∃ st'', decodeBody cfg P (d.ext x) pay junk = (.error y, st'') := by
  cases hw : (d.enterBstrWrapped P).1.err with
  | some e =>
    have hcb : e ≠ .callbackFail := fun hc => Dec.enterBstrWrapped_notCb he (by rw [hw, hc])
    rw [decodeBody_stuck hw hcb] at h
    obtain ⟨h1, rfl⟩ := Prod.mk.inj h
    cases h1
    have hs : e.stable := by
      rcases hy with hy | ⟨q, hq, hs⟩ | ⟨hn, -⟩
      · rw [paramErr_isFormat] at hy; cases hy
      · simp only [hw, Option.some.injEq] at hq; subst hq; exact hs
      · rw [hw] at hn; cases hn
    rw [decodeBody_stuck (Dec.enterBstrWrapped_err_ext he hw hs) hcb]
    exact ⟨_, rfl⟩
  | none =>
    rw [decodeBody_tail] at h ⊢
    cases hwe : d.enterBstrWrapped P with
    | mk d1 out =>
      rw [hwe] at h hy hw
      simp only at hw
      obtain ⟨-, it, s, c1, hf, hv, ht, hr, rfl, hd1⟩ := Dec.enterBstrWrapped_ok hwe hw
      have hx := Dec.enterBstrWrapped_intro (P := P) (d := d.ext x) he
        (Dec.fetch_ext hf (by intro e he; cases he)) hv ht (by rw [Dec.room_ext]; exact hr)
      have hre : Dec.mk ⟨s.off, s.bytes⟩ (.wrap (c1.ext x) :: (d.ext x).lvls) (d.ext x).err [] =
          d1.reout (c1.ext x) := by
        rw [hd1]
        simp only [Dec.ext, Dec.reout, hl, List.map_cons, List.map_nil, Lvl.ext, Lvl.reout]
      rw [hx, hre]
      simp only at h hy ⊢
      have hpp := parseProtected_reout cfg P (wrapOut junk.prot (some (some s))) (c1.ext x)
        ⟨d1, Params.clear, LabelList.clear, LabelList.clear⟩
      change parseProtected cfg P (wrapOut junk.prot (some (some s)))
        ⟨d1.reout (c1.ext x), Params.clear, LabelList.clear, LabelList.clear⟩ = _ at hpp
      rw [hpp]
      cases hp : parseProtected cfg P (wrapOut junk.prot (some (some s)))
          ⟨d1, Params.clear, LabelList.clear, LabelList.clear⟩ with
      | mk r st1 =>
        rw [hp] at h hy
        cases r with
        | error y' =>
          obtain ⟨h1, -⟩ := Prod.mk.inj h
          cases h1
          exact ⟨_, rfl⟩
        | ok u =>
          cases u
          simp only at h ⊢
          cases hst : st1.d.err with
          | some e =>
            have hn : st1.d.err ≠ none := by rw [hst]; simp
            have hn' : (st1.reout (c1.ext x)).d.err ≠ none := hn
            rw [exitBstrWrapped_sticky hn'] at *
            rw [exitBstrWrapped_sticky hn] at h
            have := tailBody_reout cfg P pay junk (wrapOut junk.prot (some (some s))) (c1.ext x) st1
            change tailBody cfg P pay junk (wrapOut junk.prot (some (some s)))
              { st1.reout (c1.ext x) with d := (st1.reout (c1.ext x)).d } = _ at this
            rw [this]
            change tailBody cfg P pay junk (wrapOut junk.prot (some (some s))) st1 = _ at h
            rw [h]
            exact ⟨_, rfl⟩
          | none =>
            have hlv : st1.d.lvls = .wrap c1 :: d.lvls := by
              unfold parseProtected at hp
              split at hp
              · obtain ⟨-, -, it', n', c', es, cEnd, t, -, -, -, -, hd⟩ := parseHeader_ok hp hst
                rw [hd]
                simp only [hd1, Dec.done, Dec.itemDone]
              · obtain ⟨-, rfl⟩ := Prod.mk.inj hp
                rw [hd1]
            have hex : st1.d.exitBstrWrapped = ({ st1.d with lvls := d.lvls } : Dec).done c1 := by
              unfold Dec.exitBstrWrapped
              rw [hst, hlv]
              simp only [Option.isSome_none, Bool.false_eq_true, if_false, hst]
            have hexx : (st1.reout (c1.ext x)).d.exitBstrWrapped =
                ({ st1.d with lvls := d.lvls } : Dec).done (c1.ext x) := by
              have h1 : (st1.reout (c1.ext x)).d.err = none := hst
              have h2 : (st1.reout (c1.ext x)).d.lvls = .wrap (c1.ext x) :: d.lvls := by
                simp only [Parse.reout, Dec.reout, hlv, hl, List.map_cons, List.map_nil, Lvl.reout]
              unfold Dec.exitBstrWrapped
              rw [h1, h2]
              simp only [Option.isSome_none, Bool.false_eq_true, if_false]
              simp only [Dec.done, Parse.reout, Dec.reout, hst]
            have herr : st1.d.exitBstrWrapped.err = none := by rw [hex]; exact hst
            have hy' : y.isFormat = false ∨ ∃ q, st'.d.err = some q ∧ q.stable := by
              rcases hy with hy | hy | ⟨-, st, hy⟩
              · exact .inl hy
              · exact .inr hy
              · cases hy
            have hne : c1.rest ≠ [] := by
              intro hc
              have hnil : st1.d.exitBstrWrapped.cur.rest = [] := by rw [hex]; exact Dec.done_nil hc
              have hph : parseHeader cfg P false { st1 with d := st1.d.exitBstrWrapped } =
                  (.error .parameterCbor, { st1 with d := { st1.d.exitBstrWrapped with
                    err := some .noMoreItems } }) := by
                unfold parseHeader Dec.enterMap
                rw [Dec.fetch_nil hnil, herr]
                rfl
              unfold tailBody at h
              rw [hph] at h
              obtain ⟨h1, rfl⟩ := Prod.mk.inj h
              cases h1
              rcases hy' with hy' | ⟨q, hq, hs⟩
              · cases hy'
              · cases hq; exact absurd rfl hs.2.1
            have heq : (st1.reout (c1.ext x)).d.exitBstrWrapped = st1.d.exitBstrWrapped.ext x := by
              rw [hexx, hex, ← Dec.done_ext hne]
              simp only [Dec.done, Dec.ext, hl, List.map_cons, List.map_nil, Lvl.ext]
            rw [heq]
            exact tailBody_ext (x := x) (st := { st1 with d := st1.d.exitBstrWrapped }) herr h hy'

theorem Dec.enterArray_ext {P : QParams} {x : Bytes} {d : Dec} (he : d.err = none)
    (h : ∀ e, (d.enterArray P).err = some e → e.stable)
    (h2 : (d.enterArray P).err = none → ∀ ls, (d.enterArray P).lvls = .arr none :: ls →
      (d.enterArray P).cur.rest ≠ []) :
    (d.ext x).enterArray P = (d.enterArray P).ext x := by
  have he2 : (d.ext x).err = none := he
  unfold Dec.enterArray at h h2 ⊢
  rw [he2, Dec.room_ext]
  rw [he] at h h2 ⊢
  simp only [Option.isSome_none, Bool.false_eq_true, if_false] at h h2 ⊢
  cases hf : d.fetch P with
  | mk r c1 =>
    rw [hf] at h h2
    cases r with
    | error e =>
      rw [Dec.fetch_ext hf (by intro e' he'; cases he'; exact h _ rfl)]
      rfl
    | ok it =>
      rw [Dec.fetch_ext hf (by intro e' he'; cases he')]
      cases hv : it.val with
      | arr n =>
        simp only [hv] at h h2 ⊢
        by_cases hr : d.room = 0
        · simp only [hr, if_true]; rfl
        · simp only [hr, if_false] at h2 ⊢
          have : n ≠ none ∨ c1.rest ≠ [] := by
            cases n with
            | some k => exact .inl (by simp)
            | none =>
              refine .inr fun hc => ?_
              rw [openLvl_none_nil hc] at h2
              exact h2 trivial d.lvls rfl hc
          rw [openLvl_ext this]
          rfl
      | _ => simp only [hv]; rfl

theorem processTags_same (P : QParams) (me me' : VerifyCtx) (d d' : Dec)
    (hf : me'.flags = me.flags) (he : d'.err = d.err) (ht : d'.tags = d.tags) :
    (processTags P me' d').1 = (processTags P me d).1 := by
  have hn : ∀ n, d'.nthTag P n = d.nthTag P n := by
    intro n; unfold Dec.nthTag; rw [he, ht]
  have hl : ∀ fuel i r tags, tagLoop P d' fuel i r tags = tagLoop P d fuel i r tags := by
    intro fuel
    induction fuel with
    | zero => intros; rfl
    | succ n ih => intro i r tags; unfold tagLoop; simp only [hn, ih]
  unfold processTags
  simp only [hn, hl, hf]
  repeat' split
  all_goals rfl

/-- The error of a call whose decoding failed. -/
theorem verify_decode_error {cfg : Config} {P : QParams} {C : Crypto} {junk : Junk}
    {me : VerifyCtx} {msg : Bytes} {aad : UB} {pay : VPayload} {want : Bool} {y : Err}
    (h : (verifyInternal cfg P C junk me msg aad pay want).res = .error y)
    (hv : ¬ ∃ v, IsView P msg v) :
    decodeErr ((Dec.init msg).enterArray P).err = .error y ∨
    (((Dec.init msg).enterArray P).err = none ∧
      ((processTags P me ((Dec.init msg).enterArray P)).1 = .error y ∨
       ((processTags P me ((Dec.init msg).enterArray P)).1 = .ok () ∧
        (decodeBody cfg P ((Dec.init msg).enterArray P) pay junk).1 = .error y))) := by
  unfold verifyInternal at h
  simp only at h
  cases hd : decodeErr ((Dec.init msg).enterArray P).err with
  | error x =>
    rw [hd] at h
    exact .inl (by simpa [VRes.fail] using h)
  | ok u =>
    cases u
    rw [hd] at h
    refine .inr ⟨decodeErr_ok.mp hd, ?_⟩
    simp only at h
    cases ht : processTags P me ((Dec.init msg).enterArray P) with
    | mk r w =>
      obtain ⟨m1, ub⟩ := w
      rw [ht] at h
      cases r with
      | error x => exact .inl (by simpa [VRes.fail] using h)
      | ok u =>
        cases u
        refine .inr ⟨rfl, ?_⟩
        simp only at h
        cases hb : decodeBody cfg P ((Dec.init msg).enterArray P) pay junk with
        | mk r st =>
          rw [hb] at h
          cases r with
          | error x => simpa [VRes.fail] using h
          | ok x =>
            obtain ⟨v, hv', -⟩ := decodeBody_ok (decodeErr_ok.mp hd) hb
            exact absurd ⟨v, hv'⟩ hv

/-- The error of a call whose decoding fails, the other way round. -/
theorem verify_of_decode_error {cfg : Config} {P : QParams} {C : Crypto} {junk : Junk}
    {me : VerifyCtx} {msg : Bytes} {aad : UB} {pay : VPayload} {want : Bool} {y : Err}
    (h : decodeErr ((Dec.init msg).enterArray P).err = .error y ∨
      (((Dec.init msg).enterArray P).err = none ∧
        ((processTags P me ((Dec.init msg).enterArray P)).1 = .error y ∨
         ((processTags P me ((Dec.init msg).enterArray P)).1 = .ok () ∧
          (decodeBody cfg P ((Dec.init msg).enterArray P) pay junk).1 = .error y)))) :
    (verifyInternal cfg P C junk me msg aad pay want).res = .error y := by
  unfold verifyInternal
  simp only
  rcases h with h | ⟨h, h'⟩
  · rw [h]; rfl
  · rw [h]
    simp only [decodeErr]
    cases ht : processTags P me ((Dec.init msg).enterArray P) with
    | mk r w =>
      obtain ⟨m1, ub⟩ := w
      rw [ht] at h'
      rcases h' with h' | ⟨h', h2⟩
      · simp only at h'; subst h'; rfl
      · simp only at h'; subst h'
        simp only
        cases hb : decodeBody cfg P ((Dec.init msg).enterArray P) pay junk with
        | mk r st =>
          rw [hb] at h2
          simp only at h2
          subst h2
          rfl

theorem decodeBody_nil {cfg : Config} {P : QParams} {d : Dec} {pay : VPayload} {junk : Junk}
    (he : d.err = none) (h : d.cur.rest = []) :
    (decodeBody cfg P d pay junk).1 = .error .parameterCbor := by
  have : (d.enterBstrWrapped P).1.err = some .noMoreItems := by
    unfold Dec.enterBstrWrapped
    rw [he, Dec.fetch_nil h]
    rfl
  rw [decodeBody_stuck this (by decide)]
  rfl

/-- A call that refused octets which are not a complete message, with an error
that is not about the format, refuses every continuation with the same error. -/
theorem verify_refused_ext {cfg : Config} {P : QParams} {C C' : Crypto} {junk junk' : Junk}
    {me me' : VerifyCtx} {msg x : Bytes} {aad aad' : UB} {pay : VPayload} {want want' : Bool}
    {y : Err} (hlen : (msg ++ x).length ≤ maxDecodeInput) (hf : me'.flags = me.flags)
    (h : (verifyInternal cfg P C junk me msg aad pay want).res = .error y)
    (hv : ¬ ∃ v, IsView P msg v) (hy : y.isFormat = false) :
    (verifyInternal cfg P C' junk' me' (msg ++ x) aad' pay want').res = .error y := by
  have hl0 : msg.length ≤ maxDecodeInput := by
    rw [List.length_append] at hlen; omega
  have hi : (Dec.init msg).err = none := by unfold Dec.init; simp; omega
  have hix : Dec.init (msg ++ x) = (Dec.init msg).ext x := by
    unfold Dec.init Dec.ext Cur.ext
    simp only [List.map_nil]
    rw [if_neg (by omega), if_neg (by omega)]
  apply verify_of_decode_error
  rcases verify_decode_error h hv with h1 | ⟨hn, h1⟩
  · obtain ⟨h2, rfl⟩ := decodeErr_nonFormat h1 hy
    left
    rw [hix, Dec.enterArray_ext hi (fun e he => by rw [h2] at he; cases he; decide)
      (fun hn => by rw [h2] at hn; cases hn)]
    show decodeErr ((Dec.init msg).enterArray P).err = _
    exact h1
  · -- behind the array head
    have herr : ((Dec.init (msg ++ x)).enterArray P).err = none ∧
        ((Dec.init (msg ++ x)).enterArray P).tags = ((Dec.init msg).enterArray P).tags := by
      obtain ⟨-, n, c1, tags, hen, hd⟩ := enterArray_msg rfl hn
      rw [enterArray_intro_msg hlen (entry_ext hen), hd]
      exact ⟨rfl, rfl⟩
    right
    refine ⟨herr.1, ?_⟩
    rw [processTags_same P me me' _ _ hf (herr.1.trans hn.symm) herr.2]
    rcases h1 with h1 | ⟨h1, h2⟩
    · exact .inl h1
    · refine .inr ⟨h1, ?_⟩
      have hne : ((Dec.init msg).enterArray P).cur.rest ≠ [] := by
        intro hc
        rw [decodeBody_nil hn hc] at h2
        cases h2
        cases hy
      have hx : (Dec.init (msg ++ x)).enterArray P = ((Dec.init msg).enterArray P).ext x := by
        rw [hix]
        exact Dec.enterArray_ext hi (fun e he => by rw [hn] at he; cases he) (fun _ _ _ => hne)
      obtain ⟨-, n, c1, tags, -, hd⟩ := enterArray_msg rfl hn
      cases hb : decodeBody cfg P ((Dec.init msg).enterArray P) pay junk with
      | mk r st =>
        rw [hb] at h2
        simp only at h2
        subst h2
        have hb' := hb
        rw [decodeBody_junk hn junk junk'] at hb'
        obtain ⟨st'', h3⟩ := decodeBody_ext (x := x) (left := (Dec.openLvl n c1).1) hn (by rw [hd])
          hb' (.inl hy)
        rw [hx, h3]

end TCose
