import Verif.TCose.Verify
import Verif.Lemmas.HeaderParse

/-!
# Decoding of a COSE_Sign1 in terms of its view
-/

namespace TCose
open Spec

theorem enterArray_msg {P : QParams} {msg : Bytes} {d : Dec}
    (h : (Dec.init msg).enterArray P = d) (he : d.err = none) :
    msg.length ≤ maxDecodeInput ∧ ∃ n c1 tags,
      entry P false ⟨0, msg⟩ = (.ok (none, ⟨.arr n, tags, none⟩), c1) ∧
      d = { cur := (Dec.openLvl n c1).2, lvls := [.arr (Dec.openLvl n c1).1], err := none,
            tags := tags } := by
  obtain ⟨h0, it, n, c1, hf, hv, -, hd⟩ := Dec.enterArray_ok h he
  have hlen : msg.length ≤ maxDecodeInput := by
    unfold Dec.init at h0
    simp only at h0
    split at h0
    · cases h0
    · omega
  refine ⟨hlen, n, c1, it.tags, ?_, ?_⟩
  · obtain ⟨-, -, hie, l, hen⟩ := Dec.fetch_ok.mp hf
    have := Dec.entry_false_label hen
    subst this
    obtain ⟨v, tags, err⟩ := it
    simp only at hv hie
    subst hv hie
    exact hen
  · rw [hd, h0]
    rfl

theorem enterArray_intro_msg {P : QParams} {msg : Bytes} (hlen : msg.length ≤ maxDecodeInput)
    {n : Option Nat} {c1 : Cur} {tags : List Nat}
    (h : entry P false ⟨0, msg⟩ = (.ok (none, ⟨.arr n, tags, none⟩), c1)) :
    (Dec.init msg).enterArray P =
      { cur := (Dec.openLvl n c1).2, lvls := [.arr (Dec.openLvl n c1).1], err := none,
        tags := tags } := by
  have h0 : (Dec.init msg).err = none := by
    unfold Dec.init
    simp only
    rw [if_neg (by omega)]
  have hne : msg ≠ [] := by
    rintro rfl
    have hx : entry P false ⟨0, []⟩ = (.error .hitEnd, ⟨0, []⟩) := rfl
    rw [hx] at h
    cases h
  rw [Dec.enterArray_intro (it := ⟨.arr n, tags, none⟩) (n := n) (c1 := c1) h0
    (Dec.fetch_ok.mpr ⟨rfl, hne, rfl, none, h⟩) rfl (by simp [Dec.room, Dec.init, maxDecNesting])]
  rw [h0]
  rfl

/-- How the payload element and what is verified as payload go together: a byte
string in the message, or null and the caller's payload. -/
def PayRel (pay : VPayload) (v : Val) (tags : List Nat) (b : Buf) : Prop :=
  match pay with
  | .inline _ => ∃ s, v = .bstr s ∧ tags = [] ∧ b = .slice s
  | .detached p => v = .null ∧ b = .ext p

/-- Headers, payload and signature decoded from view `v`. -/
structure DecodesTo (cfg : Config) (P : QParams) (v : MsgView) (pay : VPayload) (x : Decoded) :
    Prop where
  prot : x.prot = .slice v.prot
  sig : x.sig = .slice v.sig
  payload : PayRel pay v.payload v.payloadTags x.payload
  headers : ∃ p1 crit1 unk1,
    HeaderOk cfg P 12 true v.protEntries Params.clear LabelList.clear LabelList.clear
      p1 crit1 unk1 ∧
    HeaderOk cfg P 13 false v.unprotEntries p1 crit1 unk1 x.params x.crit x.unk

theorem decodeErr_ok {o : Option QErr} : decodeErr o = .ok () ↔ o = none := by
  cases o with
  | none => simp [decodeErr]
  | some e =>
    simp only [decodeErr, reduceCtorEq, iff_false]
    repeat' split
    all_goals simp

theorem headerOk_nil {cfg : Config} {P : QParams} {room : Nat} {prot : Bool} {p p' : Params}
    {crit unk crit' unk' : LabelList} :
    HeaderOk cfg P room prot [] p crit unk p' crit' unk' ↔ p' = p ∧ crit' = crit ∧ unk' = unk := by
  have hcp : ∀ p, copyParams cfg prot [] p = .ok p := by
    intro p
    unfold copyParams takeAlg takeKid takeIv takePartialIv takeContentType
    simp only [List.lookup]
    split <;> rfl
  unfold HeaderOk CritOk
  constructor
  · rintro ⟨⟨f, r, h1, h2⟩, h3⟩
    simp only [searchFold, Prod.mk.injEq, Except.ok.injEq, CbCtx.mk.injEq] at h1
    obtain ⟨rfl, rfl, rfl⟩ := h1
    rw [hcp] at h2
    cases h2
    rcases h3 with ⟨-, rfl⟩ | ⟨-, -, e, k, ces, cEnd, h, -⟩
    · exact ⟨rfl, rfl, rfl⟩
    · simp at h
  · rintro ⟨rfl, rfl, rfl⟩
    exact ⟨⟨[], .ok (), rfl, hcp _⟩, .inl ⟨by simp, rfl⟩⟩

theorem done_eq {left : Option Nat} {ls : List Lvl} {cur c : Cur} {err : Option QErr}
    {tags : List Nat} :
    (Dec.mk cur (.arr left :: ls) err tags).done c =
      ⟨(stepLeft left c).2, .arr (stepLeft left c).1 :: ls, err, tags⟩ := by
  simp only [Dec.done, itemDone_arr]

theorem decodeBody_ok {cfg : Config} {P : QParams} {msg : Bytes} {pay : VPayload} {junk : Junk}
    {x : Decoded} {st : Parse} (he : ((Dec.init msg).enterArray P).err = none)
    (h : decodeBody cfg P ((Dec.init msg).enterArray P) pay junk = (.ok x, st)) :
    ∃ v, IsView P msg v ∧ ((Dec.init msg).enterArray P).tags = v.tags ∧
      DecodesTo cfg P v pay x := by
  obtain ⟨hlen, n, c1, tags, hen, hd⟩ := enterArray_msg rfl he
  rw [hd] at h ⊢
  clear hd he
  unfold decodeBody at h
  generalize hw : Dec.enterBstrWrapped P _ = y at h
  obtain ⟨d1, out⟩ := y
  simp only at h
  -- the errors are sticky, so every step succeeded
  generalize hh1 : parseProtected cfg P _ _ = z1 at h
  obtain ⟨r1, st1⟩ := z1
  cases r1 with
  | error e => simp at h
  | ok u1 =>
    simp only at h
    generalize hh2 : parseHeader cfg P false _ = z2 at h
    obtain ⟨r2, st2⟩ := z2
    cases r2 with
    | error e => simp at h
    | ok u2 =>
      simp only at h
      generalize hpr : takePayload P st2.d pay junk.payload = pr at h
      cases pr with
      | error e => simp at h
      | ok q =>
        obtain ⟨d4, payload⟩ := q
        simp only at h
        generalize hsg : d4.getByteString P = w at h
        obtain ⟨d5, sigOut⟩ := w
        simp only at h
        cases hfin : decodeErr (d5.exitArray P).finish with
        | error e => rw [hfin] at h; simp at h
        | ok u3 =>
          rw [hfin] at h
          simp only [Prod.mk.injEq, Except.ok.injEq] at h
          obtain ⟨rfl, rfl⟩ := h
          rw [decodeErr_ok, Dec.finish_none] at hfin
          obtain ⟨hf1, hf2, hf3⟩ := hfin
          obtain ⟨hd5e, left5, ls5, cEnd, extra, hl5, hrem5, hx5⟩ := Dec.exitArray_ok rfl hf1
          obtain ⟨hd4e, it3, s3, c3, hfe3, hv3, ht3, hs3, hd5⟩ := Dec.getByteString_ok hsg hd5e
          -- the payload
          have hpay : st2.d.err = none ∧ ∃ it2 c2, st2.d.fetch P = (.ok it2, c2) ∧
              it2.val.isSimple = true ∧ (∃ t, d4 = { st2.d.done c2 with tags := t }) ∧
              PayRel pay it2.val it2.tags payload := by
            cases pay with
            | detached p =>
              unfold takePayload at hpr
              generalize hg : st2.d.getNext P = g at hpr
              obtain ⟨r, d⟩ := g
              cases r with
              | error e => simp at hpr
              | ok it =>
                simp only at hpr
                split at hpr
                · rename_i hnull
                  simp only [Except.ok.injEq, Prod.mk.injEq] at hpr
                  obtain ⟨rfl, rfl⟩ := hpr
                  obtain ⟨c2, hf, rfl⟩ := Dec.getNext_ok hg
                  exact ⟨hd4e, it, c2, hf, by rw [hnull]; rfl, ⟨_, rfl⟩, hnull, rfl⟩
                · simp at hpr
            | inline w =>
              unfold takePayload at hpr
              generalize hg : st2.d.getByteString P = g at hpr
              obtain ⟨d, o⟩ := g
              simp only [Except.ok.injEq, Prod.mk.injEq] at hpr
              obtain ⟨rfl, hpr⟩ := hpr
              obtain ⟨h1, it, s, c2, hf, hv, ht, rfl, hd4⟩ := Dec.getByteString_ok hg hd4e
              exact ⟨h1, it, c2, hf, by rw [hv]; rfl, ⟨_, hd4⟩, s, hv, ht, hpr.symm⟩
          obtain ⟨hst2e, it2, c2, hfe2, hsimp2, ⟨t4, hd4⟩, hpay⟩ := hpay
          -- the unprotected header
          obtain ⟨hw3, -, it1, n1, cm, es1, cE1, t1, hfe1, hv1, hel1, hho1, hst2d⟩ :=
            parseHeader_ok hh2 hst2e
          simp only at hw3 hfe1 hel1 hho1 hst2d
          -- leaving the wrapped header
          obtain ⟨hst1e, outer, ls1, hl1, hx1⟩ := Dec.exitBstrWrapped_ok rfl hw3
          -- the protected header
          unfold parseProtected at hh1
          have hd1e : d1.err = none := by
            split at hh1
            · exact (parseHeader_ok hh1 hst1e).1
            · simp only [Prod.mk.injEq] at hh1
              rw [← hh1.2] at hst1e
              exact hst1e
          obtain ⟨-, it0, s0, c0, hfe0, hv0, ht0, -, rfl, hd1⟩ := Dec.enterBstrWrapped_ok hw hd1e
          have hlen0 : (wrapOut junk.prot (some (some s0))).ub.len = s0.bytes.length := rfl
          rw [hlen0] at hh1
          have hprotHeader : ∃ es0 t, IsProtected P s0 es0 ∧
              HeaderOk cfg P 12 true es0 Params.clear LabelList.clear LabelList.clear
                st1.params st1.crit st1.unk ∧
              (∃ c, st1.d = { d1 with cur := c, tags := t }) := by
            split at hh1
            · rename_i hne
              obtain ⟨-, -, it, k, c3', es0, cE0, t, hf, hv, hel, hho, hd⟩ :=
                parseHeader_ok hh1 hst1e
              have hroom : d1.room - 1 = 12 := by rw [hd1]; rfl
              simp only [hroom] at hf hel hho hd
              obtain ⟨-, -, hie, l, hen0⟩ := Dec.fetch_ok.mp hf
              have := Dec.entry_false_label hen0
              subst this
              have hcur : d1.cur = ⟨s0.off, s0.bytes⟩ := by rw [hd1]
              rw [hcur] at hen0
              refine ⟨es0, t, .inr ⟨?_, it, k, c3', cE0, hen0, hv, hie, hel⟩, hho, cE0, ?_⟩
              · intro h
                rw [h] at hne
                exact hne rfl
              · rw [hd, hd1]
                rfl
            · rename_i hz
              simp only [Prod.mk.injEq, true_and] at hh1
              refine ⟨[], d1.tags, .inl ⟨?_, rfl⟩, headerOk_nil.mpr ?_, d1.cur, ?_⟩
              · simpa using hz
              · rw [← hh1]; exact ⟨rfl, rfl, rfl⟩
              · rw [← hh1]
          obtain ⟨es0, t0, hip, hho0, c', hst1d⟩ := hprotHeader
          rw [hst1d, hd1] at hl1
          simp only [List.cons.injEq, Lvl.wrap.injEq] at hl1
          obtain ⟨rfl, rfl⟩ := hl1
          rw [hst1d, hd1] at hx1
          simp only at hx1
          rw [done_eq] at hx1
          -- collect the elements, from the last to the first
          have hst1x : st1.d.exitBstrWrapped = ⟨(stepLeft (Dec.openLvl n c1).1 c0).2,
            [.arr (stepLeft (Dec.openLvl n c1).1 c0).1], none, t0⟩ := by
            rw [hst1d, hd1]; exact hx1
          rw [hst1x] at hst2d hfe1 hel1 hho1
          simp only at hst2d
          rw [done_eq] at hst2d
          rw [hst2d] at hd4 hfe2
          simp only at hd4
          rw [done_eq] at hd4
          rw [hd4] at hd5 hfe3
          rw [done_eq] at hd5
          simp only at hd5
          rw [hd5] at hl5 hrem5 hx5
          simp only [List.cons.injEq, Lvl.arr.injEq] at hl5
          obtain ⟨rfl, rfl⟩ := hl5
          have hroom5 : ∀ a b c e, (Dec.mk a [b] c e).room = 14 := by intros; rfl
          simp only [hroom5] at hrem5 hel1 hho1
          simp only at hrem5 hx5
          have hsk1 : skipValue P 14 it1.val cm = .ok cE1 := by
            rw [hv1, skipValue_map]; exact ⟨es1, hel1⟩
          have r3 := Dec.rem_of_fetch (P := P) (room := 14) rfl hfe3
            (skipValue_simple P 14 (by rw [hv3]; rfl) c3) hrem5
          have r2 := Dec.rem_of_fetch (P := P) (room := 14) rfl hfe2
            (skipValue_simple P 14 hsimp2 c2) r3
          have r1 := Dec.rem_of_fetch (P := P) (room := 14) rfl hfe1 hsk1 r2
          have r0 := Dec.rem_of_fetch (P := P) (room := 14) rfl hfe0
            (skipValue_simple P 14 (by rw [hv0]; rfl) c0) r1
          have hel := elements_rem.mpr r0
          have herr : ∀ {d : Dec} {it c}, d.fetch P = (.ok it, c) → it.err = none :=
            fun h => (Dec.fetch_ok.mp h).2.2.1
          refine ⟨⟨tags, s0, es0, es1, it2.val, it2.tags, s3, extra⟩,
            ⟨hlen, n, c1, _, _, _, _, cEnd, n1, cE1, hen, hel, ?_, ?_, hip, hv1, herr hfe1, hel1,
              ?_, ?_⟩, rfl, ?_⟩
          · rw [hd5, hx5] at hf3
            exact hf3
          · have := herr hfe0
            obtain ⟨a, b, c⟩ := it0
            simp only at hv0 ht0 this
            subst hv0 ht0 this
            rfl
          · have := herr hfe2
            obtain ⟨a, b, c⟩ := it2
            simp only at this
            subst this
            rfl
          · have := herr hfe3
            obtain ⟨a, b, c⟩ := it3
            simp only at hv3 ht3 this
            subst hv3 ht3 this
            rfl
          · subst hs3
            exact ⟨rfl, rfl, hpay, st1.params, st1.crit, st1.unk, hho0, hho1⟩

theorem decodeBody_intro {cfg : Config} {P : QParams} {msg : Bytes} {pay : VPayload} {junk : Junk}
    {x : Decoded} {v : MsgView} (hv : IsView P msg v) (hx : DecodesTo cfg P v pay x) :
    ((Dec.init msg).enterArray P).err = none ∧ ((Dec.init msg).enterArray P).tags = v.tags ∧
    ∃ st, decodeBody cfg P ((Dec.init msg).enterArray P) pay junk = (.ok x, st) := by
  obtain ⟨hlen, n, c1, e0, e1, e2, e3, cEnd, m, cE1, hen, hel, hend, he0, hip, hm1, he1, hel1,
    he2, he3⟩ := hv
  obtain ⟨hxp, hxs, hpay, p1, crit1, unk1, hho0, hho1⟩ := hx
  rw [enterArray_intro_msg hlen hen]
  refine ⟨rfl, rfl, ?_⟩
  have r0 := elements_rem.mp hel
  obtain ⟨-, -, -, c0', hs0, r1⟩ := Rem_cons_iff.mp r0
  obtain ⟨-, -, -, c1', hs1, r2⟩ := Rem_cons_iff.mp r1
  obtain ⟨-, -, -, c2', hs2, r3⟩ := Rem_cons_iff.mp r2
  obtain ⟨-, -, -, c3', hs3, r4⟩ := Rem_cons_iff.mp r3
  rw [skipValue_simple P 14 (by rw [he0]; rfl)] at hs0
  cases hs0
  have hs1' : skipValue P 14 e1.itm.val e1.cur = .ok cE1 := by
    rw [hm1, skipValue_map]; exact ⟨_, hel1⟩
  rw [hs1'] at hs1
  cases hs1
  have hsimp2 : e2.itm.val.isSimple = true := by
    rw [he2]
    cases pay with
    | inline w => obtain ⟨s, h, -⟩ := hpay; simp only [h]; rfl
    | detached p => simp only [hpay.1]; rfl
  rw [skipValue_simple P 14 hsimp2] at hs2
  cases hs2
  rw [skipValue_simple P 14 (by rw [he3]; rfl)] at hs3
  cases hs3
  unfold decodeBody
  -- enter the protected header
  have f0 := Dec.fetch_rem (P := P) (d := ⟨(Dec.openLvl n c1).2, [.arr (Dec.openLvl n c1).1],
    none, v.tags⟩) rfl r0 (by rw [he0])
  rw [Dec.enterBstrWrapped_intro (s := v.prot) rfl f0 (by rw [he0]) (by rw [he0])
    (by simp [Dec.room, maxDecNesting])]
  simp only
  -- the protected header
  have hprot : ∃ t c, parseProtected cfg P (wrapOut junk.prot (some (some v.prot)))
      ⟨⟨⟨v.prot.off, v.prot.bytes⟩, [.wrap e0.cur, .arr (Dec.openLvl n c1).1], none, []⟩,
        Params.clear, LabelList.clear, LabelList.clear⟩ =
      (.ok (), ⟨⟨c, [.wrap e0.cur, .arr (Dec.openLvl n c1).1], none, t⟩, p1, crit1, unk1⟩) := by
    unfold parseProtected
    have hlen0 : (wrapOut junk.prot (some (some v.prot))).ub.len = v.prot.bytes.length := rfl
    rw [hlen0]
    rcases hip with ⟨hb, hes⟩ | ⟨hb, it, k, c3, c4, hent, hvk, hie, helk⟩
    · rw [hes] at hho0
      obtain ⟨rfl, rfl, rfl⟩ := headerOk_nil.mp hho0
      refine ⟨[], ⟨v.prot.off, v.prot.bytes⟩, ?_⟩
      rw [if_neg (by simp [hb])]
    · rw [if_pos (by simp [hb])]
      obtain ⟨t, ht⟩ := parseHeader_intro (cfg := cfg) (P := P) (prot := true)
        (st := ⟨⟨⟨v.prot.off, v.prot.bytes⟩, [.wrap e0.cur, .arr (Dec.openLvl n c1).1], none, []⟩,
          Params.clear, LabelList.clear, LabelList.clear⟩) rfl
        (by simp [Dec.room, maxDecNesting]) (Dec.fetch_ok.mpr ⟨rfl, hb, hie, none, hent⟩) hvk
        helk hho0
      exact ⟨t, c4, ht⟩
  obtain ⟨t, c, hprot⟩ := hprot
  rw [hprot]
  simp only
  have hexit : (Dec.mk c [.wrap e0.cur, .arr (Dec.openLvl n c1).1] none t).exitBstrWrapped =
      ⟨(stepLeft (Dec.openLvl n c1).1 e0.cur).2, [.arr (stepLeft (Dec.openLvl n c1).1 e0.cur).1],
        none, t⟩ := by
    unfold Dec.exitBstrWrapped
    simp only [Option.isSome_none, Bool.false_eq_true, if_false, done_eq]
  rw [hexit]
  -- the unprotected header
  have f1 := Dec.fetch_rem (P := P) (d := ⟨(stepLeft (Dec.openLvl n c1).1 e0.cur).2,
    [.arr (stepLeft (Dec.openLvl n c1).1 e0.cur).1], none, t⟩) rfl r1 he1
  obtain ⟨t2, h2⟩ := parseHeader_intro (cfg := cfg) (P := P) (prot := false)
    (st := ⟨⟨(stepLeft (Dec.openLvl n c1).1 e0.cur).2,
      [.arr (stepLeft (Dec.openLvl n c1).1 e0.cur).1], none, t⟩, p1, crit1, unk1⟩) rfl
    (by simp [Dec.room, maxDecNesting]) f1 hm1 hel1 hho1
  rw [h2]
  simp only [done_eq]
  -- the payload
  have f2 := fun tt => Dec.fetch_rem (P := P) (d := ⟨_, [.arr _], none, tt⟩) rfl r2 (by rw [he2])
  generalize hl2 : stepLeft (stepLeft (Dec.openLvl n c1).1 e0.cur).1 cE1 = l2 at r2 r3 r4 f2 ⊢
  have hpl : ∀ tt, ∃ t3, takePayload P ⟨l2.2, [.arr l2.1], none, tt⟩ pay junk.payload =
      .ok (⟨(stepLeft l2.1 e2.cur).2, [.arr (stepLeft l2.1 e2.cur).1], none, t3⟩, x.payload) := by
    intro tt
    unfold takePayload
    cases pay with
    | inline w =>
      obtain ⟨s, hs, ht, hb⟩ := hpay
      refine ⟨[], ?_⟩
      simp only
      rw [Dec.getByteString_intro (s := s) rfl (f2 tt) (by rw [he2]; exact hs)
        (by rw [he2]; exact ht)]
      simp only [done_eq, hb]
      rfl
    | detached p =>
      obtain ⟨hs, hb⟩ := hpay
      refine ⟨v.payloadTags, ?_⟩
      simp only
      rw [Dec.getNext_intro (f2 tt), he2]
      simp only [hs, if_true, done_eq, hb]
  obtain ⟨t3, h3⟩ := hpl t2
  rw [h3]
  simp only
  -- the signature
  have f3 := Dec.fetch_rem (P := P) (d := ⟨_, [.arr _], none, t3⟩) rfl r3 (by rw [he3])
  rw [Dec.getByteString_intro (s := v.sig) rfl f3 (by rw [he3]) (by rw [he3])]
  simp only [done_eq]
  rw [Dec.exitArray_intro (ls := []) rfl rfl r4]
  have hfin : ∀ a b c, (({ cur := a, lvls := [], err := none, tags := b } : Dec).done c).finish =
      if !c.rest.isEmpty then some .extraBytes else none := by
    intros; rfl
  refine ⟨⟨⟨l2.2, [.arr l2.1], none, t2⟩, x.params, x.crit, x.unk⟩, ?_⟩
  simp only [hfin, hend]
  simp only [List.isEmpty_nil, Bool.not_true, Bool.false_eq_true, if_false, decodeErr,
    Prod.mk.injEq, Except.ok.injEq, and_true]
  obtain ⟨a, b, c, d, e, f⟩ := x
  simp only at hxp hxs
  subst hxp hxs
  rfl

end TCose
