import Verif.Lemmas.HeaderMeaning
import Verif.Lemmas.OptionBits

/-!
# `t_cose_sign1_verify_internal` in terms of the view of the message
-/

namespace TCose
open Spec

/-! ## Tags -/

theorem nextTagged_tags_le (P : QParams) : ∀ (n : Nat) (c : Cur) (tags : List Nat) (over : Bool)
    (it : Itm) (c1 : Cur), tags.length ≤ P.maxTags →
    nextTagged P n c tags over = (.ok it, c1) → it.tags.length ≤ P.maxTags
  | 0, c, tags, over, it, c1, _, h => by simp [nextTagged] at h
  | n + 1, c, tags, over, it, c1, hl, h => by
    unfold nextTagged at h
    generalize hx : decodeAtom c = x at h
    obtain ⟨r, c'⟩ := x
    cases r with
    | error e =>
      simp only at h
      split at h
      · simp at h
      · simp only [Prod.mk.injEq, Except.ok.injEq] at h
        rw [← h.1]; exact hl
    | ok a =>
      cases a with
      | tag t =>
        simp only at h
        split at h
        · rename_i hlt
          exact nextTagged_tags_le P n c' _ over it c1 (by simp; omega) h
        · exact nextTagged_tags_le P n c' _ true it c1 hl h
      | val v =>
        simp only [Prod.mk.injEq, Except.ok.injEq] at h
        rw [← h.1]; exact hl

theorem nextItem_tags_le {P : QParams} {c c1 : Cur} {it : Itm}
    (h : nextItem P c = (.ok it, c1)) : it.tags.length ≤ P.maxTags := by
  unfold nextItem at h
  generalize hx : nextRaw P c = x at h
  obtain ⟨r, c'⟩ := x
  cases r with
  | error e => simp at h
  | ok it0 =>
    simp only [Prod.mk.injEq, Except.ok.injEq] at h
    rw [← h.1, tagContent_tags]
    exact nextTagged_tags_le P _ _ _ _ _ _ (Nat.zero_le _) hx

theorem entry_tags_le {P : QParams} {m : Bool} {c c1 : Cur} {l : Option Val} {it : Itm}
    (h : entry P m c = (.ok (l, it), c1)) : it.tags.length ≤ P.maxTags := by
  cases m with
  | false =>
    unfold entry at h
    simp only [Bool.false_eq_true, if_false] at h
    generalize hx : nextItem P c = x at h
    obtain ⟨r, c'⟩ := x
    cases r with
    | error e => simp at h
    | ok v =>
      simp only at h
      split at h
      · simp at h
      · simp only [Prod.mk.injEq, Except.ok.injEq] at h
        rw [← h.1.2]; exact nextItem_tags_le hx
  | true =>
    unfold entry at h
    simp only [if_true] at h
    generalize hx : nextRaw P c = x at h
    obtain ⟨r, c'⟩ := x
    cases r with
    | error e => simp at h
    | ok lb =>
      simp only at h
      cases hle : lb.err with
      | some e =>
        rw [hle] at h
        simp only [Prod.mk.injEq, Except.ok.injEq] at h
        rw [← h.1.2]; exact Nat.zero_le _
      | none =>
        rw [hle] at h
        simp only at h
        by_cases hbrk : lb.val = .brk
        · rw [if_pos hbrk] at h; cases h
        rw [if_neg hbrk] at h
        generalize hy : nextItem P c' = y at h
        obtain ⟨r, c''⟩ := y
        cases r with
        | error e => simp at h
        | ok v =>
          simp only at h
          split at h
          · split at h
            · simp at h
            · simp only [Prod.mk.injEq, Except.ok.injEq] at h
              rw [← h.1.2]; exact nextItem_tags_le hy
          · simp at h

/-- The array of returned tags: `l` and then the invalid tag. -/
def padTags (l : List Nat) : List Nat := l ++ List.replicate (maxTagsToReturn - l.length) tagInvalid

/-- What the tag policy asks of the tags of a message, innermost first. -/
def TagPolicy (flags : Nat) (tags : List Nat) : Prop :=
  (Spec.Opt.tagRequired flags = true → tags.head? = some 18) ∧
  (Spec.Opt.tagProhibited flags = true → tags.head? ≠ some 18)

/-- The tags left for the caller. -/
def restTags : List Nat → List Nat
  | [] => []
  | t :: ts =>
    if t = 18 then ts.takeWhile (· != tagInvalid) else t :: ts.takeWhile (· != tagInvalid)

theorem nthTag_eq {P : QParams} {d : Dec} (he : d.err = none) (hl : d.tags.length ≤ P.maxTags)
    (n : Nat) : d.nthTag P n = d.tags.getD n tagInvalid := by
  unfold Dec.nthTag
  rw [he]
  simp only [Option.isSome_none, Bool.false_eq_true, if_false]
  by_cases h : n ≥ P.maxTags
  · rw [if_pos h, List.getD_eq_getElem?_getD, List.getElem?_eq_none (by omega)]
    rfl
  · rw [if_neg h]; rfl

theorem tagLoop_pad {P : QParams} {d : Dec} (he : d.err = none) (hl : d.tags.length ≤ P.maxTags)
    (hP : P.maxTags ≤ maxTagsToReturn) : ∀ (fuel i : Nat) (l : List Nat),
    P.maxTags + 1 ≤ fuel + i → i ≤ P.maxTags → l.length ≤ i →
    tagLoop P d (fuel + 1) i l.length (padTags l) =
      (.ok (), padTags (l ++ (d.tags.drop i).takeWhile (· != tagInvalid)), false)
  | fuel, i, l, hf, hi, hli => by
    have hn := nthTag_eq he hl i
    by_cases hlt : i < d.tags.length
    · have hget : d.tags.getD i tagInvalid = d.tags[i] := by
        rw [List.getD_eq_getElem?_getD, List.getElem?_eq_getElem hlt]; rfl
      rw [hget] at hn
      have hdrop : d.tags.drop i = d.tags[i] :: d.tags.drop (i + 1) := List.drop_eq_getElem_cons hlt
      unfold tagLoop
      rw [hn]
      by_cases hinv : d.tags[i] = tagInvalid
      · rw [if_pos hinv, hdrop, List.takeWhile_cons]
        simp [hinv]
      · simp only
        have h4 : l.length < maxTagsToReturn := by omega
        rw [if_neg hinv, if_neg (by omega), if_pos (by simp [padTags]; omega)]
        cases fuel with
        | zero => omega
        | succ f =>
          have hset : (padTags l).set l.length d.tags[i] = padTags (l ++ [d.tags[i]]) := by
            unfold padTags
            rw [List.set_append_right _ _ (Nat.le_refl _)]
            have hr : maxTagsToReturn - l.length = (maxTagsToReturn - (l.length + 1)) + 1 := by omega
            simp only [Nat.sub_self, List.append_assoc, List.length_append, List.length_singleton]
            rw [hr, List.replicate_succ]
            rfl
          rw [hset]
          have := tagLoop_pad he hl hP f (i + 1) (l ++ [d.tags[i]]) (by omega) (by omega)
            (by simp; omega)
          simp only [List.length_append, List.length_singleton] at this
          rw [this, hdrop, List.takeWhile_cons]
          simp [hinv]
    · have hget : d.tags.getD i tagInvalid = tagInvalid := by
        rw [List.getD_eq_getElem?_getD, List.getElem?_eq_none (by omega)]; rfl
      rw [hget] at hn
      unfold tagLoop
      rw [hn, if_pos rfl, List.drop_eq_nil_of_le (by omega)]
      simp

/-- `process_tags` in one line. -/
theorem processTags_eq {P : QParams} {d : Dec} {me : VerifyCtx} (he : d.err = none)
    (hl : d.tags.length ≤ P.maxTags) (hP : P.maxTags ≤ maxTagsToReturn) :
    (TagPolicy me.flags d.tags ∧
      processTags P me d = (.ok (), { me with auTags := padTags (restTags d.tags) }, false)) ∨
    (¬ TagPolicy me.flags d.tags ∧ processTags P me d = (.error .incorrectlyTagged, me, false)) := by
  have h0 := nthTag_eq he hl 0
  have hinv : tagInvalid ≠ 18 := by decide
  have key : d.nthTag P 0 = 18 ↔ d.tags.head? = some 18 := by
    rw [h0]
    cases d.tags with
    | nil => simp [hinv]
    | cons t ts => simp
  unfold processTags
  simp only
  by_cases h1 : hasFlag me.flags optTagRequired = true ∧ d.nthTag P 0 ≠ 18
  · right
    rw [if_pos h1]
    exact ⟨fun hp => h1.2 (key.mpr (hp.1 h1.1)), rfl⟩
  · rw [if_neg h1]
    by_cases h2 : hasFlag me.flags optTagProhibited = true ∧ d.nthTag P 0 = 18
    · right
      rw [if_pos h2]
      exact ⟨fun hp => hp.2 h2.1 (key.mp h2.2), rfl⟩
    · left
      rw [if_neg h2]
      refine ⟨⟨fun hf => key.mp (Classical.byContradiction fun hc => h1 ⟨hf, hc⟩),
        fun hf hc => h2 ⟨hf, key.mpr hc⟩⟩, ?_⟩
      by_cases h18 : d.nthTag P 0 = 18
      · have hh := key.mp h18
        cases hts : d.tags with
        | nil => rw [hts] at hh; cases hh
        | cons t ts =>
          rw [hts] at hh
          simp only [List.head?_cons, Option.some.injEq] at hh
          have hm : 1 ≤ P.maxTags := by rw [hts] at hl; simp at hl; omega
          have := tagLoop_pad he hl hP P.maxTags 1 [] (by omega) hm (by simp)
          simp only [List.length_nil, padTags, List.nil_append, Nat.sub_zero] at this
          rw [if_neg (by simp [h18])]
          simp only
          rw [this, hts]
          simp [restTags, hh, padTags]
      · have hnh : d.tags.head? ≠ some 18 := fun hc => h18 (key.mpr hc)
        rw [if_pos h18]
        simp only
        cases hts : d.tags with
        | nil =>
          have hn0 : d.nthTag P 0 = tagInvalid := by rw [h0, hts]; rfl
          have hn1 : d.nthTag P 1 = tagInvalid := by rw [nthTag_eq he hl, hts]; rfl
          rw [hn0]
          unfold tagLoop
          rw [hn1]
          simp [restTags, padTags, maxTagsToReturn]
        | cons t ts =>
          rw [hts] at hnh
          simp only [List.head?_cons, ne_eq, Option.some.injEq] at hnh
          have hn0 : d.nthTag P 0 = t := by rw [h0, hts]; rfl
          have hm : 1 ≤ P.maxTags := by rw [hts] at hl; simp at hl; omega
          have := tagLoop_pad he hl hP P.maxTags 1 [t] (by omega) hm (by simp)
          have hp : (List.replicate maxTagsToReturn tagInvalid).set 0 t = padTags [t] := rfl
          rw [hn0, hp]
          simp only [List.length_singleton] at this
          rw [this, hts]
          simp [restTags, hnh]

/-! ## The view is determined by the message -/

theorem Spec.IsProtected.unique {P : QParams} {s : Str} {es es' : List Entry}
    (h : IsProtected P s es) (h' : IsProtected P s es') : es = es' := by
  rcases h with ⟨h1, rfl⟩ | ⟨h1, it, k, c3, c4, ha, hb, -, hc⟩ <;>
  rcases h' with ⟨h1', rfl⟩ | ⟨h1', it', k', c3', c4', ha', hb', -, hc'⟩
  · rfl
  · exact absurd h1 h1'
  · exact absurd h1' h1
  · rw [ha] at ha'
    simp only [Prod.mk.injEq, Except.ok.injEq] at ha'
    obtain ⟨⟨-, rfl⟩, rfl⟩ := ha'
    rw [hb] at hb'
    cases hb'
    rw [hc] at hc'
    simp only [Except.ok.injEq, Prod.mk.injEq] at hc'
    exact hc'.1

theorem Spec.IsView.unique {P : QParams} {msg : Bytes} {v v' : MsgView}
    (h : IsView P msg v) (h' : IsView P msg v') : v = v' := by
  obtain ⟨-, n, c1, e0, e1, e2, e3, cE, m, c2, a1, a2, -, a4, a5, a6, -, a8, a9, a10⟩ := h
  obtain ⟨-, n', c1', e0', e1', e2', e3', cE', m', c2', b1, b2, -, b4, b5, b6, -, b8, b9, b10⟩ := h'
  rw [a1] at b1
  simp only [Prod.mk.injEq, Except.ok.injEq, Itm.mk.injEq, Val.arr.injEq, and_true, true_and] at b1
  obtain ⟨⟨rfl, hts⟩, rfl⟩ := b1
  rw [a2] at b2
  simp only [Except.ok.injEq, Prod.mk.injEq, List.cons.injEq] at b2
  obtain ⟨⟨rfl, rfl, rfl, rfl, hex⟩, rfl⟩ := b2
  rw [a4] at b4
  simp only [Itm.mk.injEq, Val.bstr.injEq, and_true] at b4
  rw [a6] at b6
  cases b6
  rw [a8] at b8
  simp only [Except.ok.injEq, Prod.mk.injEq] at b8
  rw [a9] at b9
  simp only [Itm.mk.injEq, and_true] at b9
  rw [a10] at b10
  simp only [Itm.mk.injEq, Val.bstr.injEq, and_true] at b10
  obtain ⟨tg, pr, pe, ue, py, pt, sg, ex⟩ := v
  obtain ⟨tg', pr', pe', ue', py', pt', sg', ex'⟩ := v'
  simp only at hts hex b4 b8 b9 b10 a5 b5
  obtain ⟨rfl, rfl⟩ := b9
  obtain ⟨rfl, -⟩ := b8
  subst hts hex b4 b10
  rw [a5.unique b5]

theorem HeaderOk.unique {cfg : Config} {P : QParams} {room : Nat} {prot : Bool} {es : List Entry}
    {p p' p'' : Params} {crit unk crit' unk' crit'' unk'' : LabelList}
    (h : HeaderOk cfg P room prot es p crit unk p' crit' unk')
    (h' : HeaderOk cfg P room prot es p crit unk p'' crit'' unk'') :
    p' = p'' ∧ unk' = unk'' := by
  obtain ⟨⟨f, r, a1, a2⟩, -⟩ := h
  obtain ⟨⟨f', r', b1, b2⟩, -⟩ := h'
  rw [a1] at b1
  simp only [Prod.mk.injEq, Except.ok.injEq, CbCtx.mk.injEq] at b1
  obtain ⟨rfl, rfl, -⟩ := b1
  rw [a2] at b2
  cases b2
  exact ⟨rfl, rfl⟩

/-! ## Success -/

theorem Spec.IsView.tags_le {P : QParams} {msg : Bytes} {v : MsgView} (h : IsView P msg v) :
    v.tags.length ≤ P.maxTags := by
  obtain ⟨-, n, c1, e0, e1, e2, e3, cE, m, c2, a1, -⟩ := h
  exact entry_tags_le (it := ⟨.arr n, v.tags, none⟩) a1

/-- The context in which the signature is checked. -/
def VerifyCtx.withTags (me : VerifyCtx) (v : MsgView) : VerifyCtx :=
  { me with auTags := padTags (restTags v.tags) }

/-- Everything a successful verification is. -/
structure Accepts (cfg : Config) (P : QParams) (C : Crypto) (me : VerifyCtx) (msg : Bytes)
    (aad : UB) (pay : VPayload) (v : MsgView) (x : Decoded) (me' : VerifyCtx) (ub : Bool) :
    Prop where
  view : IsView P msg v
  policy : TagPolicy me.flags v.tags
  decodes : DecodesTo cfg P v pay x
  check : checkDecoded cfg C (me.withTags v) aad x = (.ok (), me', ub)

theorem verify_ok {cfg : Config} {P : QParams} {C : Crypto} {junk : Junk} {me : VerifyCtx}
    {msg : Bytes} {aad : UB} {pay : VPayload} {want : Bool} (hP : P.maxTags ≤ maxTagsToReturn)
    (h : (verifyInternal cfg P C junk me msg aad pay want).res = .ok ()) :
    ∃ v x me' ub, Accepts cfg P C me msg aad pay v x me' ub ∧
      verifyInternal cfg P C junk me msg aad pay want =
        { res := .ok (), ctx := me', params := if want then some x.params else none,
          payload := if pay = .inline true then some x.payload else none,
          ub := x.crit.ub || x.unk.ub || ub } := by
  unfold verifyInternal at h ⊢
  simp only at h ⊢
  cases hd : decodeErr ((Dec.init msg).enterArray P).err with
  | error e => rw [hd] at h; simp [VRes.fail] at h
  | ok u =>
    rw [hd] at h
    simp only at h ⊢
    have he := decodeErr_ok.mp hd
    obtain ⟨hlen, n, c1, tags, hen, hda⟩ := enterArray_msg rfl he
    have htl : ((Dec.init msg).enterArray P).tags.length ≤ P.maxTags := by
      rw [hda]; exact entry_tags_le hen
    rcases processTags_eq (me := me) he htl hP with ⟨hpol, hpt⟩ | ⟨-, hpt⟩
    · rw [hpt] at h ⊢
      simp only at h ⊢
      generalize hb : decodeBody cfg P ((Dec.init msg).enterArray P) pay junk = b at h ⊢
      obtain ⟨r, st⟩ := b
      cases r with
      | error e => simp [VRes.fail] at h
      | ok x =>
        simp only at h ⊢
        obtain ⟨v, hv, hvt, hdec⟩ := decodeBody_ok he hb
        have hme : { me with auTags := padTags (restTags ((Dec.init msg).enterArray P).tags) }
            = me.withTags v := by rw [hvt]; rfl
        rw [hme] at h ⊢
        generalize hc : checkDecoded cfg C (me.withTags v) aad x = k at h ⊢
        obtain ⟨r, me', ub⟩ := k
        cases r with
        | error e => simp [VRes.fail] at h
        | ok u =>
          refine ⟨v, x, me', ub, ⟨hv, by rw [← hvt]; exact hpol, hdec, hc⟩, ?_⟩
          simp
    · rw [hpt] at h
      simp [VRes.fail] at h

theorem verify_intro {cfg : Config} {P : QParams} {C : Crypto} {me : VerifyCtx}
    {msg : Bytes} {aad : UB} {pay : VPayload} {v : MsgView} {x : Decoded} {me' : VerifyCtx}
    {ub : Bool} (hP : P.maxTags ≤ maxTagsToReturn)
    (h : Accepts cfg P C me msg aad pay v x me' ub) (junk : Junk) (want : Bool) :
    verifyInternal cfg P C junk me msg aad pay want =
        { res := .ok (), ctx := me', params := if want then some x.params else none,
          payload := if pay = .inline true then some x.payload else none,
          ub := x.crit.ub || x.unk.ub || ub } := by
  obtain ⟨hv, hpol, hdec, hc⟩ := h
  obtain ⟨he, hvt, st, hb⟩ := decodeBody_intro (junk := junk) hv hdec
  have htl : ((Dec.init msg).enterArray P).tags.length ≤ P.maxTags := by
    rw [hvt]; exact hv.tags_le
  unfold verifyInternal
  simp only
  rw [decodeErr_ok.mpr he]
  simp only
  rcases processTags_eq (me := me) he htl hP with ⟨-, hpt⟩ | ⟨hnp, -⟩
  · rw [hpt]
    simp only
    rw [hb]
    simp only
    have hme : { me with auTags := padTags (restTags ((Dec.init msg).enterArray P).tags) }
        = me.withTags v := by rw [hvt]; rfl
    rw [hme, hc]
    simp
  · rw [hvt] at hnp
    exact absurd hpol hnp

end TCose
