import Verif.Props.EachOption
import Verif.Props.WholeEffect
import Verif.Lemmas.Fuel

/-!
# C100: a tag in front of a message

For every octet string: what one more tag in front changes in verification.  The signature
covers no tag, so any tag can be put there by anyone.

Simplified as the decoder model is: QCBOR treats the tags 4, 5, 264 and 265 on an array specially, and has only four places
for tag numbers above 65529 (DESIGN.md, trusted base).
-/

namespace TCose.Props
open TCose Spec

section
variable {P : QParams}

theorem arrayOf_ok {x : Item} {xs : List Item} (h : arrayOf P x = .ok xs) :
    x.bare = .arr xs ∧ x.tagList.length ≤ P.maxTags := by
  unfold arrayOf at h
  split at h
  · rename_i ys hu
    cases h
    unfold Item.untag at hu
    split at hu
    · cases hu
    split at hu
    · cases hu
    split at hu
    · rename_i h0
      subst hu
      exact ⟨rfl, by simp [Item.tagList]⟩
    split at hu
    · cases hu
    rename_i hle
    split at hu
    · rename_i hb
      cases hu
      exact ⟨hb, by omega⟩
    · cases hu
    · split at hu
      · rename_i hna _ _ _
        exact absurd hu (hna _)
      · cases hu
      · cases hu
  · cases h

theorem arrayOf_arr {x : Item} {xs : List Item} (hb : x.bare = .arr xs) (hl : x.tagList.length ≤ P.maxTags) :
    arrayOf P x = .ok xs := by
  unfold arrayOf Item.untag
  rw [hb]
  rw [if_neg (by simp [Item.isNot]), if_neg (by simp [Item.tooLow])]
  by_cases h0 : x.tagList = []
  · rw [if_pos h0]
    cases x <;> simp_all [Item.bare, Item.tagList]
  · rw [if_neg h0, if_neg (by omega)]

theorem arrayOf_error {x : Item} {e : Err} (h : arrayOf P x = .error e) : e = typeFault P x := by
  unfold arrayOf at h
  split at h
  · cases h
  · cases h; rfl

/-- One more tag on an item that is an array. -/
theorem arrayOf_tag {n : Nat} {x : Item} {xs : List Item} (h : arrayOf P x = .ok xs) :
    arrayOf P (.tag n x) = if x.tagList.length < P.maxTags then .ok xs else .error .tooManyTags := by
  obtain ⟨hb, hl⟩ := arrayOf_ok h
  have hb' : (Item.tag n x).bare = .arr xs := hb
  by_cases hlt : x.tagList.length < P.maxTags
  · rw [if_pos hlt]
    exact arrayOf_arr hb' (by simp [Item.tagList]; omega)
  · rw [if_neg hlt]
    cases e : arrayOf P (.tag n x) with
    | ok ys => have := (arrayOf_ok e).2; simp [Item.tagList] at this; omega
    | error e' =>
      rw [arrayOf_error e]
      unfold typeFault
      rw [hb', if_neg (by simp [Item.isNot]), if_pos ⟨by simp [Item.tooLow], by simp [Item.tagList]; omega⟩]

/-- One more tag on an item that is no array. -/
theorem arrayOf_tag_error {n : Nat} {x : Item} {e : Err} (h : arrayOf P x = .error e) :
    arrayOf P (.tag n x) = .error e ∨ arrayOf P (.tag n x) = .error .tooManyTags := by
  have he := arrayOf_error h
  cases e' : arrayOf P (.tag n x) with
  | ok ys =>
    obtain ⟨hb, hl⟩ := arrayOf_ok e'
    rw [arrayOf_arr (x := x) hb (by simp [Item.tagList] at hl; omega)] at h
    cases h
  | error y =>
    rw [arrayOf_error e', he]
    have hb : (Item.tag n x).bare = x.bare := rfl
    unfold typeFault
    rw [hb]
    by_cases h1 : x.bare.isNot = true
    · rw [if_pos h1, if_pos h1]; exact .inl rfl
    rw [if_neg h1, if_neg h1]
    by_cases h2 : x.bare.tooLow = false ∧ P.maxTags < (Item.tag n x).tagList.length
    · rw [if_pos h2]; exact .inr rfl
    · rw [if_neg h2, if_neg]
      · exact .inl rfl
      · intro ⟨h3, h4⟩
        exact h2 ⟨h3, by simp [Item.tagList]; omega⟩

variable {n : Nat} {hd msg : Bytes}

theorem readItem_tag (hh : HeadOf 6 n hd) (t d : Nat) :
    readItem t d (hd ++ msg) = (readItem t d msg).map fun s => (.tag n s.1, s.2) := by
  obtain ⟨ai, ha, e⟩ := headAt_of hh (by omega) msg
  have hl := rest_lt e
  unfold readItem
  obtain ⟨f, hf⟩ : ∃ f, (hd ++ msg).length = f + 1 := ⟨(hd ++ msg).length - 1, by omega⟩
  rw [hf, parse, e]
  have hn : (Hd.mk 6 ai n msg).notCbor = false := by
    unfold Hd.notCbor
    simp
    omega
  simp only [hn, Bool.false_eq_true, if_false]
  rw [parse_more (f := f) (g := msg.length) (by simp only at hl; omega) (Nat.le_refl _)]
  simp

theorem tagsAt_tag (hh : HeadOf 6 n hd) :
    (tagsAt (hd ++ msg).length (hd ++ msg)).2 = (tagsAt msg.length msg).2 := by
  obtain ⟨ai, ha, e⟩ := headAt_of hh (by omega) msg
  have hl := rest_lt e
  obtain ⟨f, hf⟩ : ∃ f, (hd ++ msg).length = f + 1 := ⟨(hd ++ msg).length - 1, by omega⟩
  rw [hf, tagsAt, e]
  simp only [true_and, if_pos ha]
  rw [tagsAt_more f msg.length msg (by simp only at hl; omega) (Nat.le_refl _)]

theorem tagNums_tag (hh : HeadOf 6 n hd) :
    tagNums (hd ++ msg).length (hd ++ msg) = n :: tagNums msg.length msg := by
  obtain ⟨ai, ha, e⟩ := headAt_of hh (by omega) msg
  have hl := rest_lt e
  obtain ⟨f, hf⟩ : ∃ f, (hd ++ msg).length = f + 1 := ⟨(hd ++ msg).length - 1, by omega⟩
  rw [hf, tagNums, e]
  simp only [true_and, if_pos ha]
  rw [tagNums_more f msg.length msg (by simp only at hl; omega) (Nat.le_refl _)]

/-- What is at the front, with one more tag. -/
theorem faultAt_tag (hh : HeadOf 6 n hd) (hm : msg ≠ []) (hr : readItem P.maxTags 15 msg = none) :
    faultAt (hd ++ msg) = match faultAt msg with
      | .stop s => .stop s
      | .open_ x => .open_ (.tag n x) := by
  have h0 : hd ++ msg ≠ [] := by simp [hm]
  unfold faultAt
  rw [if_neg h0, if_neg hm]
  have hi : itemStop (hd ++ msg).length (hd ++ msg) = itemStop msg.length msg := by
    unfold itemStop
    rw [tagsAt_tag hh]
  rw [hi]
  cases his : itemStop msg.length msg with
  | some s => rfl
  | none =>
    obtain ⟨h, hb⟩ := open_box _ _ (Nat.le_refl _) hr his
    simp only
    unfold emptyAt
    rw [tagsAt_tag hh, hb.head, tagNums_tag hh]
    rfl

/-- The message, with one more tag. -/
theorem messageAt_tag (hh : HeadOf 6 n hd) (hm : msg ≠ []) :
    match messageAt P msg with
    | .error e => messageAt P (hd ++ msg) = .error e ∨ messageAt P (hd ++ msg) = .error .tooManyTags
    | .ok (ts, q) => messageAt P (hd ++ msg) =
        if ts.length < P.maxTags then .ok (n :: ts, q) else .error .tooManyTags := by
  unfold messageAt
  rw [readItem_tag hh]
  cases hr : readItem P.maxTags 15 msg with
  | some q =>
    obtain ⟨x, r⟩ := q
    simp only [Option.map_some]
    cases hx : arrayOf P x with
    | error e =>
      rcases arrayOf_tag_error (n := n) hx with h | h
      · rw [h]; exact .inl rfl
      · rw [h]; exact .inr rfl
    | ok xs =>
      simp only
      rw [arrayOf_tag hx]
      by_cases hlt : x.tagList.length < P.maxTags
      · rw [if_pos hlt, if_pos hlt]; rfl
      · rw [if_neg hlt, if_neg hlt]
  | none =>
    simp only [Option.map_none]
    rw [faultAt_tag hh hm hr]
    cases hf : faultAt msg with
    | stop s => exact .inl rfl
    | open_ x =>
      simp only
      cases hx : arrayOf P x with
      | error e =>
        rcases arrayOf_tag_error (n := n) hx with h | h
        · rw [h]; exact .inl rfl
        · rw [h]; exact .inr rfl
      | ok xs =>
        simp only
        rw [arrayOf_tag hx]
        by_cases hlt : x.tagList.length < P.maxTags
        · rw [if_pos hlt, if_pos hlt]
          obtain ⟨ai, ha, e⟩ := headAt_of hh (by omega) msg
          have hl := rest_lt e
          simp only at hl
          have hc : contentAt (hd ++ msg).length (hd ++ msg) = contentAt msg.length msg := by
            unfold contentAt
            rw [tagsAt_tag hh]
          have hcl : (contentAt msg.length msg).length ≤ msg.length := by
            have := tagsAt_length msg.length msg
            unfold contentAt
            split
            · simp
            · rename_i h' e'
              have := rest_lt e'
              omega
          simp only
          rw [hc, front_more (n := msg.length) (p := parse P.maxTags (hd ++ msg).length 14)
            (q := parse P.maxTags msg.length 14) (fun b hb => parse_more (by omega) (by omega))
            (fun b x r h => parse_shorter h) ((hd ++ msg).length + 1) (msg.length + 1) _ hcl (by omega) (by omega)]
          have := front_length (q := parse P.maxTags msg.length 14) (fun b x r h => parse_shorter h)
            (msg.length + 1) (contentAt msg.length msg)
          unfold stopOr
          rw [stopItem_more (hd ++ msg).length msg.length 14 _ (by omega) (by omega)]
          rfl
        · rw [if_neg hlt, if_neg hlt]

end

variable {cfg : Config} {P : QParams} {C : Crypto} {junk : Junk} {me : VerifyCtx} {n : Nat} {hd msg : Bytes}
  {aad : UB} {pay : VPayload} {want : Bool} {f : Nat}

/-- **C100 (one more tag).** The octets begin with an array, complete or not, that has fewer tags than a decoder
takes.  Then one more tag in front, whatever its number and however it is encoded, changes nothing, not
even the error code; unless an option asks about the innermost tag and there was none before. -/
theorem C100_one_more (hP : P.maxTags ≤ 4) (hl : P.Local) (hargs : ArgsOk aad pay) (hh : HeadOf 6 n hd)
    (hm : msg ≠ []) (hlen : (hd ++ msg).length ≤ maxMessage) {ts : List Nat} (hts : arrayTags P msg = some ts)
    (hlt : ts.length < P.maxTags)
    (hopt : ts ≠ [] ∨ (VOption.tagRequired.on f = false ∧ VOption.tagProhibited.on f = false)) :
    resultWith cfg P C junk me (hd ++ msg) aad pay want f = resultWith cfg P C junk me msg aad pay want f := by
  have hlen' : msg.length ≤ maxMessage := by simp at hlen; omega
  rw [resultWith_eq hP hl hargs, resultWith_eq hP hl hargs]
  unfold verifyAll
  rw [if_neg (by omega), if_neg (by omega)]
  unfold arrayTags at hts
  rw [if_neg (by omega)] at hts
  have key := messageAt_tag (P := P) hh hm
  cases hma : messageAt P msg with
  | error e => rw [hma] at hts; cases hts
  | ok q =>
    obtain ⟨us, xs, last, fin⟩ := q
    rw [hma] at hts key
    simp only at hts key
    cases hts
    rw [List.length_reverse] at hlt
    rw [key, if_pos hlt]
    simp only
    have hpol : TagPolicy f (n :: us).reverse ↔ TagPolicy f us.reverse := by
      unfold TagPolicy
      rcases hopt with h | ⟨h1, h2⟩
      · rw [List.reverse_cons]
        cases e : us.reverse with
        | nil => exact absurd e h
        | cons a as => rfl
      · rw [show Opt.tagRequired f = false from h1, show Opt.tagProhibited f = false from h2]
        simp
    by_cases hp : TagPolicy f us.reverse
    · rw [if_neg (not_not_intro hp), if_neg (not_not_intro (hpol.mpr hp))]
    · rw [if_pos hp, if_pos (fun h => hp (hpol.mp h))]

/-- **C100 (one too many).** If the array has all the tags already that a decoder takes, one more is refused with the
error code for that, whatever else is right or wrong with the message. -/
theorem C100_too_many (hP : P.maxTags ≤ 4) (hl : P.Local) (hargs : ArgsOk aad pay) (hh : HeadOf 6 n hd)
    (hm : msg ≠ []) (hlen : (hd ++ msg).length ≤ maxMessage) {ts : List Nat} (hts : arrayTags P msg = some ts)
    (hle : P.maxTags ≤ ts.length) :
    resultWith cfg P C junk me (hd ++ msg) aad pay want f = .error .tooManyTags := by
  have hlen' : msg.length ≤ maxMessage := by simp at hlen; omega
  rw [resultWith_eq hP hl hargs]
  unfold verifyAll
  rw [if_neg (by omega)]
  unfold arrayTags at hts
  rw [if_neg (by omega)] at hts
  have key := messageAt_tag (P := P) hh hm
  cases hma : messageAt P msg with
  | error e => rw [hma] at hts; cases hts
  | ok q =>
    obtain ⟨us, xs, last, fin⟩ := q
    rw [hma] at hts key
    simp only at hts key
    cases hts
    rw [List.length_reverse] at hle
    rw [key, if_neg (by omega)]

/-- **C100 (no array).** Octets that begin with no array are refused with one more tag too, for the same reason or
because of the number of tags. -/
theorem C100_no_array (hP : P.maxTags ≤ 4) (hl : P.Local) (hargs : ArgsOk aad pay) (hh : HeadOf 6 n hd)
    (hm : msg ≠ []) (hlen : (hd ++ msg).length ≤ maxMessage) (hts : arrayTags P msg = none) :
    (resultWith cfg P C junk me (hd ++ msg) aad pay want f = resultWith cfg P C junk me msg aad pay want f ∨
     resultWith cfg P C junk me (hd ++ msg) aad pay want f = .error .tooManyTags) ∧
    resultWith cfg P C junk me msg aad pay want f ≠ .ok () := by
  have hlen' : msg.length ≤ maxMessage := by simp at hlen; omega
  rw [resultWith_eq hP hl hargs, resultWith_eq hP hl hargs]
  unfold verifyAll
  rw [if_neg (by omega), if_neg (by omega)]
  unfold arrayTags at hts
  rw [if_neg (by omega)] at hts
  have key := messageAt_tag (P := P) hh hm
  cases hma : messageAt P msg with
  | ok q => rw [hma] at hts; cases hts
  | error e =>
    rw [hma] at key
    simp only at key
    rcases key with h | h
    · rw [h]; exact ⟨.inl rfl, nofun⟩
    · rw [h]; exact ⟨.inr rfl, nofun⟩

/-- The tags with one more in front. -/
theorem arrayTags_tag (hh : HeadOf 6 n hd) (hm : msg ≠ []) (hlen : (hd ++ msg).length ≤ maxMessage) {ts : List Nat}
    (hts : arrayTags P msg = some ts) (hlt : ts.length < P.maxTags) : arrayTags P (hd ++ msg) = some (ts ++ [n]) := by
  have hlen' : msg.length ≤ maxMessage := by simp at hlen; omega
  unfold arrayTags at hts ⊢
  rw [if_neg (by omega)] at hts ⊢
  have key := messageAt_tag (P := P) hh hm
  cases hma : messageAt P msg with
  | error e => rw [hma] at hts; cases hts
  | ok q =>
    obtain ⟨us, xs, last, fin⟩ := q
    rw [hma] at hts key
    simp only at hts key
    cases hts
    rw [List.length_reverse] at hlt
    rw [key, if_pos hlt]
    simp

/-- **C100 (any tags).** The same for any number of tags in front, as long as there are not more in all than a decoder takes. -/
theorem C100_any_tags (hP : P.maxTags ≤ 4) (hl : P.Local) (hargs : ArgsOk aad pay) {us : List Nat}
    (hh : TagHeads us hd) (hm : msg ≠ []) (hlen : (hd ++ msg).length ≤ maxMessage) {ts : List Nat}
    (hts : arrayTags P msg = some ts) (hle : us.length + ts.length ≤ P.maxTags)
    (hopt : ts ≠ [] ∨ (VOption.tagRequired.on f = false ∧ VOption.tagProhibited.on f = false)) :
    resultWith cfg P C junk me (hd ++ msg) aad pay want f = resultWith cfg P C junk me msg aad pay want f ∧
    arrayTags P (hd ++ msg) = some (ts ++ us.reverse) := by
  induction hh with
  | nil => exact ⟨rfl, by simpa using hts⟩
  | @cons u us h hs h1 h2 ih =>
    simp only [List.length_cons] at hle
    rw [List.append_assoc] at hlen ⊢
    obtain ⟨g1, g2⟩ := ih (by simp at hlen ⊢; omega) (by omega)
    have hm' : hs ++ msg ≠ [] := by simp [hm]
    have hlt : (ts ++ us.reverse).length < P.maxTags := by simp; omega
    have hopt' : ts ++ us.reverse ≠ [] ∨ (VOption.tagRequired.on f = false ∧ VOption.tagProhibited.on f = false) := by
      rcases hopt with h | h
      · exact .inl (by simp [h])
      · exact .inr h
    refine ⟨(C100_one_more hP hl hargs h1 hm' hlen g2 hlt hopt').trans g1, ?_⟩
    rw [arrayTags_tag h1 hm' hlen g2 hlt]
    simp

/-- **C100 (the first tag, required).** If the array has no tag, and one is required: with 18 in front the result is
that without the option, with any other tag it is refused as wrongly tagged. -/
theorem C100_first_required (hP : P.maxTags ≤ 4) (h0 : 0 < P.maxTags) (hl : P.Local) (hargs : ArgsOk aad pay)
    (hh : HeadOf 6 n hd) (hm : msg ≠ []) (hlen : (hd ++ msg).length ≤ maxMessage) (hts : arrayTags P msg = some [])
    {f' : Nat} (h : VOption.tagRequired.Added f f') (hp : VOption.tagProhibited.on f = false) :
    resultWith cfg P C junk me (hd ++ msg) aad pay want f' =
      if n = 18 then resultWith cfg P C junk me msg aad pay want f else .error .incorrectlyTagged := by
  rw [C97_tag_required hP hl hargs h, arrayTags_tag hh hm hlen hts h0,
    C100_one_more hP hl hargs hh hm hlen hts h0 (.inr ⟨h.off, hp⟩)]
  simp

/-- **C100 (the first tag, prohibited).** If the array has no tag, and 18 is prohibited: 18 in front makes it refused as
wrongly tagged, any other tag changes nothing. -/
theorem C100_first_prohibited (hP : P.maxTags ≤ 4) (h0 : 0 < P.maxTags) (hl : P.Local) (hargs : ArgsOk aad pay)
    (hh : HeadOf 6 n hd) (hm : msg ≠ []) (hlen : (hd ++ msg).length ≤ maxMessage) (hts : arrayTags P msg = some [])
    {f' : Nat} (h : VOption.tagProhibited.Added f f') (hr : VOption.tagRequired.on f = false) :
    resultWith cfg P C junk me (hd ++ msg) aad pay want f' =
      if n = 18 then .error .incorrectlyTagged else resultWith cfg P C junk me msg aad pay want f' := by
  rw [C97_tag_prohibited hP hl hargs h, C97_tag_prohibited (msg := msg) hP hl hargs h, hts,
    arrayTags_tag hh hm hlen hts h0, C100_one_more hP hl hargs hh hm hlen hts h0 (.inr ⟨hr, h.off⟩)]
  simp

/-- **C100 (accepted).** Whatever is accepted without an option about tags is accepted with any tag in front, while there is
room for one: octets that nobody signed. -/
theorem C100_accepted (hP : P.maxTags ≤ 4) (hl : P.Local) (hargs : ArgsOk aad pay) (hh : HeadOf 6 n hd)
    (hlen : (hd ++ msg).length ≤ maxMessage) (h : resultWith cfg P C junk me msg aad pay want f = .ok ())
    (hroom : ∀ ts, arrayTags P msg = some ts → ts.length < P.maxTags)
    (hr : VOption.tagRequired.on f = false) (hp : VOption.tagProhibited.on f = false) :
    hd ++ msg ≠ msg ∧ resultWith cfg P C junk me (hd ++ msg) aad pay want f = .ok () := by
  have hpos : hd ≠ [] := by cases hh <;> simp
  refine ⟨by simpa using hpos, ?_⟩
  have hm : msg ≠ [] := by
    rintro rfl
    rw [resultWith_eq hP hl hargs] at h
    cases h
  cases hts : arrayTags P msg with
  | none => exact absurd h (C100_no_array hP hl hargs hh hm hlen hts).2
  | some ts => rw [C100_one_more hP hl hargs hh hm hlen hts (hroom ts hts) (.inr ⟨hr, hp⟩)]; exact h

/-- **C100 (what is stored).** One more tag in front also changes nothing of what is stored, but for the tags in the context;
there it is the last, if the message is not refused for its tags. -/
theorem C100_stored (hP : P.maxTags ≤ 4) (hl : P.Local) (hargs : ArgsOk aad pay) (hh : HeadOf 6 n hd)
    (hm : msg ≠ []) (hlen : (hd ++ msg).length ≤ maxMessage) {ts : List Nat} (hts : arrayTags P msg = some ts)
    (hlt : ts.length < P.maxTags)
    (hopt : ts ≠ [] ∨ (VOption.tagRequired.on me.flags = false ∧ VOption.tagProhibited.on me.flags = false)) :
    let before := effectOf (verifyInternal cfg P C junk me msg aad pay want)
    let after := effectOf (verifyInternal cfg P C junk me (hd ++ msg) aad pay want)
    (∃ us, after = { before with ctx := { before.ctx with auTags := us } }) ∧
    (before.res ≠ .error .incorrectlyTagged →
      before.ctx.auTags = tagsLeft ts ∧ after.ctx.auTags = tagsLeft (ts ++ [n])) := by
  have hlen' : msg.length ≤ maxMessage := by simp at hlen; omega
  intro before after
  have hb := (C95_everything cfg P C junk me msg aad pay want hP hl hargs).1
  have ha := (C95_everything cfg P C junk me (hd ++ msg) aad pay want hP hl hargs).1
  change before = _ at hb
  change after = _ at ha
  generalize before = before at hb ⊢
  generalize after = after at ha ⊢
  subst hb ha
  unfold effectAll
  rw [if_neg (by omega), if_neg (by omega)]
  unfold arrayTags at hts
  rw [if_neg (by omega)] at hts
  have key := messageAt_tag (P := P) hh hm
  cases hma : messageAt P msg with
  | error e => rw [hma] at hts; cases hts
  | ok q =>
    obtain ⟨us, xs, last, fin⟩ := q
    rw [hma] at hts key
    simp only at hts key
    cases hts
    rw [List.length_reverse] at hlt
    rw [key, if_pos hlt]
    simp only
    have hpol : TagPolicy me.flags (n :: us).reverse ↔ TagPolicy me.flags us.reverse := by
      unfold TagPolicy
      rcases hopt with h | ⟨h1, h2⟩
      · rw [List.reverse_cons]
        cases e : us.reverse with
        | nil => exact absurd e h
        | cons a as => rfl
      · rw [show Opt.tagRequired me.flags = false from h1, show Opt.tagProhibited me.flags = false from h2]
        simp
    by_cases hp : TagPolicy me.flags us.reverse
    · rw [if_neg (not_not_intro hp), if_neg (not_not_intro (hpol.mpr hp)), List.reverse_cons]
      cases readAll P cfg.disableContentType pay.octets xs last fin with
      | error e => exact ⟨⟨_, rfl⟩, fun _ => ⟨rfl, rfl⟩⟩
      | ok x =>
        simp only
        by_cases hs : SizeStored cfg me x.known (sigStructure x.prot aad.bytes x.payload)
        · rw [if_pos hs, if_pos hs]
          split <;> exact ⟨⟨_, rfl⟩, fun _ => ⟨rfl, rfl⟩⟩
        · rw [if_neg hs, if_neg hs]
          split <;> exact ⟨⟨_, rfl⟩, fun _ => ⟨rfl, rfl⟩⟩
    · rw [if_pos hp, if_pos (fun h => hp (hpol.mp h))]
      exact ⟨⟨_, rfl⟩, fun h => absurd rfl h⟩

/-- A signed message with tag 18: a tag in front in one octet, one in nine, up to four tags; then too many.  And what is cut
off stays so. -/
example :
    let r := fun f m => resultWith Config.full QParams.std toyCrypto noJunk (VerifyCtx.init 0) m .nil (.inline true) true f
    let m := toyMsg true es256Hdr [] [1]
    let long : Bytes := [0xdb, 0, 0, 0, 0, 0, 0, 0, 98]
    HeadOf 6 7 [0xc7] ∧ HeadOf 6 98 long ∧ arrayTags QParams.std m = some [18] ∧
    arrayTags QParams.std (m.take 9) = some [18] ∧
    r 4 m = .ok () ∧ r 4 ([0xc7] ++ m) = .ok () ∧ r 4 (long ++ m) = .ok () ∧
    r 4 ([0xc7] ++ long ++ [0xc7] ++ m) = .ok () ∧
    r 4 ([0xc7, 0xc7] ++ long ++ [0xc7] ++ m) = .error .tooManyTags ∧
    (r 4 (m.take 9)).toOption = none ∧ r 4 (m.take 9) = r 4 ([0xc7] ++ m.take 9) := by
  refine ⟨.direct (by decide), .wide 3 (by decide) (by decide), ?_⟩
  decide +kernel

/-- A message without tag, with the options that look at it; and octets that are no array. -/
example :
    let r := fun f m => resultWith Config.full QParams.std toyCrypto noJunk (VerifyCtx.init 0) m .nil (.inline true) true f
    let m := toyMsg false es256Hdr [] [1]
    arrayTags QParams.std m = some [] ∧
    r 0 m = .ok () ∧ r 4 m = .error .incorrectlyTagged ∧ r 4 ([0xd2] ++ m) = .ok () ∧
    r 4 ([0xd1] ++ m) = .error .incorrectlyTagged ∧
    r 16 m = .ok () ∧ r 16 ([0xd2] ++ m) = .error .incorrectlyTagged ∧ r 16 ([0xd1] ++ m) = .ok () ∧
    arrayTags QParams.std [0x00] = none ∧ r 0 [0x00] = .error .sign1Format ∧ r 0 [0xd1, 0x00] = .error .sign1Format ∧
    r 0 [0xd1, 0xd1, 0xd1, 0xd1, 0xd1, 0x00] = .error .tooManyTags := by
  decide +kernel

end TCose.Props
