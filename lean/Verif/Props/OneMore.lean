import Verif.Spec.OneMore
import Verif.Props.Order

/-!
# C103: one more parameter in the unprotected header

Nobody signs the unprotected header.  What can be achieved by adding a parameter to it?
-/

namespace TCose.Props
open TCose Spec

/-- One label recorded. -/
def record (l : Label) (u : Unknown) : Except Err Unknown :=
  if Label.tooLarge l then .error .parameterCbor
  else match l with
    | .int i => if u.ints.length = 10 then .error .tooManyParameters
      else .ok (if i = 0 then u else { u with ints := u.ints ++ [i] })
    | .text t => if u.texts.length = 10 then .error .tooManyParameters
      else .ok { u with texts := u.texts ++ [t] }

theorem scan_more {l : Label} (hl : Label.unknown l) (v : Item) : ∀ (h : Header) (seen : List Int) (u : Unknown),
    Spec.scan (h ++ [(l, v)]) seen u = match Spec.scan h seen u with
      | .error e => .error e
      | .ok u' => record l u' := by
  intro h
  induction h with
  | nil =>
    intro seen u
    cases l with
    | text t => simp [Spec.scan, record, Label.tooLarge]
    | int i =>
      simp only [Label.unknown] at hl
      simp only [List.nil_append, Spec.scan, record, Label.tooLarge, decide_eq_true_eq]
      rw [if_neg (by omega), if_neg (by omega)]
  | cons p r ih =>
    obtain ⟨l', x⟩ := p
    intro seen u
    cases l' with
    | text t =>
      simp only [List.cons_append, Spec.scan, ih]
      split <;> rfl
    | int i =>
      simp only [List.cons_append, Spec.scan, ih]
      split
      · split <;> rfl
      split
      · rfl
      split
      · rfl
      split
      · rfl
      rfl

theorem get_more {l : Label} (hl : Label.unknown l) (v : Item) (h : Header) {i : Int} (hi : 1 ≤ i ∧ i ≤ 6) :
    Header.get (h ++ [(l, v)]) i = Header.get h i := by
  have hn : l ≠ Label.int i := by
    rintro rfl
    exact hl hi
  unfold Header.get
  rw [List.find?_append]
  simp [hn]

/-- A header with one more entry. -/
theorem readHeader_more {noCt prot : Bool} {h : Header} {l : Label} (hl : Label.unknown l) (v : Item) {k k1 : Known}
    (hr : readHeader noCt prot h k = .ok k1) :
    readHeader noCt prot (h ++ [(l, v)]) k = match record l ⟨k1.ints, k1.texts⟩ with
      | .error e => .error e
      | .ok u => .ok { k1 with ints := u.ints, texts := u.texts } := by
  unfold readHeader at hr ⊢
  rw [scan_more hl]
  cases hs : Spec.scan h [] ⟨k.ints, k.texts⟩ with
  | error e => rw [hs] at hr; cases hr
  | ok u =>
    rw [hs] at hr
    simp only at hr ⊢
    have ga : readAlg prot (h ++ [(l, v)]) k.alg = readAlg prot h k.alg := by
      unfold readAlg; rw [get_more hl v h (by omega)]
    have gb : ∀ i o, 1 ≤ i ∧ i ≤ 6 → readBytes (h ++ [(l, v)]) i o = readBytes h i o := by
      intro i o hi; unfold readBytes; rw [get_more hl v h hi]
    have g3 : ∀ o, readContentType (h ++ [(l, v)]) o = readContentType h o := by
      intro o; unfold readContentType; rw [get_more hl v h (by omega)]
    have gc : ∀ o, readCrit prot (h ++ [(l, v)]) o = readCrit prot h o := by
      intro o
      have hn : l ≠ Label.int 2 := by
        rintro rfl
        exact hl (by omega)
      unfold readCrit
      rw [List.filter_append]
      simp [hn]
    rw [ga, gb 4 _ (by omega), gb 5 _ (by omega), gb 6 _ (by omega), g3, gc]
    repeat (split at hr; cases hr)
    cases hr
    cases record l u with
    | error e => rfl
    | ok u' => simp_all

/-- And the other way round. -/
theorem readHeader_less {noCt prot : Bool} {h : Header} {l : Label} (hl : Label.unknown l) {v : Item} {k k1 : Known}
    (hr : readHeader noCt prot (h ++ [(l, v)]) k = .ok k1) : ∃ k2, readHeader noCt prot h k = .ok k2 := by
  unfold readHeader at hr ⊢
  rw [scan_more hl] at hr
  cases hs : Spec.scan h [] ⟨k.ints, k.texts⟩ with
  | error e => rw [hs] at hr; cases hr
  | ok u =>
    rw [hs] at hr
    simp only at hr ⊢
    have ga : readAlg prot (h ++ [(l, v)]) k.alg = readAlg prot h k.alg := by
      unfold readAlg; rw [get_more hl v h (by omega)]
    have gb : ∀ i o, 1 ≤ i ∧ i ≤ 6 → readBytes (h ++ [(l, v)]) i o = readBytes h i o := by
      intro i o hi; unfold readBytes; rw [get_more hl v h hi]
    have g3 : ∀ o, readContentType (h ++ [(l, v)]) o = readContentType h o := by
      intro o; unfold readContentType; rw [get_more hl v h (by omega)]
    have gc : ∀ o, readCrit prot (h ++ [(l, v)]) o = readCrit prot h o := by
      intro o
      have hn : l ≠ Label.int 2 := by
        rintro rfl
        exact hl (by omega)
      unfold readCrit
      rw [List.filter_append]
      simp [hn]
    rw [ga, gb 4 _ (by omega), gb 5 _ (by omega), gb 6 _ (by omega), g3, gc] at hr
    cases hrec : record l u with
    | error e => rw [hrec] at hr; cases hr
    | ok u' =>
      rw [hrec] at hr
      simp only at hr
      repeat (split at hr; cases hr)
      exact ⟨_, rfl⟩

theorem untag_more (P : QParams) (h : Header) (l : Label) (v : Item) :
    Header.untag P (h ++ [(l, v)]) = Header.untag P h ++ [(l, v.untagParam P)] := by
  simp [Header.untag]

/-- The elements, with an entry more in the second one. -/
theorem readAll_extra {P : QParams} {noCt : Bool} {det : Option Bytes} {xs xs' : List Item} {y y' : Item}
    {h : Header} {l : Label} {v : Item} {f : Found4} {fin : Option Err}
    (hx : ∀ i, i ≠ 1 → (xs[i]? : Option Item) = xs'[i]?)
    (h1 : (xs[1]? : Option Item) = some y) (h1' : (xs'[1]? : Option Item) = some y')
    (hy : y.header? P = .ok h) (hy' : y'.header? P = .ok (h ++ [(l, v)])) (hl : Label.unknown l)
    (hf : readAll P noCt det xs [] fin = .ok f) :
    readAll P noCt det xs' [] fin = match record l ⟨f.known.ints, f.known.texts⟩ with
      | .error e => .error e
      | .ok u => .ok { f with known := { f.known with ints := u.ints, texts := u.texts } } := by
  unfold readAll at hf ⊢
  rw [← hx 0 (by omega), ← hx 2 (by omega), ← hx 3 (by omega)]
  rw [h1] at hf
  rw [h1']
  simp only at hf ⊢
  rw [hy] at hf
  rw [hy']
  split at hf
  · cases hf
  rotate_left
  · split at hf <;> cases hf
  split at hf
  · cases hf
  simp only [Hdr.of, Hdr.read, untag_more] at hf ⊢
  split at hf
  · cases hf
  rename_i k1 hk1
  rw [readHeader_more hl _ hk1]
  split at hf
  · cases hf
  split at hf
  · cases hf
  split at hf
  · cases hf
  cases hf
  simp only
  cases record l ⟨k1.ints, k1.texts⟩ with
  | error e => rfl
  | ok u => rfl

/-- What is known, with one label more. -/
def withLabel (k : Known) : Label → Known
  | .int i => if i = 0 then k else { k with ints := k.ints ++ [i] }
  | .text t => { k with texts := k.texts ++ [t] }

theorem record_known (l : Label) (f : Found4) : (match record l ⟨f.known.ints, f.known.texts⟩ with
      | .error e => .error e
      | .ok u => .ok { f with known := { f.known with ints := u.ints, texts := u.texts } } : Except Err Found4) =
    if Label.tooLarge l then .error .parameterCbor
    else if f.known.full l then .error .tooManyParameters
    else .ok { f with known := withLabel f.known l } := by
  unfold record
  by_cases ht : Label.tooLarge l = true
  · rw [if_pos ht, if_pos ht]
  rw [if_neg ht, if_neg ht]
  cases l with
  | int i =>
    simp only [Known.full, withLabel, decide_eq_true_eq]
    by_cases h : f.known.ints.length = 10
    · rw [if_pos h, if_pos h]
    · rw [if_neg h, if_neg h]
      by_cases h0 : i = 0
      · simp [h0]
      · simp [h0]
  | text t =>
    simp only [Known.full, withLabel, decide_eq_true_eq]
    by_cases h : f.known.texts.length = 10
    · rw [if_pos h, if_pos h]
    · rw [if_neg h, if_neg h]

theorem withLabel_blocked (k : Known) (l : Label) : (withLabel k l).blocked ↔ k.blocked ∨ k.lists l = true := by
  unfold Known.blocked Known.lists
  cases l with
  | text t =>
    simp only [withLabel, List.mem_append, List.mem_singleton, decide_eq_true_eq]
    constructor
    · rintro (h | ⟨s, h1, h2 | rfl⟩)
      · exact .inl (.inl h)
      · exact .inl (.inr ⟨s, h1, h2⟩)
      · exact .inr h1
    · rintro ((h | ⟨s, h1, h2⟩) | h)
      · exact .inl h
      · exact .inr ⟨s, h1, .inl h2⟩
      · exact .inr ⟨t, h, .inr rfl⟩
  | int i =>
    simp only [withLabel, decide_eq_true_eq]
    by_cases h0 : i = 0
    · subst h0
      have hn : ¬ (0 : Int) ∈ k.critInts.takeWhile (· != 0) := by
        intro hm
        have := List.all_eq_true.mp List.all_takeWhile _ hm
        simp at this
      simp [hn]
    · simp only [if_neg h0, List.mem_append, List.mem_singleton]
      constructor
      · rintro (⟨s, h1, h2 | rfl⟩ | h)
        · exact .inl (.inl ⟨s, h1, h2⟩)
        · exact .inr h1
        · exact .inl (.inr h)
      · rintro ((⟨s, h1, h2⟩ | h) | h)
        · exact .inl ⟨s, h1, .inl h2⟩
        · exact .inr h
        · exact .inl ⟨i, h, .inr rfl⟩

theorem withLabel_rest (k : Known) (l : Label) : (withLabel k l).kid = k.kid ∧ (withLabel k l).alg = k.alg ∧
    toShow (withLabel k l) = toShow k := by
  cases l with
  | text t => exact ⟨rfl, rfl, rfl⟩
  | int i =>
    simp only [withLabel]
    split <;> exact ⟨rfl, rfl, rfl⟩

/-- And the other way round. -/
theorem readAll_without {P : QParams} {noCt : Bool} {det : Option Bytes} {xs xs' : List Item} {y y' : Item}
    {h : Header} {l : Label} {v : Item} {f : Found4} {fin : Option Err}
    (hx : ∀ i, i ≠ 1 → (xs[i]? : Option Item) = xs'[i]?)
    (h1 : (xs[1]? : Option Item) = some y) (h1' : (xs'[1]? : Option Item) = some y')
    (hy : y.header? P = .ok h) (hy' : y'.header? P = .ok (h ++ [(l, v)])) (hl : Label.unknown l)
    (hf : readAll P noCt det xs' [] fin = .ok f) : ∃ g, readAll P noCt det xs [] fin = .ok g := by
  unfold readAll at hf ⊢
  rw [← hx 0 (by omega), ← hx 2 (by omega), ← hx 3 (by omega), h1'] at hf
  rw [h1]
  simp only at hf ⊢
  rw [hy'] at hf
  rw [hy]
  split at hf
  · cases hf
  rotate_left
  · split at hf <;> cases hf
  split at hf
  · cases hf
  simp only [Hdr.of, Hdr.read, untag_more] at hf ⊢
  split at hf
  · cases hf
  rename_i k1 hk1
  obtain ⟨k2, hk2⟩ := readHeader_less hl hk1
  rw [hk2]
  split at hf
  · cases hf
  split at hf
  · cases hf
  split at hf
  · cases hf
  exact ⟨_, rfl⟩

variable {cfg : Config} {P : QParams} {C : Crypto} {junk : Junk} {me : VerifyCtx} {b b' : Bytes}
  {aad : UB} {pay : VPayload} {want : Bool} {h : Header} {l : Label} {v : Item} {f : Found4}

/-- **C103.** The headers of a message can be read.  With an unknown parameter more at the end of the unprotected header
everything is the same, the result and all that is stored; except that it is refused if the label is no 64-bit number, if
there are ten unknown labels of its kind already, or if the protected header says that it is critical and the option for
unknown critical parameters is not set. -/
theorem C103_exact (hP : P.maxTags ≤ 4) (hl : P.Local) (hargs : ArgsOk aad pay) (hr : OneMore P h l v b b')
    (hf : foundIn cfg P b pay me.flags = some f) :
    let before := effectOf (verifyInternal cfg P C junk me b aad pay want)
    let me1 := { me with auTags := before.ctx.auTags }
    effectOf (verifyInternal cfg P C junk me b' aad pay want) =
      if Label.tooLarge l then .refused .parameterCbor me1
      else if f.known.full l then .refused .tooManyParameters me1
      else if f.known.lists l = true ∧ Opt.unknownCritAllowed me.flags = false ∧
          ¬ (Opt.requireKid me.flags = true ∧ f.known.kid = none) then .refused .unknownCriticalParameter me1
      else before := by
  intro before me1
  have hb := (C95_everything cfg P C junk me b aad pay want hP hl hargs).1
  change before = _ at hb
  have hme : me1 = { me with auTags := before.ctx.auTags } := rfl
  generalize me1 = me1 at hme ⊢
  generalize before = before at hb hme ⊢
  have hb' := (C95_everything cfg P C junk me b' aad pay want hP hl hargs).1
  generalize effectOf (verifyInternal cfg P C junk me b' aad pay want) = after at hb' ⊢
  obtain ⟨x, x', xs, xs', y, y', r1, r2, ht, ha, ha', hx, h1, h1', hy, hy'⟩ := hr.items
  have m1 := messageAt_item r1 []
  have m2 := messageAt_item r2 []
  rw [List.append_nil, ha, if_pos rfl] at m1
  rw [List.append_nil, ha', if_pos rfl] at m2
  have s1 := hr.size
  have s2 := hr.size'
  unfold foundIn at hf
  rw [if_neg (by omega), m1] at hf
  unfold effectAll at hb hb'
  rw [if_neg (by omega), m1] at hb
  rw [if_neg (by omega), m2] at hb'
  simp only at hf hb hb'
  rw [ht] at hf hb
  by_cases hp : TagPolicy me.flags x'.tagList.reverse
  rotate_left
  · rw [if_pos hp] at hf; cases hf
  rw [if_neg (not_not_intro hp)] at hf hb hb'
  cases hra : readAll P cfg.disableContentType pay.octets xs [] none with
  | error e => rw [hra] at hf; cases hf
  | ok g =>
    rw [hra] at hf hb
    cases hf
    simp only at hb
    have hme' : me1 = { me with auTags := tagsLeft x'.tagList.reverse } := by
      rw [hme, hb]
      split <;> (simp only [Effect.refused]; split <;> rfl)
    clear hme
    subst hme'
    rw [readAll_extra hx h1 h1' hy hy' hr.unknown hra, record_known] at hb'
    by_cases ht1 : Label.tooLarge l = true
    · rw [if_pos ht1] at hb' ⊢
      exact hb'
    rw [if_neg ht1] at hb' ⊢
    by_cases ht2 : f.known.full l = true
    · rw [if_pos ht2] at hb' ⊢
      exact hb'
    rw [if_neg ht2] at hb' ⊢
    simp only at hb'
    have hbl := withLabel_blocked f.known l
    obtain ⟨e3, e4, e5⟩ := withLabel_rest f.known l
    rw [e5] at hb'
    by_cases hc : f.known.lists l = true ∧ Opt.unknownCritAllowed me.flags = false ∧
          ¬ (Opt.requireKid me.flags = true ∧ f.known.kid = none)
    · rw [if_pos hc, hb']
      have hse : ∀ d t s, settle cfg C me (withLabel f.known l) d t s = .error .unknownCriticalParameter := by
        intro d t s
        unfold settle
        rw [e3, if_neg hc.2.2, if_pos ⟨hc.2.1, hbl.mpr (.inr hc.1)⟩]
      have hst : ¬ SizeStored cfg me (withLabel f.known l) (sigStructure f.prot aad.bytes f.payload) :=
        fun h => h.2.1 ⟨hc.2.1, hbl.mpr (.inr hc.1)⟩
      rw [hse]
      simp only [if_neg hst]
    · rw [if_neg hc, hb', hb]
      by_cases hk : Opt.requireKid me.flags = true ∧ f.known.kid = none
      · have hse : ∀ k : Known, k.kid = f.known.kid → ∀ d t s, settle cfg C me k d t s = .error .noKid := by
          intro k e d t s
          unfold settle
          rw [e, if_pos hk]
        have hst : ∀ k : Known, k.kid = f.known.kid → ¬ SizeStored cfg me k (sigStructure f.prot aad.bytes f.payload) := by
          intro k e h
          refine h.1 ?_
          rw [e]
          exact hk
        rw [hse _ rfl, hse _ e3]
        simp only [if_neg (hst _ rfl), if_neg (hst _ e3)]
      · have hb2 : Opt.unknownCritAllowed me.flags = false ∧ (withLabel f.known l).blocked ↔
            Opt.unknownCritAllowed me.flags = false ∧ f.known.blocked := by
          rw [hbl]
          constructor
          · rintro ⟨g1, g2 | g2⟩
            · exact ⟨g1, g2⟩
            · exact absurd ⟨g2, g1, hk⟩ hc
          · rintro ⟨g1, g2⟩
            exact ⟨g1, .inl g2⟩
        have hst : SizeStored cfg me (withLabel f.known l) (sigStructure f.prot aad.bytes f.payload) ↔
            SizeStored cfg me f.known (sigStructure f.prot aad.bytes f.payload) := by
          unfold SizeStored
          rw [hb2, e3, e4]
        have hse : ∀ d t s, settle cfg C me (withLabel f.known l) d t s = settle cfg C me f.known d t s := by
          intro d t s
          unfold settle
          simp only [hb2, e3, e4]
        rw [hse]
        simp only [hst]

/-- **C103.** An unsigned parameter makes nothing acceptable that was not. -/
theorem C103_never_more (hP : P.maxTags ≤ 4) (hl : P.Local) (hargs : ArgsOk aad pay) (hr : OneMore P h l v b b')
    (hok : (verifyInternal cfg P C junk me b' aad pay want).res = .ok ()) :
    effectOf (verifyInternal cfg P C junk me b' aad pay want) = effectOf (verifyInternal cfg P C junk me b aad pay want) := by
  have hok' : (effectOf (verifyInternal cfg P C junk me b' aad pay want)).res = .ok () := hok
  have hfound : ∃ f, foundIn cfg P b pay me.flags = some f := by
    have hok2 := hok'
    rw [(C95_everything cfg P C junk me b' aad pay want hP hl hargs).1] at hok2
    obtain ⟨x, x', xs, xs', y, y', r1, r2, ht, ha, ha', hx, h1, h1', hy, hy'⟩ := hr.items
    have m1 := messageAt_item r1 []
    have m2 := messageAt_item r2 []
    rw [List.append_nil, ha, if_pos rfl] at m1
    rw [List.append_nil, ha', if_pos rfl] at m2
    have s1 := hr.size
    have s2 := hr.size'
    unfold foundIn
    unfold effectAll at hok2
    rw [if_neg (by omega), m2] at hok2
    rw [if_neg (by omega), m1]
    simp only at hok2 ⊢
    rw [ht]
    by_cases hp : TagPolicy me.flags x'.tagList.reverse
    rotate_left
    · rw [if_pos hp] at hok2; cases hok2
    rw [if_neg (not_not_intro hp)] at hok2 ⊢
    cases hra : readAll P cfg.disableContentType pay.octets xs' [] none with
    | error e => rw [hra] at hok2; cases hok2
    | ok g =>
      obtain ⟨f, hf⟩ := readAll_without hx h1 h1' hy hy' hr.unknown hra
      exact ⟨f, by rw [hf]⟩
  obtain ⟨f, hf⟩ := hfound
  have he := C103_exact (C := C) (junk := junk) (want := want) hP hl hargs hr hf
  simp only at he
  rw [he] at hok' ⊢
  split at hok'
  · cases hok'
  split at hok'
  · cases hok'
  split at hok'
  · cases hok'
  rename_i a1 a2 a3
  rw [if_neg a1, if_neg a2, if_neg a3]

/-- **C103.** What is accepted is accepted, with the same parameters and payload, with a parameter more that nobody signed,
as long as there are fewer than ten of its kind and it is not critical. -/
theorem C103_accepted (hP : P.maxTags ≤ 4) (hl : P.Local) (hargs : ArgsOk aad pay) (hr : OneMore P h l v b b')
    (hf : foundIn cfg P b pay me.flags = some f) (h1 : Label.tooLarge l = false) (h2 : f.known.full l = false)
    (h3 : f.known.lists l = false ∨ Opt.unknownCritAllowed me.flags = true) :
    effectOf (verifyInternal cfg P C junk me b' aad pay want) = effectOf (verifyInternal cfg P C junk me b aad pay want) := by
  have he := C103_exact (C := C) (junk := junk) (want := want) hP hl hargs hr hf
  simp only at he
  rw [he, h1, h2, if_neg Bool.false_ne_true, if_neg Bool.false_ne_true, if_neg]
  rintro ⟨g1, g2, _⟩
  rcases h3 with h3 | h3
  · rw [h3] at g1; cases g1
  · rw [h3] at g2; cases g2

/-- Headers in which 200 is critical and a label 100 is not, which may have one more parameter. -/
def moreProt : Header := [devAlg, (.int 2, .arr [Spec.int 200])]

/-- Signed messages with one unsigned parameter, and with a second one if there is a label. -/
def moreBytes (more : Option Label) : Bytes :=
  devBytes moreProt ((.int 100, Spec.int 0) :: (more.map fun l => (l, Spec.int 1)).toList)

/-- The labels of the witnesses. -/
def moreLabels : List Label := [.int 101, .text [97], .int 0, .int 200, .int 9223372036854775808]

theorem more_reads {more : Option Label} (hm : more = none ∨ ∃ l ∈ moreLabels, more = some l) :
    Reads 4 15 (tagged [18] ((devMsg moreProt ((.int 100, Spec.int 0) :: (more.map fun l => (l, Spec.int 1)).toList)).body
      (Header.item moreProt).enc)) (moreBytes more) := by
  refine (dev_encoded (prot := moreProt) (unprot := (.int 100, Spec.int 0) :: (more.map fun l => (l, Spec.int 1)).toList)
    ?_ ?_ ?_ ?_).2.reads ?_
  · simp [moreProt, devAlg, Header.item, Item.small, smallPairs, smallAll, Label.item, Spec.int]
  · rcases hm with rfl | ⟨l, hl, rfl⟩
    · simp [Header.item, Item.small, smallPairs, Label.item, Spec.int]
    · simp only [moreLabels, List.mem_cons, List.not_mem_nil, or_false] at hl
      rcases hl with rfl | rfl | rfl | rfl | rfl <;>
        simp [Header.item, Item.small, smallPairs, Label.item, Spec.int]
  · decide +kernel
  · show (devMsg moreProt []).sig.length < 2 ^ 64
    decide +kernel
  · rcases hm with rfl | ⟨l, hl, rfl⟩
    · decide +kernel
    · simp only [moreLabels, List.mem_cons, List.not_mem_nil, or_false] at hl
      rcases hl with rfl | rfl | rfl | rfl | rfl <;> decide +kernel

theorem more_oneMore {l : Label} (hl : l ∈ moreLabels) :
    OneMore QParams.std [(.int 100, Spec.int 0)] l (Spec.int 1) (moreBytes none) (moreBytes (some l)) where
  items := ⟨_, _, _, _, _, _, more_reads (.inl rfl), more_reads (.inr ⟨l, hl, rfl⟩), rfl, rfl, rfl, by
    intro i hi
    match i with
    | 0 => rfl
    | 1 => exact absurd rfl hi
    | 2 => rfl
    | 3 => rfl
    | i + 4 => rfl, rfl, rfl, rfl, by
    simp only [moreLabels, List.mem_cons, List.not_mem_nil, or_false] at hl
    rcases hl with rfl | rfl | rfl | rfl | rfl <;> rfl⟩
  unknown := by
    simp only [moreLabels, List.mem_cons, List.not_mem_nil, or_false] at hl
    rcases hl with rfl | rfl | rfl | rfl | rfl <;> simp [Label.unknown]
  size := by decide +kernel
  size' := by
    simp only [moreLabels, List.mem_cons, List.not_mem_nil, or_false] at hl
    rcases hl with rfl | rfl | rfl | rfl | rfl <;> decide +kernel

/-- A signed message and five parameters that nobody signed, of which three do no harm. -/
example : (∀ l ∈ moreLabels,
      OneMore QParams.std [(.int 100, Spec.int 0)] l (Spec.int 1) (moreBytes none) (moreBytes (some l))) ∧
    (foundIn Config.full QParams.std (moreBytes none) (.inline true) 0).isSome ∧
    ([none, some (.int 101), some (.text [97]), some (.int 0), some (.int 200), some (.int 9223372036854775808)].map fun l =>
      (verifyInternal Config.full QParams.std toyCrypto noJunk (VerifyCtx.init 0) (moreBytes l) (.null 0)
        (.inline true) true).res) =
      [.ok (), .ok (), .ok (), .ok (), .error .unknownCriticalParameter, .error .parameterCbor] :=
  ⟨fun _ hl => more_oneMore hl, by decide +kernel, by decide +kernel⟩

end TCose.Props
