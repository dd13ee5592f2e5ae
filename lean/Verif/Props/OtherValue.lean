import Verif.Spec.OtherValue
import Verif.Props.OtherKid

/-!
# C108: IV, Partial IV and content type in the unprotected header
-/

namespace TCose.Props
open TCose Spec

/-- The parameters shown to the caller with another value of one of them; `noCt` if the build has no content type. -/
def ShownParams.with (noCt : Bool) (s : ShownParams) : Int → Item → ShownParams
  | 5, .bstr q => { s with iv := some q }
  | 6, .bstr q => { s with partialIv := some q }
  | 3, .tstr t => if noCt then s else { s with ctText := some t }
  | 3, .uint n => if noCt then s else { s with ctNum := n }
  | _, _ => s

/-- The same for what was read. -/
def knownWith (noCt : Bool) (k : Known) : Int → Item → Known
  | 5, .bstr q => { k with iv := some q }
  | 6, .bstr q => { k with partialIv := some q }
  | 3, .tstr t => if noCt then k else { k with ctText := some t }
  | 3, .uint n => if noCt then k else { k with ctNum := some n }
  | _, _ => k

theorem scan_value {i : Int} {x x' : Item} (h : SameKind i x x') (post : Header) :
    ∀ (pre : Header) (seen : List Int) (u : Unknown),
    Spec.scan (pre ++ (Label.int i, x) :: post) seen u = Spec.scan (pre ++ (Label.int i, x') :: post) seen u := by
  intro pre
  induction pre with
  | nil =>
    intro seen u
    simp only [List.nil_append, Spec.scan]
    cases h <;> simp [wrongType, paramFault, Item.isNot, Item.bytes?, Item.isRead]
  | cons p r ih =>
    obtain ⟨l, v⟩ := p
    intro seen u
    cases l with
    | text t => simp only [List.cons_append, Spec.scan, ih]
    | int i => simp only [List.cons_append, Spec.scan, ih]

theorem get_other_value {x x' : Item} (pre post : Header) {i j : Int} (hi : j ≠ i) :
    Header.get (pre ++ (Label.int i, x) :: post) j = Header.get (pre ++ (Label.int i, x') :: post) j := by
  unfold Header.get
  have : ¬ i = j := fun h => hi h.symm
  simp [List.find?_append, List.find?_cons, this]

/-- A header with another value. -/
theorem readHeader_value {noCt prot : Bool} {pre post : Header} {i : Int} {v v' : Item} (hv : SameKind i v v') (k : Known) :
    readHeader noCt prot (pre ++ (Label.int i, v') :: post) k =
      (readHeader noCt prot (pre ++ (Label.int i, v) :: post) k).map fun k1 => knownWith noCt k1 i v' := by
  unfold readHeader
  rw [← scan_value hv]
  cases hs : Spec.scan (pre ++ (Label.int i, v) :: post) [] ⟨k.ints, k.texts⟩ with
  | error e => rfl
  | ok u =>
    simp only
    have hi : i = 3 ∨ i = 5 ∨ i = 6 := by cases hv <;> simp
    have S := scanned _ hs
    have hone := S.once i (by omega)
    have hpre : ∀ p ∈ pre, p.1 ≠ Label.int i := by
      intro p hp e
      have : 0 < (pre.map (·.1)).count (Label.int i) := by
        rw [List.count_pos_iff]
        exact List.mem_map.mpr ⟨p, hp, e⟩
      simp at hone
      omega
    have hget : ∀ x : Item, Header.get (pre ++ (Label.int i, x) :: post) i = some x := by
      intro x
      unfold Header.get
      rw [List.find?_append, List.find?_eq_none.mpr (fun p hp => by simpa using hpre p hp)]
      simp
    have ga : readAlg prot (pre ++ (Label.int i, v') :: post) = readAlg prot (pre ++ (Label.int i, v) :: post) := by
      funext o; unfold readAlg; rw [get_other_value (x' := v) pre post (by omega)]
    have gb : ∀ j, j ≠ i → readBytes (pre ++ (Label.int i, v') :: post) j = readBytes (pre ++ (Label.int i, v) :: post) j := by
      intro j hj; funext o; unfold readBytes; rw [get_other_value (x' := v) pre post hj]
    have g3 : i ≠ 3 → readContentType (pre ++ (Label.int i, v') :: post) = readContentType (pre ++ (Label.int i, v) :: post) := by
      intro hj; funext o; unfold readContentType; rw [get_other_value (x' := v) pre post (fun e => hj e.symm)]
    have gc : readCrit prot (pre ++ (Label.int i, v') :: post) = readCrit prot (pre ++ (Label.int i, v) :: post) := by
      have : i ≠ 2 := by omega
      funext o; unfold readCrit
      simp [List.filter_append, List.filter_cons, this]
    have g4 : ∀ (q : Bytes) o, readBytes (pre ++ (Label.int i, .bstr q) :: post) i o =
        if o = none then .ok (some q) else .error .duplicateParameter := by
      intro q o; unfold readBytes; rw [hget]; rfl
    have gt : ∀ (t : Bytes) (o : Option Bytes × Option Nat), i = 3 → readContentType (pre ++ (Label.int i, .tstr t) :: post) o =
        if o.1.getD [] = [] then .ok (some t, o.2) else .error .duplicateParameter := by
      intro t o e; subst e; unfold readContentType; rw [hget]; rfl
    have gn : ∀ (n : Nat) (o : Option Bytes × Option Nat), n ≤ 65535 → i = 3 →
        readContentType (pre ++ (Label.int i, .uint n) :: post) o =
        if o.2 = none then .ok (o.1, some n) else .error .duplicateParameter := by
      intro n o hn e; subst e; unfold readContentType; rw [hget]
      simp only [Item.text?, Item.int64?]
      rw [if_pos (by omega)]
      simp only
      rw [if_neg (by omega)]
      rfl
    rw [ga, gb 4 (by omega), gc]
    cases readAlg prot (pre ++ (Label.int i, v) :: post) k.alg with
    | error e => rfl
    | ok alg =>
    cases readBytes (pre ++ (Label.int i, v) :: post) 4 k.kid with
    | error e => rfl
    | ok kid =>
    cases hv with
    | iv q q' =>
      rw [gb 6 (by omega), g3 (by omega), g4, g4]
      by_cases ho : k.iv = none
      rotate_left
      · rw [if_neg ho, if_neg ho]; rfl
      rw [if_pos ho, if_pos ho]
      simp only
      split; · rfl
      split; · rfl
      split <;> rfl
    | partialIv q q' =>
      rw [gb 5 (by omega), g3 (by omega), g4, g4]
      simp only
      split; · rfl
      by_cases ho : k.partialIv = none
      rotate_left
      · rw [if_neg ho, if_neg ho]; rfl
      rw [if_pos ho, if_pos ho]
      simp only
      split; · rfl
      split <;> rfl
    | ctText t t' =>
      rw [gb 5 (by omega), gb 6 (by omega), gt _ _ rfl, gt _ _ rfl]
      simp only
      split; · rfl
      split; · rfl
      cases noCt with
      | true => simp only [if_true]; split <;> rfl
      | false =>
        simp only [Bool.false_eq_true, if_false]
        by_cases ho : k.ctText.getD [] = []
        rotate_left
        · rw [if_neg ho, if_neg ho]; rfl
        rw [if_pos ho, if_pos ho]
        simp only
        split <;> rfl
    | @ctNum n n' h h' =>
      rw [gb 5 (by omega), gb 6 (by omega), gn _ _ h rfl, gn _ _ h' rfl]
      simp only
      split; · rfl
      split; · rfl
      cases noCt with
      | true => simp only [if_true]; split <;> rfl
      | false =>
        simp only [Bool.false_eq_true, if_false]
        by_cases ho : k.ctNum = none
        rotate_left
        · rw [if_neg ho, if_neg ho]; rfl
        rw [if_pos ho, if_pos ho]
        simp only
        split <;> rfl

theorem untagParam_kind {i : Int} {v v' : Item} (hv : SameKind i v v') (P : QParams) :
    v.untagParam P = v ∧ v'.untagParam P = v' := by
  cases hv <;> exact ⟨rfl, rfl⟩

theorem untag_value (P : QParams) (pre post : Header) (i : Int) (v : Item) :
    Header.untag P (pre ++ (Label.int i, v) :: post) =
      Header.untag P pre ++ (Label.int i, v.untagParam P) :: Header.untag P post := by
  unfold Header.untag
  rw [List.map_append, List.map_cons]

/-- The elements, with another value in the second one. -/
theorem readAll_value {P : QParams} {noCt : Bool} {det : Option Bytes} {xs xs' : List Item} {y y' : Item}
    {pre post : Header} {i : Int} {v v' : Item} (hv : SameKind i v v') {fin : Option Err}
    (hx : ∀ i, i ≠ 1 → (xs[i]? : Option Item) = xs'[i]?)
    (h1 : (xs[1]? : Option Item) = some y) (h1' : (xs'[1]? : Option Item) = some y')
    (hy : y.header? P = .ok (pre ++ (Label.int i, v) :: post))
    (hy' : y'.header? P = .ok (pre ++ (Label.int i, v') :: post)) :
    readAll P noCt det xs' [] fin =
      (readAll P noCt det xs [] fin).map fun f => { f with known := knownWith noCt f.known i v' } := by
  unfold readAll
  rw [← hx 0 (by omega), ← hx 2 (by omega), ← hx 3 (by omega), h1, h1']
  simp only
  rw [hy, hy']
  simp only [Hdr.of, Hdr.read, untag_value, (untagParam_kind hv P).1, (untagParam_kind hv P).2]
  split
  · rfl
  · split
    · rfl
    rename_i k hk
    rw [readHeader_value hv]
    cases hr : readHeader noCt false (Header.untag P pre ++ (Label.int i, v) :: Header.untag P post) k with
    | error e => rfl
    | ok k1 =>
      simp only [Except.map]
      split
      · rfl
      split
      · rfl
      split
      · rfl
      rfl
  · split <;> rfl

variable {cfg : Config} {P : QParams} {C : Crypto} {junk : Junk} {me : VerifyCtx} {b b' : Bytes}
  {aad : UB} {pay : VPayload} {want : Bool} {i : Int} {v v' : Item}

/-- **C108.** Another IV, Partial IV or content type of the same kind in the unprotected header: the same result, with the
error code, and the same is stored, except that the other value is returned. -/
theorem C108_other_value (hP : P.maxTags ≤ 4) (hl : P.Local) (hargs : ArgsOk aad pay) (hv : SameKind i v v')
    (hr : OtherValue P i v v' b b') :
    let before := effectOf (verifyInternal cfg P C junk me b aad pay want)
    effectOf (verifyInternal cfg P C junk me b' aad pay want) =
      { before with params := before.params.map fun s => s.with cfg.disableContentType i v' } := by
  intro before
  have hb := (C95_everything cfg P C junk me b aad pay want hP hl hargs).1
  change before = _ at hb
  generalize before = before at hb ⊢
  have hb' := (C95_everything cfg P C junk me b' aad pay want hP hl hargs).1
  generalize effectOf (verifyInternal cfg P C junk me b' aad pay want) = after at hb' ⊢
  obtain ⟨x, x', xs, xs', y, y', pre, post, r1, r2, ht, ha, ha', hx, h1, h1', hy, hy'⟩ := hr.items
  have m1 := messageAt_item r1 []
  have m2 := messageAt_item r2 []
  rw [List.append_nil, ha, if_pos rfl] at m1
  rw [List.append_nil, ha', if_pos rfl] at m2
  have s1 := hr.size
  have s2 := hr.size'
  unfold effectAll at hb hb'
  rw [if_neg (by omega), m1] at hb
  rw [if_neg (by omega), m2] at hb'
  simp only at hb hb'
  rw [ht] at hb
  by_cases hp : TagPolicy me.flags x'.tagList.reverse
  rotate_left
  · rw [if_pos hp] at hb hb'
    rw [hb, hb']
    rfl
  rw [if_neg (not_not_intro hp)] at hb hb'
  have e1 := readAll_value (noCt := cfg.disableContentType) (det := pay.octets) (fin := none) hv hx h1 h1' hy hy'
  rw [e1] at hb'
  cases hra : readAll P cfg.disableContentType pay.octets xs [] none with
  | error e =>
    rw [hra] at hb hb'
    rw [hb, hb']
    rfl
  | ok f =>
    rw [hra] at hb hb'
    simp only [Except.map] at hb hb'
    have hst : ∀ t, SizeStored cfg me (knownWith cfg.disableContentType f.known i v') t ↔ SizeStored cfg me f.known t := by
      intro t
      cases hv <;> cases cfg.disableContentType <;> exact Iff.rfl
    have hse : ∀ d t s, settle cfg C me (knownWith cfg.disableContentType f.known i v') d t s = settle cfg C me f.known d t s := by
      intro d t s
      cases hv <;> cases cfg.disableContentType <;> rfl
    have hsh : toShow (knownWith cfg.disableContentType f.known i v') = (toShow f.known).with cfg.disableContentType i v' := by
      cases hv <;> cases cfg.disableContentType <;> rfl
    rw [hse] at hb'
    simp only [hst, hsh] at hb'
    rw [hb, hb']
    split
    · rfl
    · cases want <;> rfl

/-- A signed message with this parameter. -/
def valueBytes (i : Int) (v : Item) : Bytes := devBytes [devAlg] [(.int 100, Spec.int 0), (.int i, v)]

theorem value_reads {i : Int} {v : Item} (h : (Header.item [(.int 100, Spec.int 0), (.int i, v)]).small)
    (hf : (tagged [18] ((devMsg [devAlg] [(.int 100, Spec.int 0), (.int i, v)]).body (Header.item [devAlg]).enc)).fits 15) :
    Reads 4 15 (tagged [18] ((devMsg [devAlg] [(.int 100, Spec.int 0), (.int i, v)]).body (Header.item [devAlg]).enc))
      (valueBytes i v) := by
  refine (dev_encoded (prot := [devAlg]) (unprot := [(.int 100, Spec.int 0), (.int i, v)]) ?_ h ?_ ?_).2.reads ?_
  · simp [devAlg, Header.item, Item.small, smallPairs, Label.item, Spec.int]
  · decide +kernel
  · show (devMsg [devAlg] []).sig.length < 2 ^ 64
    decide +kernel
  · exact hf

theorem value_other {i : Int} {v v' : Item} (h : (Header.item [(.int 100, Spec.int 0), (.int i, v)]).small)
    (h' : (Header.item [(.int 100, Spec.int 0), (.int i, v')]).small)
    (hf : (tagged [18] ((devMsg [devAlg] [(.int 100, Spec.int 0), (.int i, v)]).body (Header.item [devAlg]).enc)).fits 15)
    (hf' : (tagged [18] ((devMsg [devAlg] [(.int 100, Spec.int 0), (.int i, v')]).body (Header.item [devAlg]).enc)).fits 15)
    (hy : ∀ w, w = v ∨ w = v' → (Header.item [(.int 100, Spec.int 0), (.int i, w)]).header? QParams.std =
      .ok [(.int 100, Spec.int 0), (.int i, w)])
    (hm : (valueBytes i v).length ≤ maxMessage) (hm' : (valueBytes i v').length ≤ maxMessage) :
    OtherValue QParams.std i v v' (valueBytes i v) (valueBytes i v') := by
  refine ⟨⟨_, _, _, _, _, _, [(.int 100, Spec.int 0)], [], value_reads h hf, value_reads h' hf', rfl, rfl, rfl, ?_, rfl, rfl,
    hy v (.inl rfl), hy v' (.inr rfl)⟩, hm, hm'⟩
  intro j hj
  match j with
  | 0 => rfl
  | 1 => exact absurd rfl hj
  | 2 => rfl
  | 3 => rfl
  | j + 4 => rfl

/-- Messages with another IV, another Partial IV, another text and another number as the content type. -/
example : OtherValue QParams.std 5 (.bstr [1]) (.bstr [2, 3]) (valueBytes 5 (.bstr [1])) (valueBytes 5 (.bstr [2, 3])) ∧
    OtherValue QParams.std 6 (.bstr [1]) (.bstr []) (valueBytes 6 (.bstr [1])) (valueBytes 6 (.bstr [])) ∧
    OtherValue QParams.std 3 (.tstr [0x61]) (.tstr [0x62]) (valueBytes 3 (.tstr [0x61])) (valueBytes 3 (.tstr [0x62])) ∧
    OtherValue QParams.std 3 (.uint 5) (.uint 600) (valueBytes 3 (.uint 5)) (valueBytes 3 (.uint 600)) := by
  refine ⟨?_, ?_, ?_, ?_⟩ <;>
  exact value_other (by simp [Header.item, Item.small, smallPairs, Label.item, Spec.int])
    (by simp [Header.item, Item.small, smallPairs, Label.item, Spec.int]) rfl rfl
    (by rintro w (rfl | rfl) <;> rfl) (by decide +kernel) (by decide +kernel)

/-- What is returned for two of them, and that a number above 65535, which is of no such kind, is refused. -/
example :
    let r := fun i v => (effectOf (verifyInternal Config.full QParams.std toyCrypto noJunk (VerifyCtx.init 0)
      (valueBytes i v) (.null 0) (.inline true) true))
    ((r 3 (.uint 5)).res, (r 3 (.uint 600)).res, (r 3 (.uint 65536)).res) = (.ok (), .ok (), .error .badContentType) ∧
    ((r 3 (.uint 5)).params.map (·.ctNum), (r 3 (.uint 600)).params.map (·.ctNum)) = (some 5, some 600) ∧
    ((r 6 (.bstr [1])).params.map (·.partialIv), (r 6 (.bstr [])).params.map (·.partialIv)) = (some (some [1]), some (some [])) := by
  decide +kernel

end TCose.Props
