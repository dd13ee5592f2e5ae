import Verif.Spec.OtherKid
import Verif.Props.MovedOut

/-!
# C106: the key id in the unprotected header
-/

namespace TCose.Props
open TCose Spec

theorem scan_kid {x x' : Item} (hx : x.bytes? ≠ none) (hx' : x'.bytes? ≠ none) (hn : x.isNot = false)
    (hn' : x'.isNot = false) (post : Header) : ∀ (pre : Header) (seen : List Int) (u : Unknown),
    Spec.scan (pre ++ (Label.int 4, x) :: post) seen u = Spec.scan (pre ++ (Label.int 4, x') :: post) seen u := by
  intro pre
  induction pre with
  | nil =>
    intro seen u
    simp only [List.nil_append, Spec.scan]
    have h1 : ¬ wrongType 4 x := by simp [wrongType, hx]
    have h2 : ¬ wrongType 4 x' := by simp [wrongType, hx']
    simp [h1, h2, paramFault, hn, hn']
  | cons p r ih =>
    obtain ⟨l, v⟩ := p
    intro seen u
    cases l with
    | text t => simp only [List.cons_append, Spec.scan, ih]
    | int i => simp only [List.cons_append, Spec.scan, ih]

theorem get_other {x x' : Item} (pre post : Header) {i : Int} (hi : i ≠ 4) :
    Header.get (pre ++ (Label.int 4, x) :: post) i = Header.get (pre ++ (Label.int 4, x') :: post) i := by
  unfold Header.get
  have : ¬ (4 : Int) = i := fun h => hi h.symm
  simp [List.find?_append, List.find?_cons, this]

/-- A header with another key id. -/
theorem readHeader_kid {noCt prot : Bool} {pre post : Header} {q q' : Bytes} (k : Known) :
    readHeader noCt prot (pre ++ (Label.int 4, .bstr q') :: post) k =
      (readHeader noCt prot (pre ++ (Label.int 4, .bstr q) :: post) k).map fun k1 => { k1 with kid := some q' } := by
  unfold readHeader
  rw [scan_kid (x := .bstr q') (x' := .bstr q) (by simp [Item.bytes?]) (by simp [Item.bytes?]) rfl rfl]
  cases hs : Spec.scan (pre ++ (Label.int 4, .bstr q) :: post) [] ⟨k.ints, k.texts⟩ with
  | error e => rfl
  | ok u =>
    simp only
    have S := scanned _ hs
    have hone := S.once 4 (by omega)
    have hpre : ∀ p ∈ pre, p.1 ≠ Label.int 4 := by
      intro p hp e
      have : 0 < (pre.map (·.1)).count (Label.int 4) := by
        rw [List.count_pos_iff]
        exact List.mem_map.mpr ⟨p, hp, e⟩
      simp at hone
      omega
    have hget : ∀ x : Item, Header.get (pre ++ (Label.int 4, x) :: post) 4 = some x := by
      intro x
      unfold Header.get
      rw [List.find?_append, List.find?_eq_none.mpr (fun p hp => by simpa using hpre p hp)]
      simp
    have g3 : readContentType (pre ++ (Label.int 4, .bstr q') :: post) = readContentType (pre ++ (Label.int 4, .bstr q) :: post) := by
      funext o; unfold readContentType; rw [get_other (x' := .bstr q) pre post (by omega)]
    have ga : readAlg prot (pre ++ (Label.int 4, .bstr q') :: post) = readAlg prot (pre ++ (Label.int 4, .bstr q) :: post) := by
      funext o; unfold readAlg; rw [get_other (x' := .bstr q) pre post (by omega)]
    have gb : ∀ i, i ≠ 4 → readBytes (pre ++ (Label.int 4, .bstr q') :: post) i = readBytes (pre ++ (Label.int 4, .bstr q) :: post) i := by
      intro i hi; funext o; unfold readBytes; rw [get_other (x' := .bstr q) pre post hi]
    have gc : readCrit prot (pre ++ (Label.int 4, .bstr q') :: post) = readCrit prot (pre ++ (Label.int 4, .bstr q) :: post) := by
      funext o; unfold readCrit
      simp [List.filter_append, List.filter_cons]
    have g4 : ∀ (q : Bytes) o, readBytes (pre ++ (Label.int 4, .bstr q) :: post) 4 o =
        if o = none then .ok (some q) else .error .duplicateParameter := by
      intro q o; unfold readBytes; rw [hget]; rfl
    rw [ga, gb 5 (by omega), gb 6 (by omega), g3, gc, g4, g4]
    cases readAlg prot (pre ++ (Label.int 4, .bstr q) :: post) k.alg with
    | error e => rfl
    | ok alg =>
    by_cases ho : k.kid = none
    rotate_left
    · rw [if_neg ho, if_neg ho]; rfl
    rw [if_pos ho, if_pos ho]
    cases readBytes (pre ++ (Label.int 4, .bstr q) :: post) 5 k.iv with
    | error e => rfl
    | ok iv =>
    cases readBytes (pre ++ (Label.int 4, .bstr q) :: post) 6 k.partialIv with
    | error e => rfl
    | ok piv =>
    simp only
    cases (if noCt then .ok (k.ctText, k.ctNum) else readContentType (pre ++ (Label.int 4, .bstr q) :: post) (k.ctText, k.ctNum) :
        Except Err (Option Bytes × Option Nat)) with
    | error e => rfl
    | ok ct =>
    cases readCrit prot (pre ++ (Label.int 4, .bstr q) :: post) (k.critInts, k.critTexts) with
    | error e => rfl
    | ok c => rfl

theorem readHeader_kid_is {noCt prot : Bool} {pre post : Header} {q : Bytes} {k k1 : Known}
    (h : readHeader noCt prot (pre ++ (Label.int 4, .bstr q) :: post) k = .ok k1) : k1.kid = some q := by
  have e := readHeader_kid (noCt := noCt) (prot := prot) (pre := pre) (post := post) (q := q) (q' := q) k
  rw [h] at e
  simp only [Except.map, Except.ok.injEq] at e
  rw [e]

theorem untag_kid (P : QParams) (pre post : Header) (q : Bytes) :
    Header.untag P (pre ++ (Label.int 4, .bstr q) :: post) =
      Header.untag P pre ++ (Label.int 4, .bstr q) :: Header.untag P post := by
  unfold Header.untag
  rw [List.map_append, List.map_cons]
  rfl

/-- The elements, with another key id in the second one. -/
theorem readAll_kid {P : QParams} {noCt : Bool} {det : Option Bytes} {xs xs' : List Item} {y y' : Item}
    {pre post : Header} {q q' : Bytes} {fin : Option Err}
    (hx : ∀ i, i ≠ 1 → (xs[i]? : Option Item) = xs'[i]?)
    (h1 : (xs[1]? : Option Item) = some y) (h1' : (xs'[1]? : Option Item) = some y')
    (hy : y.header? P = .ok (pre ++ (Label.int 4, .bstr q) :: post))
    (hy' : y'.header? P = .ok (pre ++ (Label.int 4, .bstr q') :: post)) :
    (readAll P noCt det xs' [] fin =
      (readAll P noCt det xs [] fin).map fun f => { f with known := { f.known with kid := some q' } }) ∧
    ∀ f, readAll P noCt det xs [] fin = .ok f → f.known.kid = some q := by
  unfold readAll
  rw [← hx 0 (by omega), ← hx 2 (by omega), ← hx 3 (by omega), h1, h1']
  simp only
  rw [hy, hy']
  simp only [Hdr.of, Hdr.read, untag_kid]
  split
  · exact ⟨rfl, fun f h => by cases h⟩
  · split
    · exact ⟨rfl, fun f h => by cases h⟩
    rename_i k hk
    rw [readHeader_kid (q := q)]
    cases hr : readHeader noCt false (Header.untag P pre ++ (Label.int 4, .bstr q) :: Header.untag P post) k with
    | error e => exact ⟨rfl, fun f h => by cases h⟩
    | ok k1 =>
      simp only [Except.map]
      split
      · exact ⟨rfl, fun f h => by cases h⟩
      split
      · exact ⟨rfl, fun f h => by cases h⟩
      split
      · exact ⟨rfl, fun f h => by cases h⟩
      refine ⟨rfl, fun f h => ?_⟩
      cases h
      exact readHeader_kid_is hr
  · split <;> exact ⟨rfl, fun f h => by cases h⟩

variable {cfg : Config} {P : QParams} {C : Crypto} {junk : Junk} {me : VerifyCtx} {b b' k k' : Bytes}
  {aad : UB} {pay : VPayload} {want : Bool}

/-- **C106.** A key id in the unprotected header in place of another: the same result, with the error code, and the same is
stored, except that the other key id is returned.  The adapter does not look at key ids, and neither is the one of
short-circuit signatures, or the build does not have them. -/
theorem C106_other_kid (hP : P.maxTags ≤ 4) (hl : P.Local) (hargs : ArgsOk aad pay) (hC : KidBlind C)
    (hr : OtherKid P k k' b b') (hsc : cfg.disableShortCircuit = true ∨ (k ≠ scKid ∧ k' ≠ scKid)) :
    let before := effectOf (verifyInternal cfg P C junk me b aad pay want)
    effectOf (verifyInternal cfg P C junk me b' aad pay want) =
      { before with params := before.params.map fun s => { s with kid := some k' } } := by
  intro before
  have hb := (C95_everything cfg P C junk me b aad pay want hP hl hargs).1
  change before = _ at hb
  generalize before = before at hb ⊢
  have hb' := (C95_everything cfg P C junk me b' aad pay want hP hl hargs).1
  generalize effectOf (verifyInternal cfg P C junk me b' aad pay want) = after at hb' ⊢
  obtain ⟨x, x', xs, xs', y, y', pre, post, r1, r2, ht, ha, ha', hx, h1, h1', hy, hy'⟩ := hr.items
  have m1 := messageAt_item r1 []
  have m2 := messageAt_item r2 []
  rw [List.append_nil, ha, if_pos rfl] at m1
  rw [List.append_nil, ha', if_pos rfl] at m2
  have s1 := hr.size
  have s2 := hr.size'
  unfold effectAll at hb hb'
  rw [if_neg (by omega), m1] at hb
  rw [if_neg (by omega), m2] at hb'
  simp only at hb hb'
  rw [ht] at hb
  by_cases hp : TagPolicy me.flags x'.tagList.reverse
  rotate_left
  · rw [if_pos hp] at hb hb'
    rw [hb, hb']
    rfl
  rw [if_neg (not_not_intro hp)] at hb hb'
  obtain ⟨e1, e2⟩ := readAll_kid (noCt := cfg.disableContentType) (det := pay.octets) (fin := none) hx h1 h1' hy hy'
  rw [e1] at hb'
  cases hra : readAll P cfg.disableContentType pay.octets xs [] none with
  | error e =>
    rw [hra] at hb hb'
    rw [hb, hb']
    rfl
  | ok f =>
    have hk := e2 f hra
    rw [hra] at hb hb'
    simp only [Except.map] at hb hb'
    have hn : ∀ q, q = k ∨ q = k' → ¬ (cfg.disableShortCircuit = false ∧ some q = some scKid) := by
      rintro q hq ⟨g1, g2⟩
      rcases hsc with h | h
      · rw [h] at g1; cases g1
      · cases g2
        rcases hq with hq | hq
        · exact h.1 hq.symm
        · exact h.2 hq.symm
    have hst : SizeStored cfg me { f.known with kid := some k' } (sigStructure f.prot aad.bytes f.payload) ↔
        SizeStored cfg me f.known (sigStructure f.prot aad.bytes f.payload) := by
      unfold SizeStored
      rw [hk]
      have n1 := hn k (.inl rfl)
      have n2 := hn k' (.inr rfl)
      simp only [n1, n2, reduceCtorEq, and_false, not_false_eq_true, true_and]
      rfl
    have hse : ∀ d t s, settle cfg C me { f.known with kid := some k' } d t s = settle cfg C me f.known d t s := by
      intro d t s
      unfold settle
      rw [hk]
      have n1 := hn k (.inl rfl)
      have n2 := hn k' (.inr rfl)
      have n3 : ∀ q : Bytes, ¬ (Opt.requireKid me.flags = true ∧ some q = none) := by simp
      have hbl : ({ f.known with kid := some k' } : Known).blocked ↔ f.known.blocked := Iff.rfl
      rw [if_neg (n3 k'), if_neg (n3 k)]
      simp only [hbl, if_neg n1, if_neg n2, hC.1 _ _ (some k') (some k), hC.2 _ (some k') (some k)]
    rw [hse] at hb'
    simp only [hst] at hb'
    rw [hb, hb']
    split
    · rfl
    · cases want <;> rfl

/-- **C106.** The key id of short-circuit signatures in place of another: what is accepted is refused, unless signatures are
not checked or short-circuit signatures are allowed. -/
theorem C106_short_circuit (hP : P.maxTags ≤ 4) (hl : P.Local) (hargs : ArgsOk aad pay)
    (hr : OtherKid P k scKid b b') (hsc : cfg.disableShortCircuit = false) (hd : Opt.decodeOnly me.flags = false)
    (hs : Opt.allowShortCircuit me.flags = false)
    (hok : (verifyInternal cfg P C junk me b aad pay want).res = .ok ()) :
    (verifyInternal cfg P C junk me b' aad pay want).res = .error .shortCircuitSig := by
  have hb : (effectOf (verifyInternal cfg P C junk me b aad pay want)).res = .ok () := hok
  show (effectOf (verifyInternal cfg P C junk me b' aad pay want)).res = _
  rw [(C95_everything cfg P C junk me b aad pay want hP hl hargs).1] at hb
  rw [(C95_everything cfg P C junk me b' aad pay want hP hl hargs).1]
  obtain ⟨x, x', xs, xs', y, y', pre, post, r1, r2, ht, ha, ha', hx, h1, h1', hy, hy'⟩ := hr.items
  have m1 := messageAt_item r1 []
  have m2 := messageAt_item r2 []
  rw [List.append_nil, ha, if_pos rfl] at m1
  rw [List.append_nil, ha', if_pos rfl] at m2
  have s1 := hr.size
  have s2 := hr.size'
  unfold effectAll at hb ⊢
  rw [if_neg (by omega), m1] at hb
  rw [if_neg (by omega), m2]
  simp only at hb ⊢
  rw [ht] at hb
  by_cases hp : TagPolicy me.flags x'.tagList.reverse
  rotate_left
  · rw [if_pos hp] at hb
    cases hb
  rw [if_neg (not_not_intro hp)] at hb ⊢
  obtain ⟨e1, e2⟩ := readAll_kid (noCt := cfg.disableContentType) (det := pay.octets) (fin := none) hx h1 h1' hy hy'
  rw [e1]
  cases hra : readAll P cfg.disableContentType pay.octets xs [] none with
  | error e =>
    rw [hra] at hb
    cases hb
  | ok f =>
    rw [hra] at hb
    simp only [Except.map] at hb ⊢
    have hnb : ¬ (Opt.unknownCritAllowed me.flags = false ∧ f.known.blocked) := by
      intro hbk
      have hk := e2 f hra
      unfold settle at hb
      rw [hk, if_neg (by simp), if_pos hbk] at hb
      cases hb
    have hse : ∀ d t s, settle cfg C me { f.known with kid := some scKid } d t s = .error .shortCircuitSig := by
      intro d t s
      have hnb' : ¬ (Opt.unknownCritAllowed me.flags = false ∧ ({ f.known with kid := some scKid } : Known).blocked) := hnb
      generalize hq : ({ f.known with kid := some scKid } : Known) = q at hnb'
      have hqk : q.kid = some scKid := by rw [← hq]
      unfold settle
      rw [hqk, if_neg (by simp), if_neg hnb', if_pos ⟨hsc, rfl⟩, if_neg (by simp [hd]), if_pos hs]
    rw [hse]
    rfl

/-- **C106.** None of the adapters of the repository looks at the key id. -/
theorem C106_adapters (cfg : Config) : (∀ mode fresh, KidBlind (testCrypto cfg mode fresh)) ∧
    (∀ L, KidBlind (Ossl.crypto cfg L)) ∧ ∀ L, KidBlind (Psa.crypto cfg L) :=
  ⟨fun _ _ => ⟨fun _ _ _ _ _ _ => rfl, fun _ _ _ _ _ => rfl⟩,
    fun _ => ⟨fun _ _ _ _ _ _ => rfl, fun _ _ _ _ _ => rfl⟩,
    fun _ => ⟨fun _ _ _ _ _ _ => rfl, fun _ _ _ _ _ => rfl⟩⟩

/-- A signed message with a key id. -/
def kidBytes (k : Bytes) : Bytes := devBytes [devAlg] [(.int 100, Spec.int 0), (.int 4, .bstr k)]

theorem kid_reads {k : Bytes} (hk : k.length < 2 ^ 64) :
    Reads 4 15 (tagged [18] ((devMsg [devAlg] [(.int 100, Spec.int 0), (.int 4, .bstr k)]).body (Header.item [devAlg]).enc))
      (kidBytes k) := by
  refine (dev_encoded (prot := [devAlg]) (unprot := [(.int 100, Spec.int 0), (.int 4, .bstr k)]) ?_ ?_ ?_ ?_).2.reads ?_
  · simp [devAlg, Header.item, Item.small, smallPairs, Label.item, Spec.int]
  · simp [Header.item, Item.small, smallPairs, Label.item, Spec.int]
    exact hk
  · decide +kernel
  · show (devMsg [devAlg] []).sig.length < 2 ^ 64
    decide +kernel
  · rfl

/-- A message with a key id, with another one, and with that of short-circuit signatures. -/
example : OtherKid QParams.std [1] [2, 3] (kidBytes [1]) (kidBytes [2, 3]) ∧
    OtherKid QParams.std [1] scKid (kidBytes [1]) (kidBytes scKid) ∧ KidBlind toyCrypto ∧
    [[1], [2, 3], scKid].map (fun k => (verifyInternal Config.full QParams.std toyCrypto noJunk (VerifyCtx.init 0)
      (kidBytes k) (.null 0) (.inline true) true).res) = [.ok (), .ok (), .error .shortCircuitSig] := by
  have key : ∀ k', k'.length < 2 ^ 64 → (kidBytes k').length ≤ maxMessage →
      OtherKid QParams.std [1] k' (kidBytes [1]) (kidBytes k') := by
    intro k' hk hm
    refine ⟨⟨_, _, _, _, _, _, [(.int 100, Spec.int 0)], [], kid_reads (by decide), kid_reads hk, rfl, rfl, rfl, ?_, rfl, rfl,
      rfl, rfl⟩, by decide +kernel, hm⟩
    intro i hi
    match i with
    | 0 => rfl
    | 1 => exact absurd rfl hi
    | 2 => rfl
    | 3 => rfl
    | i + 4 => rfl
  exact ⟨key _ (by decide) (by decide +kernel), key _ (by decide) (by decide +kernel),
    ⟨fun _ _ _ _ _ _ => rfl, fun _ _ _ _ _ => rfl⟩, by decide +kernel⟩

end TCose.Props
