import Verif.Spec.Alike
import Verif.Props.OneMore

/-!
# C104: the encoding of a message, and values nobody looks at
-/

namespace TCose.Props
open TCose Spec

theorem scan_same : ∀ {h h' : Header}, h.map knownPart = h'.map knownPart → ∀ (seen : List Int) (u : Unknown),
    Spec.scan h seen u = Spec.scan h' seen u := by
  intro h
  induction h with
  | nil =>
    intro h' e seen u
    cases h' with
    | nil => rfl
    | cons p r => cases e
  | cons p r ih =>
    intro h' e seen u
    cases h' with
    | nil => cases e
    | cons p' r' =>
      obtain ⟨l, x⟩ := p
      obtain ⟨l', x'⟩ := p'
      simp only [List.map_cons, List.cons.injEq, knownPart, Prod.mk.injEq] at e
      obtain ⟨⟨rfl, e2⟩, e3⟩ := e
      have ih' := fun s w => ih e3 s w
      cases l with
      | text t => simp only [Spec.scan, ih']
      | int i =>
        simp only at e2
        simp only [Spec.scan, ih']
        by_cases hk : 1 ≤ i ∧ i ≤ 6
        · rw [if_pos hk, if_pos hk] at e2
          cases e2
          rfl
        · have hn : ¬ (i = 1 ∨ i = 3 ∨ i = 4 ∨ i = 5 ∨ i = 6) := by omega
          rw [if_neg hn, if_neg hn]

theorem filter_same {i : Int} (hi : 1 ≤ i ∧ i ≤ 6) : ∀ {h h' : Header}, h.map knownPart = h'.map knownPart →
    h.filter (fun p => decide (p.1 = Label.int i)) = h'.filter (fun p => decide (p.1 = Label.int i)) := by
  intro h
  induction h with
  | nil =>
    intro h' e
    cases h' with
    | nil => rfl
    | cons p r => cases e
  | cons p r ih =>
    intro h' e
    cases h' with
    | nil => cases e
    | cons p' r' =>
      obtain ⟨l, x⟩ := p
      obtain ⟨l', x'⟩ := p'
      simp only [List.map_cons, List.cons.injEq, knownPart, Prod.mk.injEq] at e
      obtain ⟨⟨rfl, e2⟩, e3⟩ := e
      simp only [List.filter_cons, ih e3]
      by_cases hl : l = Label.int i
      · subst hl
        simp only [if_pos hi, Option.some.injEq] at e2
        subst e2
        rfl
      · simp [hl]

theorem untag_same {P : QParams} {h h' : Header} (e : h.map knownPart = h'.map knownPart) :
    (Header.untag P h).map knownPart = (Header.untag P h').map knownPart := by
  have : ∀ h : Header, (Header.untag P h).map knownPart =
      (h.map knownPart).map fun q => (q.1, q.2.map (·.untagParam P)) := by
    intro h
    unfold Header.untag
    rw [List.map_map, List.map_map]
    refine List.map_congr_left ?_
    rintro ⟨l, x⟩ _
    cases l with
    | text t => rfl
    | int i =>
      simp only [Function.comp, knownPart]
      by_cases hk : 1 ≤ i ∧ i ≤ 6
      · simp [hk]
      · simp [hk]
  rw [this, this, e]

/-- Headers that have the same labels and the same known values are read alike. -/
theorem readHeader_same {noCt prot : Bool} {h h' : Header} (e : h.map knownPart = h'.map knownPart) (k : Known) :
    readHeader noCt prot h k = readHeader noCt prot h' k := by
  have hg : ∀ i : Int, 1 ≤ i ∧ i ≤ 6 → Header.get h i = Header.get h' i := by
    intro i hi
    unfold Header.get
    rw [← List.head?_filter, ← List.head?_filter, filter_same hi e]
  unfold readHeader
  have g3 : readContentType h = readContentType h' := by
    funext o; unfold readContentType; rw [hg 3 (by omega)]
  have ga : readAlg prot h = readAlg prot h' := by
    funext o; unfold readAlg; rw [hg 1 (by omega)]
  have gb : ∀ i, 1 ≤ i ∧ i ≤ 6 → readBytes h i = readBytes h' i := by
    intro i hi; funext o; unfold readBytes; rw [hg i hi]
  have gc : readCrit prot h = readCrit prot h' := by
    funext o; unfold readCrit; rw [filter_same (by omega) e]
  rw [scan_same e, ga, gb 4 (by omega), gb 5 (by omega), gb 6 (by omega), g3, gc]

variable {cfg : Config} {P : QParams} {C : Crypto} {junk : Junk} {me : VerifyCtx} {b b' : Bytes}
  {aad : UB} {pay : VPayload} {want : Bool}

/-- **C104.** Two messages that have the same tags and elements, however they are encoded, and whatever the values of
unknown parameters in the unprotected header are: everything is the same, the result with its error code and all that
is stored. -/
theorem C104_alike (hP : P.maxTags ≤ 4) (hl : P.Local) (hargs : ArgsOk aad pay) (hr : Alike P b b') :
    effectOf (verifyInternal cfg P C junk me b' aad pay want) = effectOf (verifyInternal cfg P C junk me b aad pay want) := by
  rw [(C95_everything cfg P C junk me b aad pay want hP hl hargs).1,
    (C95_everything cfg P C junk me b' aad pay want hP hl hargs).1]
  obtain ⟨x, x', xs, xs', r1, r2, ht, ha, ha', hx, y, y', h, h', h1, h1', hy, hy', e⟩ := hr.items
  have m1 := messageAt_item r1 []
  have m2 := messageAt_item r2 []
  rw [List.append_nil, ha, if_pos rfl] at m1
  rw [List.append_nil, ha', if_pos rfl] at m2
  have s1 := hr.size
  have s2 := hr.size'
  have hra : readAll P cfg.disableContentType pay.octets xs' [] none =
      readAll P cfg.disableContentType pay.octets xs [] none := by
    unfold readAll
    rw [← hx 0 (by omega), ← hx 2 (by omega), ← hx 3 (by omega), h1, h1']
    simp only [hy, hy', Hdr.of, Hdr.read, readHeader_same (untag_same e)]
  unfold effectAll
  rw [if_neg (by omega), if_neg (by omega), m1, m2]
  simp only
  rw [ht, hra]

/-- **C104.** Another encoding of the same item: everything is the same, whether it is a message or not. -/
theorem C104_encoding (hP : P.maxTags ≤ 4) (hl : P.Local) (hargs : ArgsOk aad pay) {x : Item}
    (h1 : Reads P.maxTags 15 x b) (h2 : Reads P.maxTags 15 x b')
    (s1 : b.length ≤ maxMessage) (s2 : b'.length ≤ maxMessage) :
    effectOf (verifyInternal cfg P C junk me b' aad pay want) = effectOf (verifyInternal cfg P C junk me b aad pay want) := by
  rw [(C95_everything cfg P C junk me b aad pay want hP hl hargs).1,
    (C95_everything cfg P C junk me b' aad pay want hP hl hargs).1]
  have m1 := messageAt_item h1 []
  have m2 := messageAt_item h2 []
  rw [← m2] at m1
  rw [List.append_nil, List.append_nil] at m1
  unfold effectAll
  rw [if_neg (by omega), if_neg (by omega), m1]

/-- A header with an unknown parameter, which is a number or an array of a text. -/
def alikeHeader (number : Bool) : Header := [(.int 100, if number then Spec.int 0 else .arr [.tstr [97]])]

/-- A signed message with this in the unprotected header. -/
def alikeBytes (number : Bool) : Bytes := devBytes [devAlg] (alikeHeader number)

/-- The same message as the first, with the tag in two octets. -/
def alikeLong : Bytes := [0xd8, 18] ++ ((devMsg [devAlg] (alikeHeader true)).body (Header.item [devAlg]).enc).enc

theorem alike_reads (number : Bool) :
    Reads 4 15 (tagged [18] ((devMsg [devAlg] (alikeHeader number)).body (Header.item [devAlg]).enc))
      (alikeBytes number) := by
  refine (dev_encoded (prot := [devAlg]) (unprot := alikeHeader number) ?_ ?_ ?_ ?_).2.reads ?_
  · simp [devAlg, Header.item, Item.small, smallPairs, Label.item, Spec.int]
  · cases number <;> simp [alikeHeader, Header.item, Item.small, smallPairs, smallAll, Label.item, Spec.int]
  · decide +kernel
  · cases number <;> decide +kernel
  · cases number <;> decide +kernel

theorem alike_long :
    Reads 4 15 (tagged [18] ((devMsg [devAlg] (alikeHeader true)).body (Header.item [devAlg]).enc)) alikeLong := by
  refine Spec.Encodes.reads (.tag (h := [0xd8, 18]) (.wide 0 (by decide) (by decide)) (enc_encodes _ ?_)) ?_
  · refine ⟨by simp, (by decide +kernel : (Header.item [devAlg]).enc.length < 2 ^ 64), ?_,
      (by decide : ([1] : Bytes).length < 2 ^ 64), (by decide +kernel : (devMsg [devAlg] []).sig.length < 2 ^ 64), trivial⟩
    change (Header.item (alikeHeader true)).small
    simp [alikeHeader, Header.item, Item.small, smallPairs, Label.item, Spec.int]
  · decide +kernel

/-- Three messages that differ in the value of an unknown parameter or in their encoding; they are accepted. -/
example : Alike QParams.std (alikeBytes true) (alikeBytes false) ∧ Alike QParams.std alikeLong (alikeBytes false) ∧
    alikeLong ≠ alikeBytes true ∧
    [alikeLong, alikeBytes true, alikeBytes false].map (fun b =>
      (verifyInternal Config.full QParams.std toyCrypto noJunk (VerifyCtx.init 0) b (.null 0) (.inline true) true).res) =
      [.ok (), .ok (), .ok ()] := by
  have hi : ∀ i, i ≠ 1 → ([.bstr (Header.item [devAlg]).enc, Header.item (alikeHeader true), .bstr [1],
      .bstr (devMsg [devAlg] []).sig] : List Item)[i]? = [.bstr (Header.item [devAlg]).enc, Header.item (alikeHeader false),
      .bstr [1], .bstr (devMsg [devAlg] []).sig][i]? := by
    intro i hi
    match i with
    | 0 => rfl
    | 1 => exact absurd rfl hi
    | 2 => rfl
    | 3 => rfl
    | i + 4 => rfl
  exact ⟨⟨⟨_, _, _, _, alike_reads true, alike_reads false, rfl, rfl, rfl, hi, _, _, _, _, rfl, rfl, rfl, rfl, rfl⟩,
      by decide +kernel, by decide +kernel⟩,
    ⟨⟨_, _, _, _, alike_long, alike_reads false, rfl, rfl, rfl, hi, _, _, _, _, rfl, rfl, rfl, rfl, rfl⟩,
      by decide +kernel, by decide +kernel⟩, by decide +kernel, by decide +kernel⟩

end TCose.Props
