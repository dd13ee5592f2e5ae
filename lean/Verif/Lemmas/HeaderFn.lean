import Verif.Lemmas.RefusedBody

/-!
# Header parsing as a function of the entries of the header

`parse_cose_header_parameters` on a map whose entries can be read, errors included, and
what follows for the message.
-/

namespace TCose
open Spec

/-- The loop over the elements of a crit list. -/
def critFn : List Entry → Nat → Nat → LabelList → Except Err LabelList
  | [], _, _, l => .ok l
  | e :: es, ni, nt, l =>
    if e.itm.err ≠ none then .error .cborNotWellFormed
    else match e.itm.val with
      | .int i => if ni ≥ paramListMax then .error .critParameter
          else critFn es (ni + 1) nt (l.setInt ni i)
      | .tstr s => if nt ≥ paramListMax then .error .critParameter
          else critFn es ni (nt + 1) (l.setTstr nt s)
      | _ => .error .critParameter

theorem critFn_exact (P : QParams) : ∀ (n : Nat) (d : Dec) (ni nt : Nat) (l : LabelList)
    (left : Option Nat) (ls : List Lvl) (ces : List Entry) (cEnd : Cur),
    d.lvls = .arr left :: ls → d.cur.rest.length < n →
    Rem P false d.room left d.cur ces cEnd →
    (∃ l', critFn ces ni nt l = .ok l' ∧ critFold ces ni nt l = some l') ∨
    ∃ y l' d', critFn ces ni nt l = .error y ∧ critLoop P n d ni nt l = (.error y, l', d') := by
  intro n
  induction n with
  | zero => intro d ni nt l left ls ces cEnd hl hn; omega
  | succ n ih =>
    intro d ni nt l left ls ces cEnd hl hn hr
    rw [critLoop]
    cases ces with
    | nil => exact .inl ⟨l, rfl, rfl⟩
    | cons e ces =>
      rw [critFn, critFold]
      cases hie : e.itm.err with
      | some x =>
        have hf := Dec.fetch_rem_err hl hr hie
        have hx := Rem_err hr (List.mem_cons_self ..) hie
        right
        have hg : d.getNext P = (.error x, { d with cur := e.cur }) := by
          unfold Dec.getNext
          rw [hf]
        rw [hg, if_pos (by simp)]
        cases x <;> first
          | exact absurd rfl hx.2.2.2
          | exact ⟨_, _, _, rfl, rfl⟩
      | none =>
        have hf := Dec.fetch_rem hl hr hie
        rw [Dec.getNext_intro hf]
        obtain ⟨hz, hne, hen, c2, hsk, hr2⟩ := Rem_cons_iff.mp hr
        have hadv := (Dec.fetch_adv hf).1
        have hlv : ({ d.done e.cur with tags := e.itm.tags } : Dec).lvls =
            .arr (stepLeft left e.cur).1 :: ls := by
          simp only [Dec.done, hl, itemDone_arr]
        have hcur : ({ d.done e.cur with tags := e.itm.tags } : Dec).cur =
            (stepLeft left e.cur).2 := by
          simp only [Dec.done, hl, itemDone_arr]
        have hroom : ({ d.done e.cur with tags := e.itm.tags } : Dec).room = d.room := by
          simp only [Dec.room, Dec.done, hl, itemDone_arr, List.length_cons]
        have hlen := (hadv.trans_adv (stepLeft_adv left e.cur)).length_lt
        have key : ∀ ni' nt' l1, e.itm.val.isSimple = true →
            (∃ l', critFn ces ni' nt' l1 = .ok l' ∧ critFold ces ni' nt' l1 = some l') ∨
            ∃ y l' d', critFn ces ni' nt' l1 = .error y ∧
              critLoop P n { d.done e.cur with tags := e.itm.tags } ni' nt' l1 =
              (.error y, l', d') := by
          intro ni' nt' l1 hs
          rw [skipValue_simple P _ hs] at hsk
          cases hsk
          exact ih { d.done e.cur with tags := e.itm.tags } ni' nt' l1 _ ls ces cEnd hlv
            (by rw [hcur]; omega) (by rw [hcur, hroom]; exact hr2)
        simp only [ne_eq, not_true, if_false]
        cases hv : e.itm.val with
        | int i =>
          simp only
          split
          · exact .inr ⟨_, _, _, rfl, rfl⟩
          · exact key _ _ _ (by rw [hv]; rfl)
        | tstr s =>
          simp only
          split
          · exact .inr ⟨_, _, _, rfl, rfl⟩
          · exact key _ _ _ (by rw [hv]; rfl)
        | _ => exact .inr ⟨_, _, _, rfl, rfl⟩

/-- `decode_critical_parameter` on the entries of a header. -/
def critParamFn (P : QParams) (room : Nat) (prot : Bool) (es : List Entry) (l : LabelList) :
    Except Err LabelList :=
  match searchFold [(2, .arr)] (fun (s : Unit) _ => (s, true)) es [] () with
  | (.error _, _) => .error .critParameter
  | (.ok f, _) =>
    match f.lookup 2 with
    | some (.arr k, c) =>
      if !prot then .error .parameterNotProtected
      else
        match elements P false (room - 1) k c with
        | .error _ => .error .modelHang
        | .ok (ces, _) =>
          match critFn ces 0 0 l with
          | .error y => .error y
          | .ok l' => if l'.isClear then .error .critParameter else .ok l'
    | _ => .ok l

theorem critParamFn_exact {P : QParams} {d : Dec} {start : Cur} {cnt : Option Nat}
    {ls : List Lvl} {es : List Entry} {cEnd : Cur} {prot : Bool} {l : LabelList}
    (h : InMap P d start cnt ls es cEnd) (hd : d.err = none) (hroom : d.room ≠ 0) :
    (∃ l', critParamFn P d.room prot es l = .ok l' ∧ CritOk P d.room prot es l l') ∨
    ∃ y l' d', critParamFn P d.room prot es l = .error y ∧
      decodeCritical P d prot l = (.error y, l', d') := by
  have hs := mapSearch_single h 2 .arr
  have hnf : ∀ u, d.mapSearch P [(2, .arr)] (fun (s : Unit) _ => (s, true)) () ≠
    (.error .labelNotFound, u) := fun u => Dec.mapSearch_notFound
  unfold critParamFn decodeCritical Dec.enterArrayFromMap
  rw [hd, ← Dec.mapSearch_fold h]
  simp only [Option.isSome_none, Bool.false_eq_true, if_false]
  cases hms : d.mapSearch P [(2, .arr)] (fun (s : Unit) _ => (s, true)) () with
  | mk r u =>
  rw [hms] at hs hnf
  cases r with
  | error x =>
    right
    cases x <;> first
      | exact absurd rfl (hnf u)
      | exact ⟨_, _, _, rfl, rfl⟩
  | ok f =>
    rcases (hs f).mp rfl with ⟨h0, rfl⟩ | ⟨e, h0, hie, ht, rfl⟩
    · exact .inl ⟨_, rfl, .inl ⟨filter_key_nil.mp h0, rfl⟩⟩
    · have hmem : e ∈ es.filter (fun e => decide (e.key = some 2)) := by rw [h0]; simp
      rw [List.mem_filter, decide_eq_true_iff] at hmem
      simp only [List.lookup, BEq.rfl]
      cases hv : e.itm.val with
      | arr k =>
        simp only [if_neg hroom]
        cases prot with
        | false => exact .inr ⟨_, _, _, rfl, rfl⟩
        | true =>
          obtain ⟨c2, hsk⟩ := Rem_skip h.rem e hmem.1
          have hr1 : d.room = (d.room - 1) + 1 := by omega
          rw [hv, hr1, skipValue_arr] at hsk
          obtain ⟨ces, hel⟩ := hsk
          have hroom' : (Dec.mk (Dec.openLvl k e.cur).2 (.arr (Dec.openLvl k e.cur).1 :: d.lvls)
              none d.tags).room = d.room - 1 := by
            simp only [Dec.room, List.length_cons]; omega
          have hr := elements_rem.mp hel
          rw [← hroom'] at hr
          simp only [Bool.not_true, Bool.false_eq_true, if_false, hel]
          rcases critFn_exact P ((Dec.openLvl k e.cur).2.rest.length + 1) _ 0 0 l
            _ _ ces c2 rfl (Nat.lt_succ_self _) hr with ⟨l', hfn, hcf⟩ | ⟨y, l', d', hfn, hc⟩
          · rw [hfn]
            simp only
            cases hcl : l'.isClear with
            | false =>
              exact .inl ⟨l', rfl, .inr ⟨rfl, hroom, e, k, ces, c2, h0, hie, hv, hel, hcf, hcl⟩⟩
            | true =>
              right
              obtain ⟨d', t, h1, h2⟩ := critLoop_intro P ((Dec.openLvl k e.cur).2.rest.length + 1)
                _ 0 0 _ l' _ _ ces c2 rfl rfl (Nat.lt_succ_self _) hr hcf
              simp only [h1, hcl, if_true]
              exact ⟨_, _, _, rfl, rfl⟩
          · right
            rw [hfn]
            simp only [hc]
            exact ⟨_, _, _, rfl, rfl⟩
      | _ => rw [hv] at ht; cases ht

/-- `parse_cose_header_parameters` on the entries of a header. -/
def headerFn (cfg : Config) (P : QParams) (room : Nat) (prot : Bool) (es : List Entry)
    (p : Params) (crit unk : LabelList) : Except Err (Params × LabelList × LabelList) :=
  match searchFold headerQs headerCb es [] ⟨unk, .ok ()⟩ with
  | (.error .callbackFail, s) =>
    match s.ret with
    | .error y => .error y
    | .ok () => .error .modelHang
  | (.error x, _) => .error (paramErr x)
  | (.ok f, s) =>
    match copyParams cfg prot f p with
    | .error y => .error y
    | .ok p' =>
      match critParamFn P room prot es crit with
      | .error y => .error y
      | .ok crit' => .ok (p', crit', s.unk)

theorem headerFn_exact {cfg : Config} {P : QParams} {prot : Bool} {st : Parse}
    {it : Itm} {n : Option Nat} {c1 cEnd : Cur} {es : List Entry} {xs : List Int × List Str}
    (h0 : st.d.err = none) (hroom : st.d.room - 1 ≠ 0) (hf : st.d.fetch P = (.ok it, c1))
    (hv : it.val = .map n) (hel : elements P true (st.d.room - 1) n c1 = .ok (es, cEnd))
    (hxs : LLok xs) (hunk : st.unk = mkLL xs.1 xs.2) :
    (∃ p' crit' unk', headerFn cfg P (st.d.room - 1) prot es st.params st.crit st.unk =
        .ok (p', crit', unk') ∧
      HeaderOk cfg P (st.d.room - 1) prot es st.params st.crit st.unk p' crit' unk') ∨
    ∃ y st', headerFn cfg P (st.d.room - 1) prot es st.params st.crit st.unk = .error y ∧
      parseHeader cfg P prot st = (.error y, st') := by
  have hd1 := Dec.enterMap_intro h0 hf hv (by omega)
  have hlv : (st.d.enterMap P).lvls =
    .map (Dec.openLvl n c1).2 (Dec.openLvl n c1).1 :: st.d.lvls := by rw [hd1]
  have hrm : (st.d.enterMap P).room = st.d.room - 1 := by
    simp only [Dec.room, hlv, List.length_cons]; omega
  have herr : (st.d.enterMap P).err = none := by rw [hd1]; exact h0
  have hr := elements_rem.mp hel
  rw [← hrm] at hr
  have hin : InMap P (st.d.enterMap P) (Dec.openLvl n c1).2 (Dec.openLvl n c1).1 st.d.lvls es
    cEnd := ⟨hlv, hr⟩
  unfold headerFn parseHeader Dec.getItemsInMap
  simp only [herr, Option.isSome_none, Bool.false_eq_true, if_false,
    Dec.mapSearch_fold hin, hunk]
  cases hsf : searchFold headerQs headerCb es [] ⟨mkLL xs.1 xs.2, .ok ()⟩ with
  | mk r s' =>
  cases r with
  | error x =>
    right
    simp only
    rcases headerSearch_error hr hxs hsf with ⟨rfl, hre⟩ | ⟨hx1, hx2, hre⟩
    · simp only
      rcases hre with ⟨h1, h2⟩ | ⟨h1, e, he, h2⟩
      · rw [h1]; exact ⟨_, _, rfl, rfl⟩
      · rw [h1]; exact ⟨_, _, rfl, rfl⟩
    · cases x <;> first | exact absurd rfl hx1 | exact ⟨_, _, rfl, rfl⟩
  | ok f =>
    simp only [herr]
    cases hcp : copyParams cfg prot f st.params with
    | error y => exact .inr ⟨y, _, rfl, rfl⟩
    | ok p' =>
      simp only
      rcases critParamFn_exact (prot := prot) (l := st.crit) hin herr (by omega) with
          ⟨l', hfn, hcr⟩ | ⟨y, l', d', hfn, hdc⟩
      · rw [hrm] at hcr hfn
        rw [hfn]
        exact .inl ⟨p', l', s'.unk, rfl, ⟨f, s'.ret, hsf, hcp⟩, hcr⟩
      · rw [hrm] at hfn
        rw [hfn, hdc]
        exact .inr ⟨y, _, rfl, rfl⟩

/-- Decoding of a message laid open. -/
def bodyFn (cfg : Config) (P : QParams) (v : MsgView) (pay : VPayload) : Except Err Decoded :=
  match headerFn cfg P 12 true v.protEntries Params.clear LabelList.clear LabelList.clear with
  | .error y => .error y
  | .ok (p1, crit1, unk1) =>
    match headerFn cfg P 13 false v.unprotEntries p1 crit1 unk1 with
    | .error y => .error y
    | .ok (p2, crit2, unk2) =>
      match pay with
      | .inline _ =>
        match v.payload, v.payloadTags with
        | .bstr s, [] => .ok ⟨p2, crit2, unk2, .slice v.prot, .slice s, .slice v.sig⟩
        | _, _ => .error .sign1Format
      | .detached p =>
        if v.payload = .null then .ok ⟨p2, crit2, unk2, .slice v.prot, .ext p, .slice v.sig⟩
        else .error .cborFormatting

theorem bodyFn_exact {cfg : Config} {P : QParams} {msg : Bytes} {pay : VPayload} (junk : Junk)
    {v : MsgView} (hv : IsView P msg v) :
    (∃ x, bodyFn cfg P v pay = .ok x ∧ DecodesTo cfg P v pay x) ∨
    ∃ y st, bodyFn cfg P v pay = .error y ∧
      decodeBody cfg P ((Dec.init msg).enterArray P) pay junk = (.error y, st) := by
  obtain ⟨hlen, n, c1, e0, e1, e2, e3, cEnd, m, cE1, hen, hel, hend, he0, hip, hm1, he1, hel1,
    he2, he3⟩ := hv
  rw [enterArray_intro_msg hlen hen]
  have r0 := elements_rem.mp hel
  obtain ⟨-, -, -, c0', hs0, r1⟩ := Rem_cons_iff.mp r0
  obtain ⟨-, -, -, c1', hs1, r2⟩ := Rem_cons_iff.mp r1
  rw [skipValue_simple P 14 (by rw [he0]; rfl)] at hs0
  cases hs0
  have hs1' : skipValue P 14 e1.itm.val e1.cur = .ok cE1 := by
    rw [hm1, skipValue_map]; exact ⟨_, hel1⟩
  rw [hs1'] at hs1
  cases hs1
  unfold decodeBody bodyFn
  have f0 := Dec.fetch_rem (P := P) (d := ⟨(Dec.openLvl n c1).2, [.arr (Dec.openLvl n c1).1],
    none, v.tags⟩) rfl r0 (by rw [he0])
  rw [Dec.enterBstrWrapped_intro (s := v.prot) rfl f0 (by rw [he0]) (by rw [he0])
    (by simp [Dec.room, maxDecNesting])]
  simp only
  have hlen0 : (wrapOut junk.prot (some (some v.prot))).ub.len = v.prot.bytes.length := rfl
  -- the protected header
  have hprot : (∃ p1 crit1 unk1, headerFn cfg P 12 true v.protEntries Params.clear
        LabelList.clear LabelList.clear = .ok (p1, crit1, unk1) ∧
        HeaderOk cfg P 12 true v.protEntries Params.clear
        LabelList.clear LabelList.clear p1 crit1 unk1 ∧
        ∃ t c, parseProtected cfg P (wrapOut junk.prot (some (some v.prot)))
      ⟨⟨⟨v.prot.off, v.prot.bytes⟩, [.wrap e0.cur, .arr (Dec.openLvl n c1).1], none, []⟩,
        Params.clear, LabelList.clear, LabelList.clear⟩ =
      (.ok (), ⟨⟨c, [.wrap e0.cur, .arr (Dec.openLvl n c1).1], none, t⟩, p1, crit1, unk1⟩)) ∨
      ∃ y st, headerFn cfg P 12 true v.protEntries Params.clear
        LabelList.clear LabelList.clear = .error y ∧
        parseProtected cfg P (wrapOut junk.prot (some (some v.prot)))
      ⟨⟨⟨v.prot.off, v.prot.bytes⟩, [.wrap e0.cur, .arr (Dec.openLvl n c1).1], none, []⟩,
        Params.clear, LabelList.clear, LabelList.clear⟩ = (.error y, st) := by
    unfold parseProtected
    rw [hlen0]
    rcases hip with ⟨hb, hes⟩ | ⟨hb, it, k, c3, c4, hent, hvk, hie, helk⟩
    · rw [hes]
      refine .inl ⟨_, _, _, ?_, headerOk_nil.mpr ⟨rfl, rfl, rfl⟩, [], ⟨v.prot.off, v.prot.bytes⟩, ?_⟩
      · simp [headerFn, searchFold, copyParams, takeAlg, takeKid, takeIv, takePartialIv,
          takeContentType, critParamFn]
      · rw [if_neg (by simp [hb])]
    · rw [if_pos (by simp [hb])]
      rcases headerFn_exact (cfg := cfg) (P := P) (prot := true)
        (st := ⟨⟨⟨v.prot.off, v.prot.bytes⟩, [.wrap e0.cur, .arr (Dec.openLvl n c1).1], none, []⟩,
          Params.clear, LabelList.clear, LabelList.clear⟩) rfl
        (by simp [Dec.room, maxDecNesting]) (Dec.fetch_ok.mpr ⟨rfl, hb, hie, none, hent⟩) hvk
        helk LLok_nil mkLL_nil.symm with ⟨p1, crit1, unk1, hfn, hho⟩ | ⟨y, st, hfn, hy⟩
      · obtain ⟨t, ht⟩ := parseHeader_intro (cfg := cfg) (P := P) (prot := true)
          (st := ⟨⟨⟨v.prot.off, v.prot.bytes⟩, [.wrap e0.cur, .arr (Dec.openLvl n c1).1], none,
            []⟩, Params.clear, LabelList.clear, LabelList.clear⟩) rfl
          (by simp [Dec.room, maxDecNesting]) (Dec.fetch_ok.mpr ⟨rfl, hb, hie, none, hent⟩) hvk
          helk hho
        exact .inl ⟨p1, crit1, unk1, hfn, hho, t, c4, ht⟩
      · exact .inr ⟨y, st, hfn, hy⟩
  rcases hprot with ⟨p1, crit1, unk1, hfn0, hho0, t, c, hprot⟩ | ⟨y, st, hfn0, hprot⟩
  case inr => rw [hprot, hfn0]; exact .inr ⟨y, st, rfl, rfl⟩
  rw [hprot, hfn0]
  simp only
  have hexit : (Dec.mk c [.wrap e0.cur, .arr (Dec.openLvl n c1).1] none t).exitBstrWrapped =
      ⟨(stepLeft (Dec.openLvl n c1).1 e0.cur).2, [.arr (stepLeft (Dec.openLvl n c1).1 e0.cur).1],
        none, t⟩ := by
    unfold Dec.exitBstrWrapped
    simp only [Option.isSome_none, Bool.false_eq_true, if_false, done_eq]
  rw [hexit]
  have hho0' := hho0
  rw [← mkLL_nil] at hho0'
  have hho0'' : HeaderOk cfg P 12 true v.protEntries Params.clear (mkLL [] [])
    (mkLL (([], []) : List Int × List Str).1 (([], []) : List Int × List Str).2) p1 crit1 unk1 :=
    hho0'
  obtain ⟨hf1, ⟨xs, hn1, hu1⟩, hcr1⟩ := HeaderOk.facts LLok_nil hho0''
  have hxs := noteLabels_ok LLok_nil hn1
  -- the unprotected header
  have f1 := Dec.fetch_rem (P := P) (d := ⟨(stepLeft (Dec.openLvl n c1).1 e0.cur).2,
    [.arr (stepLeft (Dec.openLvl n c1).1 e0.cur).1], none, t⟩) rfl r1 he1
  rcases headerFn_exact (cfg := cfg) (P := P) (prot := false)
    (st := ⟨⟨(stepLeft (Dec.openLvl n c1).1 e0.cur).2,
      [.arr (stepLeft (Dec.openLvl n c1).1 e0.cur).1], none, t⟩, p1, crit1, unk1⟩) rfl
    (by simp [Dec.room, maxDecNesting]) f1 hm1 hel1 hxs hu1 with
    ⟨p2, crit2, unk2, hfn1, hho1⟩ | ⟨y, st, hfn1, hy⟩
  case inr =>
    have hfn1' : headerFn cfg P 13 false v.unprotEntries p1 crit1 unk1 = .error y := hfn1
    rw [hy, hfn1']
    exact .inr ⟨y, st, rfl, rfl⟩
  have hfn1' : headerFn cfg P 13 false v.unprotEntries p1 crit1 unk1 = .ok (p2, crit2, unk2) := hfn1
  rw [hfn1']
  simp only
  by_cases hpay : ∃ b, PayRel pay v.payload v.payloadTags b
  · obtain ⟨b, hb⟩ := hpay
    left
    cases pay with
    | inline w =>
      obtain ⟨s, h1, h2, rfl⟩ := hb
      simp only [h1, h2]
      exact ⟨_, rfl, rfl, rfl, ⟨s, h1, h2, rfl⟩, p1, crit1, unk1, hho0, hho1⟩
    | detached p =>
      obtain ⟨h1, rfl⟩ := hb
      simp only [h1, if_true]
      exact ⟨_, rfl, rfl, rfl, ⟨h1, rfl⟩, p1, crit1, unk1, hho0, hho1⟩
  · right
    obtain ⟨t2, h2⟩ := parseHeader_intro (cfg := cfg) (P := P) (prot := false)
      (st := ⟨⟨(stepLeft (Dec.openLvl n c1).1 e0.cur).2,
        [.arr (stepLeft (Dec.openLvl n c1).1 e0.cur).1], none, t⟩, p1, crit1, unk1⟩) rfl
      (by simp [Dec.room, maxDecNesting]) f1 hm1 hel1 hho1
    rw [h2]
    simp only [done_eq]
    have f2 := fun tt => Dec.fetch_rem (P := P) (d := ⟨_, [.arr _], none, tt⟩) rfl r2
      (by rw [he2])
    generalize hl2 : stepLeft (stepLeft (Dec.openLvl n c1).1 e0.cur).1 cE1 = l2 at r2 f2 ⊢
    cases pay with
    | detached p =>
      have hnn : v.payload ≠ .null := fun h => hpay ⟨_, h, rfl⟩
      unfold takePayload
      simp only
      rw [Dec.getNext_intro (f2 t2), he2]
      simp only [if_neg hnn]
      exact ⟨_, _, rfl, rfl⟩
    | inline w =>
      have hnb : ¬ ∃ s, v.payload = .bstr s ∧ v.payloadTags = [] :=
        fun ⟨s, h1, h2⟩ => hpay ⟨_, s, h1, h2, rfl⟩
      have hg : ∃ d' : Dec, (Dec.mk l2.2 [.arr l2.1] none t2).getByteString P =
          ({ d' with err := some .unexpectedType }, none) := by
        unfold Dec.getByteString
        simp only [Option.isSome_none, Bool.false_eq_true, if_false]
        rw [Dec.getNext_intro (f2 t2), he2]
        simp only
        split
        · rename_i s h1 h2
          exact absurd ⟨s, h1, h2⟩ hnb
        · exact ⟨{ (Dec.mk l2.2 [.arr l2.1] none t2).done e2.cur with tags := v.payloadTags }, rfl⟩
      obtain ⟨d', hg⟩ := hg
      unfold takePayload
      simp only
      rw [hg]
      have hs : (Dec.mk d'.cur d'.lvls (some .unexpectedType) d'.tags).getByteString P =
        (⟨d'.cur, d'.lvls, some .unexpectedType, d'.tags⟩, none) := rfl
      have hx : (Dec.mk d'.cur d'.lvls (some .unexpectedType) d'.tags).exitArray P =
        ⟨d'.cur, d'.lvls, some .unexpectedType, d'.tags⟩ := rfl
      simp only [hs, hx]
      refine ⟨.sign1Format, _, ?_, rfl⟩
      split
      · rename_i s h1 h2
        exact absurd ⟨s, h1, h2⟩ hnb
      · rfl

end TCose
