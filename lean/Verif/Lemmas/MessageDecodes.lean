import Verif.Lemmas.HeaderIntro

/-!
# A message that follows the rules is decoded into its parameters
-/

namespace TCose
open Spec

theorem get_some {h : Header} {i : Int} {x : Item} (hg : Header.get h i = some x) :
    (Label.int i, x) ∈ h := by
  unfold Header.get at hg
  rw [Option.map_eq_some_iff] at hg
  obtain ⟨p, hp, rfl⟩ := hg
  have h1 := List.mem_of_find?_eq_some hp
  have h2 := List.find?_some hp
  simp only [decide_eq_true_eq] at h2
  rw [← h2]
  exact h1

theorem get_none {h : Header} {i : Int} (hg : Header.get h i = none) (x : Item) :
    (Label.int i, x) ∉ h := by
  unfold Header.get at hg
  rw [Option.map_eq_none_iff, List.find?_eq_none] at hg
  intro hm
  have := hg _ hm
  simp at this

theorem unique_get {h : Header} (hu : (h.map (·.1)).Nodup) {i : Int} {x : Item}
    (hm : (Label.int i, x) ∈ h) : Header.get h i = some x := by
  induction h with
  | nil => cases hm
  | cons p h ih =>
    rw [List.map_cons, List.nodup_cons] at hu
    unfold Header.get
    rw [List.find?_cons]
    rcases List.mem_cons.mp hm with rfl | hm
    · simp
    · have : p.1 ≠ .int i := by
        intro hc
        apply hu.1
        rw [hc]
        exact List.mem_map.mpr ⟨_, hm, rfl⟩
      rw [decide_eq_false this]
      exact ih hu.2 hm

theorem unique_sep {a b : Header} (hu : ((a ++ b).map (·.1)).Nodup) {l : Label} {x y : Item}
    (ha : (l, x) ∈ a) (hb : (l, y) ∈ b) : False := by
  rw [List.map_append, List.nodup_append] at hu
  exact hu.2.2 l (List.mem_map.mpr ⟨_, ha, rfl⟩) l (List.mem_map.mpr ⟨_, hb, rfl⟩) rfl

/-- Entries of a header with label `i`. -/
theorem hdr_entry {P : QParams} {d : Nat} {h : Header} {es : List Entry} (hh : HdrIs P d h es)
    {e : Entry} (he : e ∈ es) {i : Int} (hl : e.label = some (.int i)) :
    ∃ x, (Label.int i, x) ∈ h ∧ EntryIs P d (Label.int i, x) e := by
  obtain ⟨⟨l, x⟩, hp, h1, h2⟩ := hh.mem_right he
  have := (h2.int_iff i).mp hl
  simp only at this
  subst this
  exact ⟨x, hp, h1⟩

theorem entry_hdr {P : QParams} {d : Nat} {h : Header} {es : List Entry} (hh : HdrIs P d h es)
    {i : Int} {x : Item} (hx : (Label.int i, x) ∈ h) :
    ∃ e ∈ es, e.label = some (.int i) ∧ EntryIs P d (Label.int i, x) e := by
  obtain ⟨e, he, h1, h2⟩ := hh.mem_left hx
  exact ⟨e, he, h2, h1⟩

theorem hdr_absent {P : QParams} {d : Nat} {h : Header} {es : List Entry} (hh : HdrIs P d h es)
    {i : Int} (hx : ∀ x, (Label.int i, x) ∉ h) : ∀ e ∈ es, e.label ≠ some (.int i) := by
  intro e he hl
  obtain ⟨x, hm, -⟩ := hdr_entry hh he hl
  exact hx x hm

theorem int_live {i : Int} (h : InInt64 i) : (Spec.int i).live := by
  unfold InInt64 at h
  unfold Spec.int
  split
  · exact ⟨rfl, rfl⟩
  · refine ⟨rfl, ?_⟩
    simp only [Item.tooLow, decide_eq_false_iff_not]
    omega

theorem EntryIs.atom {P : QParams} {d : Nat} {l : Label} {x : Item} {e : Entry}
    (h : EntryIs P d (l, x) e) (hx : x.isAtom = true) (hl : x.live) :
    e.itm.err = none ∧ AtomIs x e.itm.val := by
  obtain ⟨-, cE, hv⟩ := h
  rw [ValIs_atom hx hl] at hv
  exact ⟨hv.1, hv.2.2⟩

theorem bstr_param {P : QParams} {m : Message} (hm : m.Valid) {pe ue : List Entry} {d d' : Nat}
    (hp : HdrIs P d m.prot pe) (hu : HdrIs P d' m.unprot ue) {i : Int} (hi : i = 4 ∨ i = 5 ∨ i = 6)
    {g1 g2 : Option Str}
    (n1 : (∀ e ∈ pe, e.label ≠ some (.int i)) → g1 = none)
    (h1 : ∀ e ∈ pe, e.label = some (.int i) → ∃ s, e.itm.val = .bstr s ∧ g1 = some s)
    (n2 : (∀ e ∈ ue, e.label ≠ some (.int i)) → g2 = g1)
    (h2 : ∀ e ∈ ue, e.label = some (.int i) → ∃ s, e.itm.val = .bstr s ∧ g2 = some s) :
    g2.map (·.bytes) = m.bstrParam i := by
  unfold Message.bstrParam
  have same : ∀ {d : Nat} {x : Item} {b : Bytes} {e : Entry} {s : Str},
      EntryIs P d (Label.int i, x) e → x = .bstr b → e.itm.val = .bstr s → s.bytes = b := by
    intro d x b e s he hx hs
    subst hx
    obtain ⟨-, off, hv⟩ := he.atom rfl ⟨rfl, rfl⟩
    rw [hv] at hs
    cases hs
    rfl
  cases hg : Header.get m.headers i with
  | none =>
    have hno := get_none hg
    have hno1 := hdr_absent hp (fun x hx => hno x (List.mem_append_left _ hx))
    have hno2 := hdr_absent hu (fun x hx => hno x (List.mem_append_right _ hx))
    rw [n2 hno2, n1 hno1]
    rfl
  | some x =>
    have hmem := get_some hg
    obtain ⟨b, rfl⟩ := hm.bstrs i hi x hmem
    rcases List.mem_append.mp hmem with hin | hin
    · have hno2 := hdr_absent hu (fun x hx => unique_sep hm.unique hin hx)
      obtain ⟨e, he, hl, hee⟩ := entry_hdr hp hin
      obtain ⟨s, hs, hg1⟩ := h1 e he hl
      rw [n2 hno2, hg1]
      simp only [Option.map_some, same hee rfl hs]
    · obtain ⟨e, he, hl, hee⟩ := entry_hdr hu hin
      obtain ⟨s, hs, hg2⟩ := h2 e he hl
      rw [hg2]
      simp only [Option.map_some, same hee rfl hs]

/-- Returned parameters are those of the message. -/
structure ParamsAre (cfg : Config) (m : Message) (p : Params) : Prop where
  alg : p.alg = m.alg.getD 0
  kid : p.kid.map (·.bytes) = m.bstrParam 4
  iv : p.iv.map (·.bytes) = m.bstrParam 5
  partialIv : p.partialIv.map (·.bytes) = m.bstrParam 6
  ct : match if cfg.disableContentType then .none else m.contentType with
    | .none => p.ctTstr = none ∧ p.ctUint = 65536
    | .num n => p.ctTstr = none ∧ p.ctUint = n
    | .text t => p.ctTstr.map (·.bytes) = some t ∧ p.ctUint = 65536

theorem atomIs_uint {n : Nat} {v : Val} (hn : n ≤ 65535) (h : AtomIs (.uint n) v) : v = .int n := by
  simp only [AtomIs] at h
  rw [if_pos (by unfold int64Max; omega)] at h
  exact h

theorem alg_int {m : Message} (hm : m.Valid) :
    (∀ i : Int, (Label.int 1, Spec.int i) ∈ m.prot → m.alg = some i) ∧
    ((∀ x, (Label.int 1, x) ∉ m.prot) → m.alg = none) := by
  have hu : (m.prot.map (·.1)).Nodup := by
    have := hm.unique
    rw [Message.headers, List.map_append, List.nodup_append] at this
    exact this.1
  constructor
  · intro i hi
    unfold Message.alg
    rw [unique_get hu hi]
    unfold Spec.int
    by_cases h0 : 0 ≤ i
    · rw [if_pos h0]; simp only [Option.some.injEq]; omega
    · rw [if_neg h0]; simp only [Option.some.injEq]; omega
  · intro hno
    unfold Message.alg
    cases hg : Header.get m.prot 1 with
    | none => rfl
    | some x => exact absurd (get_some hg) (hno x)

theorem hdr_label {P : QParams} {d : Nat} {m : Message} (hm : m.Valid) {h : Header}
    {es : List Entry} (hs : ∀ p ∈ h, p ∈ m.headers) (he : Each (EntryIs P d) h es) :
    HdrIs P d h es := by
  refine he.imp fun p hp e hpe => ⟨hpe, hpe.label fun i hi => ?_⟩
  refine hm.range i p.2 ?_
  rw [← hi]
  exact hs p hp

/-- The elements of the crit list. -/
theorem crit_labels {P : QParams} {n d : Nat} : ∀ {ls : List Label} {ces : List Entry},
    (∀ i, Label.int i ∈ ls → InInt64 i) →
    Each (fun x e => ∃ cE', ValIs P n d x e.itm e.cur cE') (ls.map Label.item) ces →
    (∀ e ∈ ces, isLabelItem e) ∧ intsOf ces = labelInts ls ∧
      (tstrsOf ces).map (·.bytes) = labelTexts ls := by
  intro ls
  induction ls with
  | nil => intro ces _ h; cases h; exact ⟨by simp, rfl, rfl⟩
  | cons l ls ih =>
    intro ces hr h
    cases h with
    | @cons _ e _ ces h1 h2 =>
      obtain ⟨i1, i2, i3⟩ := ih (fun i hi => hr i (List.mem_cons_of_mem _ hi)) h2
      obtain ⟨cE, h1⟩ := h1
      cases l with
      | int i =>
        have ha : (Label.int i).item.isAtom = true := int_isAtom i
        rw [ValIs_atom ha (int_live (hr i (List.mem_cons_self ..)))] at h1
        have hv := atomIs_int (hr i (List.mem_cons_self ..)) h1.2.2
        refine ⟨?_, ?_, ?_⟩
        · intro e' he'
          rcases List.mem_cons.mp he' with rfl | he'
          · exact ⟨h1.1, .inl ⟨i, hv⟩⟩
          · exact i1 e' he'
        · simp only [intsOf, labelInts, List.filterMap_cons, hv] at i2 ⊢
          rw [i2]
        · simp only [tstrsOf, labelTexts, List.filterMap_cons, hv] at i3 ⊢
          exact i3
      | text t =>
        have ha : (Label.text t).item.isAtom = true := rfl
        rw [ValIs_atom ha ⟨rfl, rfl⟩] at h1
        obtain ⟨off, hv⟩ := h1.2.2
        refine ⟨?_, ?_, ?_⟩
        · intro e' he'
          rcases List.mem_cons.mp he' with rfl | he'
          · exact ⟨h1.1, .inr ⟨_, hv⟩⟩
          · exact i1 e' he'
        · simp only [intsOf, labelInts, List.filterMap_cons, hv] at i2 ⊢
          exact i2
        · simp only [tstrsOf, labelTexts, List.filterMap_cons, hv, List.map_cons] at i3 ⊢
          rw [i3]

theorem mem_labelInts {ls : List Label} {i : Int} : i ∈ labelInts ls ↔ Label.int i ∈ ls := by
  unfold labelInts
  rw [List.mem_filterMap]
  constructor
  · rintro ⟨l, hl, h⟩
    cases l with
    | int j => cases h; exact hl
    | text t => cases h
  · intro h; exact ⟨_, h, rfl⟩

theorem mem_labelTexts {ls : List Label} {t : Bytes} : t ∈ labelTexts ls ↔ Label.text t ∈ ls := by
  unfold labelTexts
  rw [List.mem_filterMap]
  constructor
  · rintro ⟨l, hl, h⟩
    cases l with
    | int j => cases h
    | text t => cases h; exact hl
  · intro h; exact ⟨_, h, rfl⟩

/-- The crit parameter is accepted. -/
theorem message_crit {P : QParams} {m : Message} (hm : m.Valid) {pe : List Entry}
    (hp : HdrIs P 12 m.prot pe) : ∃ cr, CritOk P 12 true pe LabelList.clear cr ∧
      (((∀ x, (Label.int 2, x) ∉ m.prot) ∧ cr = mkLL [] []) ∨
       ∃ ls ts, m.IsCrit ls ∧ ts.map (·.bytes) = labelTexts ls ∧ cr = mkLL (labelInts ls) ts) := by
  have hu : (m.prot.map (·.1)).Nodup := by
    have := hm.unique
    rw [Message.headers, List.map_append, List.nodup_append] at this
    exact this.1
  cases hg : Header.get m.prot 2 with
  | none =>
    have hno := get_none hg
    exact ⟨_, .inl ⟨hdr_absent hp hno, rfl⟩, .inl ⟨hno, mkLL_nil.symm⟩⟩
  | some x =>
    have hmem := get_some hg
    obtain ⟨ls, rfl, hne, hni, hnt, h0, hte, hr⟩ := hm.crit x hmem
    obtain ⟨e, he, hl, hee⟩ := entry_hdr hp hmem
    obtain ⟨-, cE, herr, -, cnt, hval, hel⟩ := hee
    obtain ⟨ces, hces, heach⟩ := hel 11 (by omega)
    obtain ⟨l1, l2, l3⟩ := crit_labels hr heach
    have hlen : (tstrsOf ces).length = (labelTexts ls).length := by rw [← l3, List.length_map]
    refine ⟨mkLL (labelInts ls) (tstrsOf ces), .inr ⟨rfl, by decide, e, cnt, ces, cE, ?_, herr, hval,
      hces, ?_, ?_⟩, .inr ⟨ls, tstrsOf ces, hmem, l3, rfl⟩⟩
    · have hkeys := hdr_keys hp
      have hnd := nodup_ints hu
      rw [List.filterMap_map] at hnd
      have hnd : (pe.filterMap Entry.key).Nodup := by rw [hkeys]; exact hnd
      have hmem : e ∈ pe.filter (fun e => e.key = some 2) := by
        rw [List.mem_filter]; exact ⟨he, by simpa using key_iff.mpr hl⟩
      have hlen := wanted_unique (qs := [(2, .any)]) (es := pe) (i := 2) rfl
        (wanted_nodup _ hnd)
      generalize pe.filter (fun e => decide (e.key = some 2)) = fl at hmem hlen
      cases fl with
      | nil => cases hmem
      | cons a fl =>
        cases fl with
        | nil =>
          rcases List.mem_cons.mp hmem with rfl | h
          · rfl
          · cases h
        | cons b fl => simp only [List.length_cons] at hlen; omega
    · have := (critFold_iff ces [] [] (mkLL (labelInts ls) (tstrsOf ces)) (by simp) (by simp)).mpr
        ⟨l1, by simpa [l2, paramListMax] using hni,
          by simpa [hlen, paramListMax] using hnt, by simp [l2]⟩
      rw [mkLL_nil] at this
      exact this
    · cases hc : (mkLL (labelInts ls) (tstrsOf ces)).isClear with
      | false => rfl
      | true =>
        exfalso
        rw [isClear_mk] at hc
        cases hls : ls with
        | nil => exact hne hls
        | cons l ls' =>
          rw [hls] at hc h0 hte
          cases l with
          | int i =>
            simp only [labelInts, List.filterMap_cons, List.headD_cons] at hc
            apply h0
            rw [hc.1]
            exact List.mem_cons_self ..
          | text t =>
            rw [hls] at l3
            simp only [labelTexts, List.filterMap_cons] at l3
            cases hts : tstrsOf ces with
            | nil => rw [hts] at l3; cases l3
            | cons s ts =>
              rw [hts] at l3 hc
              simp only [List.map_cons, List.cons.injEq] at l3
              have := hc.2
              simp only [List.head?_cons, Option.map_some, Option.getD_some] at this
              apply hte
              rw [← this, l3.1]
              exact List.mem_cons_self ..

theorem valid_good {P : QParams} {d : Nat} {m : Message} (hm : m.Valid) {h : Header}
    {es : List Entry} (hs : ∀ p ∈ h, p ∈ m.headers) (ha : ∀ x, (Label.int 1, x) ∈ h → (Label.int 1, x) ∈ m.prot)
    (hh : HdrIs P d h es) :
    ∀ e ∈ es, ∀ i t, e.label = some (.int i) → headerQs.lookup i = some t →
      e.itm.err = none ∧ t.ok e.itm.val = true := by
  intro e he i t hl hq
  obtain ⟨x, hx, hee⟩ := hdr_entry hh he hl
  have hi := (headerQs_wanted i).mp (by rw [hq]; rfl)
  have hb : i = 4 ∨ i = 5 ∨ i = 6 → t = .bstr → e.itm.err = none ∧ t.ok e.itm.val = true := by
    intro hi ht
    obtain ⟨b, rfl⟩ := hm.bstrs i hi x (hs _ hx)
    obtain ⟨h1, off, h2⟩ := hee.atom rfl ⟨rfl, rfl⟩
    rw [h2, ht]
    exact ⟨h1, rfl⟩
  rcases hi with rfl | rfl | rfl | rfl | rfl
  · obtain ⟨j, rfl, -, h1, h2⟩ := hm.alg x (ha x hx)
    obtain ⟨h3, h4⟩ := hee.atom (int_isAtom j) (int_live (by unfold InInt64; omega))
    rw [atomIs_int (by unfold InInt64; omega) h4]
    cases hq
    exact ⟨h3, rfl⟩
  · cases hq
    rcases hm.ct x (hs _ hx) with ⟨t, rfl⟩ | ⟨n, -, rfl⟩
    · exact ⟨(hee.atom rfl ⟨rfl, rfl⟩).1, rfl⟩
    · exact ⟨(hee.atom rfl ⟨rfl, rfl⟩).1, rfl⟩
  · cases hq; exact hb (by simp) rfl
  · cases hq; exact hb (by simp) rfl
  · cases hq; exact hb (by simp) rfl

theorem valid_alg {P : QParams} {d : Nat} {m : Message} (hm : m.Valid) {es : List Entry}
    (hh : HdrIs P d m.prot es) {e : Entry} (he : e ∈ es) (hl : e.label = some (.int 1)) :
    ∃ i, e.itm.val = .int i ∧ m.alg = some i ∧ i ≠ 0 ∧ -2147483648 ≤ i ∧ i ≤ 2147483647 := by
  obtain ⟨x, hx, hee⟩ := hdr_entry hh he hl
  obtain ⟨j, rfl, h0, h1, h2⟩ := hm.alg x hx
  obtain ⟨h3, h4⟩ := hee.atom (int_isAtom j) (int_live (by unfold InInt64; omega))
  exact ⟨j, atomIs_int (by unfold InInt64; omega) h4, (alg_int hm).1 j hx, h0, h1, h2⟩

theorem valid_ct {P : QParams} {d : Nat} {m : Message} (hm : m.Valid) {h : Header}
    {es : List Entry} (hs : ∀ p ∈ h, p ∈ m.headers)
    (hh : HdrIs P d h es) {e : Entry} (he : e ∈ es) (hl : e.label = some (.int 3)) :
    (∃ s, e.itm.val = .tstr s ∧ m.contentType = .text s.bytes) ∨
    (∃ n : Nat, e.itm.val = .int n ∧ n ≤ 65535 ∧ m.contentType = .num n) := by
  obtain ⟨x, hx, hee⟩ := hdr_entry hh he hl
  have hg := unique_get hm.unique (hs _ hx)
  unfold Message.contentType
  rw [hg]
  rcases hm.ct x (hs _ hx) with ⟨t, rfl⟩ | ⟨n, hn, rfl⟩
  · obtain ⟨-, off, h2⟩ := hee.atom rfl ⟨rfl, rfl⟩
    exact .inl ⟨_, h2, rfl⟩
  · exact .inr ⟨n, atomIs_uint hn (hee.atom rfl ⟨rfl, rfl⟩).2, hn, rfl⟩

theorem unknownInts_append (a b : Header) :
    Header.unknownInts (a ++ b) = Header.unknownInts a ++ Header.unknownInts b := by
  simp [Header.unknownInts]

theorem texts_append (a b : Header) : Header.texts (a ++ b) = Header.texts a ++ Header.texts b := by
  simp [Header.texts]

theorem noteInts_countInts {ls : List (Option Val)} {i : Int} :
    i ∈ noteInts ls ↔ i ∈ countInts ls ∧ i ≠ 0 := by
  unfold noteInts countInts
  rw [List.mem_filterMap, List.mem_filterMap]
  constructor
  · rintro ⟨l, hl, h⟩
    split at h
    · rename_i j
      split at h
      · cases h
      · rename_i hj
        cases h
        rw [not_or] at hj
        exact ⟨⟨_, hl, by simp [hj.1]⟩, hj.2⟩
    · cases h
  · rintro ⟨⟨l, hl, h⟩, h0⟩
    split at h
    · rename_i j
      split at h
      · cases h
      · rename_i hj
        cases h
        exact ⟨_, hl, by simp [hj, h0]⟩
    · cases h

theorem takeWhile_noz : ∀ {l : List Int}, (0 : Int) ∉ l → l.takeWhile (· != 0) = l := by
  intro l
  induction l with
  | nil => intro _; rfl
  | cons y ys ih =>
    intro hn
    rw [List.mem_cons, not_or] at hn
    rw [List.takeWhile_cons, if_pos (by simpa using Ne.symm hn.1), ih hn.2]

theorem toInt32_small {i : Int} (h1 : -2147483648 ≤ i) (h2 : i ≤ 2147483647) : toInt32 i = i := by
  unfold toInt32; omega

theorem label_item_inj {a b : Label} (h : a.item = b.item) : a = b := by
  cases a with
  | int i =>
    cases b with
    | int j =>
      simp only [Label.item, Spec.int] at h
      split at h <;> split at h
      · injection h with h; congr 1; omega
      · cases h
      · cases h
      · injection h with h; congr 1; omega
    | text t => simp only [Label.item, Spec.int] at h; split at h <;> cases h
  | text t =>
    cases b with
    | int j => simp only [Label.item, Spec.int] at h; split at h <;> cases h
    | text u => simp only [Label.item, Item.tstr.injEq] at h; rw [h]

theorem label_items_inj : ∀ (a b : List Label), a.map Label.item = b.map Label.item → a = b := by
  intro a
  induction a with
  | nil =>
    intro b h
    cases b with
    | nil => rfl
    | cons _ _ => simp at h
  | cons x a ih =>
    intro b h
    cases b with
    | nil => simp at h
    | cons y b =>
      simp only [List.map_cons, List.cons.injEq] at h
      rw [ih b h.2, label_item_inj h.1]

theorem isCrit_unique {m : Message} (hm : m.Valid) {a b : List Label} (ha : m.IsCrit a)
    (hb : m.IsCrit b) : a = b := by
  have h1 := unique_get hm.unique (List.mem_append_left m.unprot ha)
  have h2 := unique_get hm.unique (List.mem_append_left m.unprot hb)
  have := h1.symm.trans h2
  simp only [Option.some.injEq, Item.arr.injEq] at this
  exact label_items_inj _ _ this

/-- **A valid message is decoded**, and the decoded parameters are its parameters. -/
theorem message_decodes (cfg : Config) {P : QParams} {m : Message} (hm : m.Valid) {v : MsgView}
    (hp : HdrIs P 12 m.prot v.protEntries) (hu : HdrIs P 13 m.unprot v.unprotEntries)
    {pay : VPayload} {b : Buf} (hpay : PayRel pay v.payload v.payloadTags b) :
    ∃ x, DecodesTo cfg P v pay x ∧ x.payload = b ∧ ParamsAre cfg m x.params ∧
      ((checkCritical x.crit x.unk).1 = .ok () ↔ m.NoUnknownCrit) := by
  have hsp : ∀ p ∈ m.prot, p ∈ m.headers := fun p h => List.mem_append_left _ h
  have hsu : ∀ p ∈ m.unprot, p ∈ m.headers := fun p h => List.mem_append_right _ h
  have hnd := hm.unique
  rw [Message.headers, List.map_append, List.nodup_append] at hnd
  have hkeys : ∀ {d : Nat} {h : Header} {es : List Entry}, (h.map (·.1)).Nodup → HdrIs P d h es →
      (es.filterMap Entry.key).Nodup := by
    intro d h es h1 h2
    rw [hdr_keys h2]
    have := nodup_ints h1
    rw [List.filterMap_map] at this
    exact this
  obtain ⟨cr, hcr, hcrm⟩ := message_crit hm hp
  obtain ⟨o1, o2, o3⟩ := hdr_others hp
  obtain ⟨u1, u2, u3⟩ := hdr_others hu
  have hi := hm.fewInts
  have ht := hm.fewTexts
  rw [Message.headers, unknownInts_append, ← o1, ← u1, List.length_append] at hi
  rw [Message.headers, texts_append, ← o2, ← u2, List.length_append, List.length_map,
    List.length_map] at ht
  obtain ⟨st1, hn1⟩ := noteLabels_intro _ ([], []) o3 (by simp only [List.length_nil, paramListMax]; omega)
    (by simp only [List.length_nil, paramListMax]; omega)
  have hst1 := (noteLabels_some _ _ _ hn1).1
  have hle := noteInts_le (otherLabels v.protEntries)
  obtain ⟨st2, hn2⟩ := noteLabels_intro _ st1 u3
    (by rw [hst1]; simp only [List.nil_append, paramListMax]; omega)
    (by rw [hst1]; simp only [List.nil_append, paramListMax]; omega)
  have hst2 := (noteLabels_some _ _ _ hn2).1
  rw [hst1] at hst2
  simp only [List.nil_append] at hst2
  have hok1 := noteLabels_ok LLok_nil hn1
  have hok2 := noteLabels_ok hok1 hn2
  -- the protected header
  obtain ⟨p1, -, hho1⟩ := headerOk_intro (cfg := cfg) (P := P) (room := 12) (prot := true)
    (p := Params.clear) (crit := LabelList.clear) (crit' := cr) LLok_nil (valid_good hm hsp (fun _ h => h) hp)
    (hkeys hnd.1 hp) hn1
    (by
      intro e he hl
      obtain ⟨i, h1, -, h2, -, h3⟩ := valid_alg hm hp he hl
      exact ⟨rfl, i, h1, h2, h3⟩)
    (fun _ _ _ => rfl) (fun _ _ _ => rfl) (fun _ _ _ => rfl)
    (by
      intro e he hl
      rcases valid_ct hm hsp hp he hl with ⟨s, h1, -⟩ | ⟨n, h1, h2, -⟩
      · exact .inl ⟨s, h1, rfl⟩
      · exact .inr ⟨n, h1, by omega, by omega, rfl⟩)
    hcr
  obtain ⟨f1, -, -⟩ := HeaderOk.facts LLok_nil hho1
  have sep : ∀ {i : Int} {e : Entry}, e ∈ v.unprotEntries → e.label = some (.int i) →
      ∀ e' ∈ v.protEntries, e'.label ≠ some (.int i) := by
    intro i e he hl
    obtain ⟨x, hx, -⟩ := hdr_entry hu he hl
    exact hdr_absent hp (fun y hy => unique_sep hm.unique hy hx)
  have nolab : ∀ i : Int, i = 1 ∨ i = 2 → ∀ e ∈ v.unprotEntries, e.label ≠ some (.int i) := by
    intro i hi
    apply hdr_absent hu
    intro x
    rcases hi with rfl | rfl
    · exact (hm.protectedOnly x).1
    · exact (hm.protectedOnly x).2
  -- the unprotected header
  obtain ⟨p2, -, hho2⟩ := headerOk_intro (cfg := cfg) (P := P) (room := 13) (prot := false)
    (p := p1) (crit := cr) (crit' := cr) hok1
    (valid_good hm hsu (fun x h => absurd h (hm.protectedOnly x).1) hu)
    (hkeys hnd.2.1 hu) hn2
    (fun e he hl => absurd hl (nolab 1 (.inl rfl) e he))
    (fun e he hl => f1.noKid (sep he hl)) (fun e he hl => f1.noIv (sep he hl))
    (fun e he hl => f1.noPiv (sep he hl))
    (by
      intro e he hl
      obtain ⟨c1, c2⟩ := f1.noCt (.inr (sep he hl))
      rcases valid_ct hm hsu hu he hl with ⟨s, h1, -⟩ | ⟨n, h1, h2, -⟩
      · exact .inl ⟨s, h1, c1⟩
      · exact .inr ⟨n, h1, by omega, by omega, c2⟩)
    (.inl ⟨nolab 2 (.inr rfl), rfl⟩)
  obtain ⟨f2, -, -⟩ := HeaderOk.facts hok1 hho2
  refine ⟨⟨p2, cr, mkLL st2.1 st2.2, .slice v.prot, b, .slice v.sig⟩,
    ⟨rfl, rfl, hpay, p1, cr, mkLL st1.1 st1.2, ?_, hho2⟩, rfl, ?_, ?_⟩
  · rw [mkLL_nil] at hho1; exact hho1
  · constructor
    · -- alg
      rw [f2.noAlg (nolab 1 (.inl rfl))]
      cases hg : Header.get m.prot 1 with
      | none =>
        have hno := get_none hg
        rw [f1.noAlg (hdr_absent hp hno), (alg_int hm).2 hno]
        rfl
      | some x =>
        obtain ⟨e, he, hl, -⟩ := entry_hdr hp (get_some hg)
        obtain ⟨i, h1, h2, -, h3, h4⟩ := valid_alg hm hp he hl
        obtain ⟨-, j, h5, -, -, h6⟩ := f1.alg e he hl
        rw [h1] at h5
        cases h5
        rw [h6, h2, toInt32_small h3 h4]
        rfl
    · exact bstr_param hm hp hu (by simp) (fun h => f1.noKid h) (fun e he hl => (f1.kid e he hl).2)
        (fun h => f2.noKid h) (fun e he hl => (f2.kid e he hl).2)
    · exact bstr_param hm hp hu (by simp) (fun h => f1.noIv h) (fun e he hl => (f1.iv e he hl).2)
        (fun h => f2.noIv h) (fun e he hl => (f2.iv e he hl).2)
    · exact bstr_param hm hp hu (by simp) (fun h => f1.noPiv h) (fun e he hl => (f1.piv e he hl).2)
        (fun h => f2.noPiv h) (fun e he hl => (f2.piv e he hl).2)
    · cases hd : cfg.disableContentType with
      | true =>
        obtain ⟨a1, a2⟩ := f1.noCt (.inl hd)
        obtain ⟨b1, b2⟩ := f2.noCt (.inl hd)
        exact ⟨by rw [b1, a1]; rfl, by rw [b2, a2]; rfl⟩
      | false =>
        simp only [Bool.false_eq_true, if_false]
        cases hg : Header.get m.headers 3 with
        | none =>
          have hno := get_none hg
          obtain ⟨a1, a2⟩ := f1.noCt (.inr (hdr_absent hp (fun x hx => hno x (hsp _ hx))))
          obtain ⟨b1, b2⟩ := f2.noCt (.inr (hdr_absent hu (fun x hx => hno x (hsu _ hx))))
          have : m.contentType = .none := by unfold Message.contentType; rw [hg]
          rw [this]
          exact ⟨by rw [b1, a1]; rfl, by rw [b2, a2]; rfl⟩
        | some x =>
          rcases List.mem_append.mp (get_some hg) with hin | hin
          · obtain ⟨e, he, hl, -⟩ := entry_hdr hp hin
            obtain ⟨b1, b2⟩ := f2.noCt (.inr (hdr_absent hu
              (fun x hx => unique_sep hm.unique hin hx)))
            rcases valid_ct hm hsp hp he hl with ⟨s, h1, h2⟩ | ⟨n, h1, h2, h3⟩
            · rw [h2]
              rcases f1.ct hd e he hl with ⟨s', g1, -, g2, g3⟩ | ⟨i, g1, -⟩
              · rw [h1] at g1; cases g1
                exact ⟨by simp only [b1, g2, Option.map_some], by simp only [b2, g3]; rfl⟩
              · rw [h1] at g1; cases g1
            · rw [h3]
              rcases f1.ct hd e he hl with ⟨s', g1, -⟩ | ⟨i, g1, -, -, -, g2, g3⟩
              · rw [h1] at g1; cases g1
              · rw [h1] at g1; cases g1
                exact ⟨by simp only [b1, g3]; rfl, by simp only [b2, g2]; omega⟩
          · obtain ⟨e, he, hl, -⟩ := entry_hdr hu hin
            obtain ⟨b1, b2⟩ := f1.noCt (.inr (sep he hl))
            rcases valid_ct hm hsu hu he hl with ⟨s, h1, h2⟩ | ⟨n, h1, h2, h3⟩
            · rw [h2]
              rcases f2.ct hd e he hl with ⟨s', g1, -, g2, g3⟩ | ⟨i, g1, -⟩
              · rw [h1] at g1; cases g1
                exact ⟨by simp only [g2, Option.map_some], by simp only [g3, b2]; rfl⟩
              · rw [h1] at g1; cases g1
            · rw [h3]
              rcases f2.ct hd e he hl with ⟨s', g1, -⟩ | ⟨i, g1, -, -, -, g2, g3⟩
              · rw [h1] at g1; cases g1
              · rw [h1] at g1; cases g1
                exact ⟨by simp only [g3, b1]; rfl, by simp only [g2]; omega⟩
  · -- crit
    have hunki : ∀ i, i ∈ st2.1 ↔ i ∈ Header.unknownInts m.headers ∧ i ≠ 0 := by
      intro i
      rw [hst2, Message.headers, unknownInts_append, ← o1, ← u1]
      simp only [List.mem_append, noteInts_countInts]
      constructor
      · rintro (h | h)
        · exact ⟨.inl h.1, h.2⟩
        · exact ⟨.inr h.1, h.2⟩
      · rintro ⟨h | h, h0⟩
        · exact .inl ⟨h, h0⟩
        · exact .inr ⟨h, h0⟩
    have hunkt : st2.2.map (·.bytes) = Header.texts m.headers := by
      rw [hst2, Message.headers, texts_append, ← o2, ← u2, List.map_append]
    unfold checkCritical
    rcases hcrm with ⟨hno, rfl⟩ | ⟨ls, ts, hls, hts, rfl⟩
    · constructor
      · intro _ ls hls
        exact absurd hls (hno _)
      · intro _
        simp only [mkLL_intPrefix, mkLL_tstrPrefix]
        simp
    · obtain ⟨ls', hl', -, -, -, h0, -, -⟩ := hm.crit _ hls
      have : ls' = ls := by
        injection hl' with hl'
        exact (label_items_inj _ _ hl').symm
      subst this
      have hci : (0 : Int) ∉ labelInts ls' := by rw [mem_labelInts]; exact h0
      simp only [mkLL_intPrefix, mkLL_tstrPrefix, takeWhile_noz hci, takeWhile_noz hok2.2.1, hts, hunkt]
      constructor
      · intro h
        intro ls hc
        have := isCrit_unique hm hc hls
        subst this
        split at h
        · cases h
        · rename_i hi
          split at h
          · cases h
          · rename_i ht
            rw [List.any_eq_true] at hi ht
            constructor
            · intro i hi1 hi2
              have h0' : i ≠ 0 := by intro hz; subst hz; exact h0 hi1
              exact hi ⟨i, (hunki i).mpr ⟨hi2, h0'⟩, by
                rw [List.any_eq_true]; exact ⟨i, mem_labelInts.mpr hi1, by simp⟩⟩
            · intro t ht1 ht2
              exact ht ⟨t, ht2, by
                rw [List.any_eq_true]; exact ⟨t, mem_labelTexts.mpr ht1, by simp⟩⟩
      · intro h
        obtain ⟨hA, hB⟩ := h ls' hls
        rw [if_neg, if_neg]
        · rw [List.any_eq_true]
          rintro ⟨t, h1, h2⟩
          rw [List.any_eq_true] at h2
          obtain ⟨t', h3, h4⟩ := h2
          have : t' = t := by simpa using h4
          subst this
          exact hB t' (mem_labelTexts.mp h3) h1
        · rw [List.any_eq_true]
          rintro ⟨t, h1, h2⟩
          rw [List.any_eq_true] at h2
          obtain ⟨t', h3, h4⟩ := h2
          have : t' = t := by simpa using h4
          subst this
          exact hA t' (mem_labelInts.mp h3) ((hunki t').mp h1).1

end TCose
