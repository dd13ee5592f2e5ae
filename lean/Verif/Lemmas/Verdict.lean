import Verif.Spec.Verdict
import Verif.Lemmas.HeaderFn
import Verif.Lemmas.MessageDecodes

/-!
# Header parsing against the reading of any header
-/

namespace TCose
open Spec

/-- What the decoder makes of an item without tags. -/
def ValOf : Item → Val → Prop
  | .arr _, v => ∃ c, v = .arr c
  | .map _, v => ∃ c, v = .map c
  | .tag _ _, _ => False
  | x, v => AtomIs x v

theorem valIs_valOf {P : QParams} {n d : Nat} {x : Item} {it : Itm} {c cE : Cur}
    (h : ValIs P (n + 1) d x it c cE) (hx : x.isTag = false) (hl : x.live) :
    it.err = none ∧ ValOf x it.val := by
  cases x with
  | arr xs => exact ⟨h.1, h.2.2.elim fun c h => ⟨c, h.1⟩⟩
  | map xs => exact ⟨h.1, h.2.2.elim fun c h => ⟨c, h.1⟩⟩
  | tag n x => cases hx
  | _ =>
    rw [ValIs_atom rfl hl] at h
    exact ⟨h.1, h.2.2⟩

/-- The integer in a value. -/
def Val.int? : Val → Option Int
  | .int i => some i
  | _ => none
/-- The octets of a byte string. -/
def Val.bytes? : Val → Option Bytes
  | .bstr s => some s.bytes
  | _ => none
/-- The octets of a text string. -/
def Val.text? : Val → Option Bytes
  | .tstr s => some s.bytes
  | _ => none

theorem ValOf.int? {x : Item} {v : Val} (h : ValOf x v) : x.int64? = v.int? := by
  cases x with
  | uint n =>
    have h' : v = if n ≤ int64Max then .int n else .uint n := h
    simp only [Item.int64?]
    unfold int64Max at h'
    by_cases hn : n ≤ 9223372036854775807
    · rw [if_pos hn] at h' ⊢; rw [h']; rfl
    · rw [if_neg hn] at h' ⊢; rw [h']; rfl
  | nint n => have h' : v = .int (-1 - (n : Int)) := h; subst h'; rfl
  | arr xs => obtain ⟨c, rfl⟩ := h; rfl
  | map xs => obtain ⟨c, rfl⟩ := h; rfl
  | tag n x => cases h
  | bstr b => obtain ⟨o, rfl⟩ := h; rfl
  | tstr b => obtain ⟨o, rfl⟩ := h; rfl
  | null => have h' : v = .null := h; subst h'; rfl
  | simple n => have h' : v = .other := h; subst h'; rfl
  | float n => have h' : v = .other := h; subst h'; rfl

theorem ValOf.bytes? {x : Item} {v : Val} (h : ValOf x v) : x.bytes? = v.bytes? := by
  cases x with
  | uint n =>
    have h' : v = if n ≤ int64Max then .int n else .uint n := h
    split at h' <;> (subst h'; rfl)
  | nint n => have h' : v = .int (-1 - (n : Int)) := h; subst h'; rfl
  | arr xs => obtain ⟨c, rfl⟩ := h; rfl
  | map xs => obtain ⟨c, rfl⟩ := h; rfl
  | tag n x => cases h
  | bstr b => obtain ⟨o, rfl⟩ := h; rfl
  | tstr b => obtain ⟨o, rfl⟩ := h; rfl
  | null => have h' : v = .null := h; subst h'; rfl
  | simple n => have h' : v = .other := h; subst h'; rfl
  | float n => have h' : v = .other := h; subst h'; rfl

theorem ValOf.text? {x : Item} {v : Val} (h : ValOf x v) : x.text? = v.text? := by
  cases x with
  | uint n =>
    have h' : v = if n ≤ int64Max then .int n else .uint n := h
    split at h' <;> (subst h'; rfl)
  | nint n => have h' : v = .int (-1 - (n : Int)) := h; subst h'; rfl
  | arr xs => obtain ⟨c, rfl⟩ := h; rfl
  | map xs => obtain ⟨c, rfl⟩ := h; rfl
  | tag n x => cases h
  | bstr b => obtain ⟨o, rfl⟩ := h; rfl
  | tstr b => obtain ⟨o, rfl⟩ := h; rfl
  | null => have h' : v = .null := h; subst h'; rfl
  | simple n => have h' : v = .other := h; subst h'; rfl
  | float n => have h' : v = .other := h; subst h'; rfl

theorem ValOf.arr_iff {x : Item} {v : Val} (h : ValOf x v) : (∃ c, v = .arr c) ↔ ∃ xs, x = .arr xs := by
  cases x with
  | uint n =>
    have h' : v = if n ≤ int64Max then .int n else .uint n := h
    subst h'
    split <;> simp
  | nint n => have h' : v = .int (-1 - (n : Int)) := h; subst h'; simp
  | arr xs => simp [ValOf] at h ⊢; exact h
  | map xs => obtain ⟨c, rfl⟩ := h; simp
  | tag n x => cases h
  | bstr b => obtain ⟨o, rfl⟩ := h; simp
  | tstr b => obtain ⟨o, rfl⟩ := h; simp
  | null => have h' : v = .null := h; subst h'; simp
  | simple n => have h' : v = .other := h; subst h'; simp
  | float n => have h' : v = .other := h; subst h'; simp

/-- The decoder's item is the item without tags `y`; or it came with an error, and `y` says so. -/
def ShownAs (y : Item) (it : Itm) : Prop :=
  (y.isRead = true ∧ it.err = none ∧ ValOf y it.val) ∨
  (y.isRead = false ∧ ∃ e, it.err = some e ∧ e ≠ .callbackFail ∧ e ≠ .fuel ∧
    e.notWellFormed = y.isNot)

/-- A header entry and the parameter it is taken for, whose value has no tags. Nothing is said of
the values of parameters that nobody looks at. -/
def EntryShows (P : QParams) (d : Nat) (p : Label × Item) (e : Entry) : Prop :=
  (∃ l, e.label = some l ∧ AtomIs p.1.item l) ∧
  ∀ i, p.1 = .int i → 1 ≤ i → i ≤ 6 → ShownAs p.2 e.itm ∧
    ∀ xs, p.2 = .arr xs → ∃ cnt ces cE, e.itm.val = .arr cnt ∧
      elements P false (d - 1) cnt e.cur = .ok (ces, cE) ∧ Each (fun x e => ShownAs x e.itm) xs ces

/-- The parameters in `h` are taken for those in `h'`. -/
def Shown (P : QParams) (h h' : Header) : Prop :=
  ∀ d es, Each (EntryIs P d) h es → Each (EntryShows P d) h' es

theorem unread_cases {x : Item} (h : x.isRead = false) : x = notItem ∨ x = unread := by
  cases x with
  | simple n =>
    simp only [Item.isRead, Bool.and_eq_false_iff, bne_eq_false_iff_eq] at h
    rcases h with rfl | rfl
    · exact .inl rfl
    · exact .inr rfl
  | _ => cases h

theorem unread_wrongType {x : Item} (h : x.isRead = false) {i : Int}
    (hi : i = 1 ∨ i = 3 ∨ i = 4 ∨ i = 5 ∨ i = 6) : wrongType i x := by
  rcases unread_cases h with rfl | rfl <;> rcases hi with rfl | rfl | rfl | rfl | rfl <;>
    simp [wrongType, Item.int64?, Item.bytes?, Item.isRead, notItem, unread]

/-- The same as far as the search for known parameters is concerned. -/
def EntryScan (p : Label × Item) (e : Entry) : Prop :=
  (∃ l, e.label = some l ∧ AtomIs p.1.item l) ∧
  ∀ i, p.1 = .int i → 1 ≤ i → i ≤ 6 → ShownAs p.2 e.itm

theorem EntryShows.scan {P : QParams} {d : Nat} {p : Label × Item} {e : Entry}
    (h : EntryShows P d p e) : EntryScan p e :=
  ⟨h.1, fun i h1 h2 h3 => (h.2 i h1 h2 h3).1⟩

/-- The label as the decoder has it, also of labels beyond `int64_t`. -/
theorem EntryScan.label_int {i : Int} {x : Item} {e : Entry}
    (h : EntryScan (.int i, x) e) :
    (i ≤ 9223372036854775807 ∧ e.label = some (.int i)) ∨
    (9223372036854775807 < i ∧ ∃ n, e.label = some (.uint n)) := by
  obtain ⟨⟨l, h1, h2⟩, -⟩ := h
  simp only [Label.item, Spec.int] at h2
  split at h2
  · have h' : l = if i.toNat ≤ int64Max then .int i.toNat else .uint i.toNat := h2
    unfold int64Max at h'
    split at h'
    · left
      refine ⟨by omega, ?_⟩
      rw [h1, h']
      congr 2
      omega
    · right
      exact ⟨by omega, _, by rw [h1, h']⟩
  · have h' : l = .int (-1 - ((-1 - i).toNat : Int)) := h2
    left
    refine ⟨by omega, ?_⟩
    rw [h1, h']
    congr 2
    omega

theorem EntryScan.label_text {t : Bytes} {x : Item} {e : Entry}
    (h : EntryScan (.text t, x) e) : ∃ off, e.label = some (.tstr ⟨off, t⟩) := by
  obtain ⟨⟨l, h1, off, h2⟩, -⟩ := h
  exact ⟨off, by rw [h1, h2]⟩

/-- What was found of a header up to some point. -/
def FoundIs (pre : Header) (f : Found) : Prop :=
  ∀ i, i = 1 ∨ i = 3 ∨ i = 4 ∨ i = 5 ∨ i = 6 →
    match Header.get pre i with
    | none => f.lookup i = none
    | some x => ∃ v c, f.lookup i = some (v, c) ∧ ValOf x v ∧ ¬ wrongType i x

theorem get_append_ne {h : Header} {l : Label} {x : Item} {i : Int} (hl : l ≠ .int i) :
    Header.get (h ++ [(l, x)]) i = Header.get h i := by
  unfold Header.get
  rw [List.find?_append]
  have : [(l, x)].find? (fun p => decide (p.1 = Label.int i)) = none := by simp [hl]
  rw [this]
  cases List.find? (fun p => decide (p.1 = Label.int i)) h <;> rfl

theorem get_append_eq {h : Header} {x : Item} {i : Int} (hg : Header.get h i = none) :
    Header.get (h ++ [(.int i, x)]) i = some x := by
  unfold Header.get at *
  rw [List.find?_append]
  rw [Option.map_eq_none_iff] at hg
  rw [hg]
  simp

theorem FoundIs.snoc_ne {pre : Header} {f : Found} {l : Label} {x : Item} (h : FoundIs pre f)
    (hl : ∀ i, l = .int i → ¬ (i = 1 ∨ i = 3 ∨ i = 4 ∨ i = 5 ∨ i = 6)) :
    FoundIs (pre ++ [(l, x)]) f := by
  intro i hi
  rw [get_append_ne (fun hc => hl i hc hi)]
  exact h i hi

theorem typeOk_iff {i : Int} {x : Item} {v : Val} {t : QTyp} (hv : ValOf x v)
    (hx : x.isRead = true) (ht : headerQs.lookup i = some t) : t.ok v = true ↔ ¬ wrongType i x := by
  have hb := hv.bytes?
  have hi := hv.int?
  have hs : i = 1 ∨ i = 3 ∨ i = 4 ∨ i = 5 ∨ i = 6 := by
    rw [← headerQs_wanted, ht]; rfl
  unfold wrongType
  rw [hb, hi, hx]
  rcases hs with rfl | rfl | rfl | rfl | rfl <;> cases ht <;> cases v <;>
    simp [QTyp.ok, Val.int?, Val.bytes?]

theorem paramErr_type : paramErr .unexpectedType = .parameterCbor := rfl
theorem paramErr_dup : paramErr .duplicateLabel = .parameterCbor := rfl

theorem headerQs_none {i : Int} (h : ¬ (i = 1 ∨ i = 3 ∨ i = 4 ∨ i = 5 ∨ i = 6)) :
    headerQs.lookup i = none := by
  rw [← headerQs_wanted] at h
  cases hq : headerQs.lookup i with
  | none => rfl
  | some t => rw [hq] at h; simp at h

theorem searchStep_cb {σ : Type} {qs : List (Int × QTyp)} {cb : σ → Option Val → σ × Bool}
    {l : Option Val} {it : Itm} {c : Cur} {f : Found} {s : σ}
    (h : ∀ i, l = some (.int i) → qs.lookup i = none) :
    searchStep qs cb l it c f s =
      match cb s l with
      | (s', true) => (.ok f, s')
      | (s', false) => (.error .callbackFail, s') := by
  unfold searchStep
  cases l with
  | none => rfl
  | some v =>
    cases v with
    | int i => simp only [h i rfl]; rfl
    | _ => rfl

/-- The search for known parameters against `scan`. -/
theorem scan_exact {h : Header} {es : List Entry} (he : Each EntryScan h es) :
    ∀ (pre : Header) (f : Found) (seen : List Int) (u : Unknown) (ts : List Str),
    FoundIs pre f →
    (∀ i, i = 1 ∨ i = 3 ∨ i = 4 ∨ i = 5 ∨ i = 6 → (i ∈ seen ↔ Header.get pre i ≠ none)) →
    LLok (u.ints, ts) → ts.map (·.bytes) = u.texts →
    match scan h seen u with
    | .error y => ∃ x s', searchFold headerQs headerCb es f ⟨mkLL u.ints ts, .ok ()⟩ = (.error x, s') ∧
        ((x = .callbackFail ∧ s'.ret = .error y) ∨ (x ≠ .callbackFail ∧ paramErr x = y))
    | .ok u' => ∃ f' ts', searchFold headerQs headerCb es f ⟨mkLL u.ints ts, .ok ()⟩ =
        (.ok f', ⟨mkLL u'.ints ts', .ok ()⟩) ∧ LLok (u'.ints, ts') ∧
        ts'.map (·.bytes) = u'.texts ∧ FoundIs (pre ++ h) f' := by
  induction he with
  | nil =>
    intro pre f seen u ts hf hseen hll hts
    simp only [scan]
    exact ⟨f, ts, rfl, hll, hts, by rw [List.append_nil]; exact hf⟩
  | @cons p e h es h1 h2 ih =>
    intro pre f seen u ts hf hseen hll hts
    obtain ⟨lab, x⟩ := p
    -- an entry left to the callback
    have step : ∀ (l : Option Val), e.label = l →
        (∀ i, l = some (.int i) → ¬ (i = 1 ∨ i = 3 ∨ i = 4 ∨ i = 5 ∨ i = 6)) →
        searchFold headerQs headerCb (e :: es) f ⟨mkLL u.ints ts, .ok ()⟩ =
        match noteLabel l (u.ints, ts) with
        | some st' => searchFold headerQs headerCb es f ⟨mkLL st'.1 st'.2, .ok ()⟩
        | none => (.error .callbackFail, ⟨mkLL u.ints ts, .error (match l with
          | some (.int _) | some (.tstr _) => .tooManyParameters
          | _ => .parameterCbor)⟩) := by
      intro l hl hi
      have hcb := headerCb_mk l hll (.ok ())
      simp only at hcb
      rw [searchFold, hl, searchStep_cb (fun i h => headerQs_none (hi i h)), hcb]
      cases hn : noteLabel l (u.ints, ts) with
      | none => rfl
      | some st' => rfl
    cases lab with
    | text t =>
      obtain ⟨off, hlab⟩ := h1.label_text
      have hs := step _ hlab (by simp)
      rw [hs]
      simp only [scan, noteLabel]
      have hlen : ts.length = u.texts.length := by rw [← hts, List.length_map]
      by_cases hfull : u.texts.length = 10
      · rw [if_pos hfull, if_pos (by rw [hlen]; exact hfull)]
        exact ⟨_, _, rfl, .inl ⟨rfl, rfl⟩⟩
      · rw [if_neg hfull, if_neg (by rw [hlen]; exact hfull)]
        have := ih (pre ++ [(.text t, x)]) f seen { u with texts := u.texts ++ [t] }
          (ts ++ [⟨off, t⟩]) (hf.snoc_ne (by simp))
          (fun i hi => by rw [get_append_ne (by simp)]; exact hseen i hi)
          ⟨hll.1, hll.2.1, by
            have := hll.2.2
            unfold paramListMax at *
            simp only [List.length_append, List.length_singleton] at *; omega⟩
          (by simp [hts])
        rw [List.append_assoc, List.singleton_append] at this
        exact this
    | int i =>
      rcases h1.label_int with ⟨hi, hlab⟩ | ⟨hi, n, hlab⟩
      · by_cases hk : i = 1 ∨ i = 3 ∨ i = 4 ∨ i = 5 ∨ i = 6
        · have hsh := h1.2 i rfl (by omega) (by omega)
          simp only [scan, if_pos hk]
          obtain ⟨t, ht⟩ : ∃ t, headerQs.lookup i = some t := by
            have := (headerQs_wanted i).mpr hk
            exact Option.isSome_iff_exists.mp this
          have hff := hf i hk
          rw [searchFold, hlab]
          simp only [searchStep, ht]
          by_cases hin : i ∈ seen
          · have hg := (hseen i hk).mp hin
            cases hgg : Header.get pre i with
            | none => exact absurd hgg hg
            | some y =>
              rw [hgg] at hff
              obtain ⟨v, c, hl, -⟩ := hff
              rw [if_pos (.inl hin), hl]
              exact ⟨_, _, rfl, .inr ⟨by simp, by unfold paramFault; rw [if_neg (by simp [hin])]; rfl⟩⟩
          · have hgn : Header.get pre i = none := by
              cases hgg : Header.get pre i with
              | none => rfl
              | some y => exact absurd ((hseen i hk).mpr (by rw [hgg]; simp)) hin
            rw [hgn] at hff
            have hff' : f.lookup i = none := hff
            rcases hsh with ⟨hrd, herr, hv⟩ | ⟨hrd, herr⟩
            rotate_left
            · rw [if_pos (.inr (unread_wrongType hrd hk))]
              simp only [hff', Option.isSome_none, Bool.false_eq_true, if_false]
              obtain ⟨er, herr, hcb, hfu, hnw⟩ := herr
              simp only [herr]
              refine ⟨_, _, rfl, .inr ⟨hcb, ?_⟩⟩
              unfold paramErr paramFault
              rw [if_neg hfu, hnw]
              simp only [hin, not_false_iff, true_and]
            simp only [hff', Option.isSome_none, Bool.false_eq_true, if_false, herr]
            by_cases hw : wrongType i x
            · rw [if_pos (.inr hw)]
              have hto : t.ok e.itm.val = false := by
                cases hto : t.ok e.itm.val with
                | false => rfl
                | true => exact absurd hw ((typeOk_iff hv hrd ht).mp hto)
              rw [hto]
              have hnn : x.isNot = false := by
                cases x with
                | simple n =>
                  simp only [Item.isRead, Bool.and_eq_true, bne_iff_ne] at hrd
                  simpa [Item.isNot] using hrd.1
                | _ => rfl
              refine ⟨_, _, rfl, .inr ⟨by simp, ?_⟩⟩
              unfold paramFault
              rw [if_neg (by simp [hnn])]
              rfl
            · rw [if_neg (by rintro (h | h) <;> contradiction), (typeOk_iff hv hrd ht).mpr hw]
              simp only [if_true]
              have := ih (pre ++ [(.int i, x)]) ((i, e.itm.val, e.cur) :: f) (i :: seen) u ts
                (by
                  intro j hj
                  by_cases hji : j = i
                  · subst hji
                    rw [get_append_eq hgn]
                    exact ⟨e.itm.val, e.cur, by simp [List.lookup], hv, hw⟩
                  · rw [get_append_ne (by simpa using fun h => hji h.symm)]
                    have := hf j hj
                    rw [show List.lookup j ((i, e.itm.val, e.cur) :: f) = List.lookup j f by
                      simp [List.lookup, beq_eq_false_iff_ne.mpr hji]]
                    exact this)
                (by
                  intro j hj
                  by_cases hji : j = i
                  · subst hji
                    rw [get_append_eq hgn]
                    simp
                  · rw [get_append_ne (by simpa using fun h => hji h.symm), List.mem_cons]
                    rw [← hseen j hj]
                    simp [hji])
                hll hts
              rw [List.append_assoc, List.singleton_append] at this
              exact this
        · have hs := step _ hlab (by intro j hj; cases hj; exact hk)
          rw [hs]
          simp only [scan, if_neg hk, noteLabel]
          have hpre := hf.snoc_ne (l := .int i) (x := x) (by intro j hj; cases hj; exact hk)
          have hseen' : ∀ j, j = 1 ∨ j = 3 ∨ j = 4 ∨ j = 5 ∨ j = 6 →
              (j ∈ seen ↔ Header.get (pre ++ [(.int i, x)]) j ≠ none) := by
            intro j hj
            rw [get_append_ne (by rintro h; cases h; exact hk hj)]
            exact hseen j hj
          by_cases h22 : i = 2
          · rw [if_pos h22, if_pos h22]
            have := ih _ f seen u ts hpre hseen' hll hts
            rw [List.append_assoc, List.singleton_append] at this
            exact this
          · rw [if_neg h22, if_neg h22, if_neg (by omega)]
            by_cases hfull : u.ints.length = 10
            · rw [if_pos hfull, if_pos (show u.ints.length = paramListMax from hfull)]
              exact ⟨_, _, rfl, .inl ⟨rfl, rfl⟩⟩
            · rw [if_neg hfull, if_neg (show ¬ u.ints.length = paramListMax from hfull)]
              by_cases h0 : i = 0
              · simp only [if_pos h0]
                have := ih _ f seen u ts hpre hseen' hll hts
                rw [List.append_assoc, List.singleton_append] at this
                exact this
              · simp only [if_neg h0]
                have := ih _ f seen { u with ints := u.ints ++ [i] } ts hpre hseen'
                  (by
                    obtain ⟨a, b, c⟩ := hll
                    refine ⟨?_, ?_, c⟩
                    · unfold paramListMax at *
                      simp only [List.length_append, List.length_singleton] at *
                      omega
                    · simp only [List.mem_append, List.mem_singleton, not_or]
                      exact ⟨b, fun h => h0 h.symm⟩) hts
                rw [List.append_assoc, List.singleton_append] at this
                exact this
      · have hk : ¬ (i = 1 ∨ i = 3 ∨ i = 4 ∨ i = 5 ∨ i = 6) := by omega
        rw [step _ hlab (by simp)]
        simp only [scan, if_neg hk, noteLabel]
        rw [if_neg (by omega), if_pos hi]
        exact ⟨_, _, rfl, .inl ⟨rfl, rfl⟩⟩

/-! ### The crit parameter -/

theorem searchSingle_ok {es : List Entry} (i : Int) (t : QTyp) (f : Found) :
    searchFold [(i, t)] (fun (s : Unit) _ => (s, true)) es [] () = (.ok f, ()) ↔
    (es.filter (fun e => decide (e.key = some i)) = [] ∧ f = []) ∨
    ∃ e, es.filter (fun e => decide (e.key = some i)) = [e] ∧ e.itm.err = none ∧
      t.ok e.itm.val = true ∧ f = [(i, e.itm.val, e.cur)] := by
  have hlk : List.lookup i [(i, t)] = some t := by simp [List.lookup]
  constructor
  · intro hf
    rw [searchFold_iff, wanted_single] at hf
    obtain ⟨h1, h2, -, -, h5⟩ := hf
    rcases filter_key_singleton h2 with h0 | ⟨e, h0⟩
    · exact .inl ⟨h0, by rw [h5, h0]; rfl⟩
    · have hg := h1 e (by rw [h0]; simp)
      have hmem : e ∈ es.filter (fun e => decide (e.key = some i)) := by rw [h0]; simp
      rw [List.mem_filter, decide_eq_true_iff] at hmem
      refine .inr ⟨e, h0, hg.1, hg.2 i t hmem.2 hlk, ?_⟩
      rw [h5, h0]
      simp [foundOf, hmem.2]
  · intro hx
    rw [searchFold_iff, wanted_single, cbFold_unit]
    rcases hx with ⟨h0, rfl⟩ | ⟨e, h0, he, ht, rfl⟩
    · rw [h0]
      simp
    · have hmem : e ∈ es.filter (fun e => decide (e.key = some i)) := by rw [h0]; simp
      rw [List.mem_filter, decide_eq_true_iff] at hmem
      rw [h0]
      refine ⟨?_, by simp, by simp, rfl, by simp [foundOf, hmem.2]⟩
      intro e' he'
      rw [List.mem_singleton] at he'
      subst he'
      refine ⟨he, ?_⟩
      intro j t' hj hlt
      rw [hmem.2] at hj
      cases hj
      rw [hlk] at hlt
      cases hlt
      exact ht

/-- Entries with label 2 are the parameters with label 2. -/
theorem each_filter {P : QParams} {d : Nat} {h : Header} {es : List Entry}
    (he : Each (EntryShows P d) h es) :
    Each (EntryShows P d) (h.filter (fun p => decide (p.1 = .int 2)))
      (es.filter (fun e => decide (e.key = some 2))) := by
  induction he with
  | nil => exact .nil
  | @cons p e h es h1 h2 ih =>
    have hk : e.key = some 2 ↔ p.1 = .int 2 := by
      rw [key_iff]
      obtain ⟨lab, x⟩ := p
      cases lab with
      | text t => obtain ⟨off, hlab⟩ := h1.scan.label_text; rw [hlab]; simp
      | int i =>
        rcases h1.scan.label_int with ⟨hi, hlab⟩ | ⟨hi, n, hlab⟩
        · rw [hlab]; simp
        · rw [hlab]
          simp only [Option.some.injEq, reduceCtorEq, Label.int.injEq, false_iff]
          omega
    rw [List.filter_cons, List.filter_cons]
    by_cases h2 : p.1 = .int 2
    · rw [if_pos (by simpa using h2), if_pos (by simpa using hk.mpr h2)]
      exact .cons h1 ih
    · rw [if_neg (by simpa using h2), if_neg (by simpa using fun h => h2 (hk.mp h))]
      exact ih

theorem critFn_ok (es : List Entry) : ∀ (ni nt : Nat) (l : LabelList),
    (∀ e ∈ es, e.itm.err = none) →
    critFn es ni nt l = match critFold es ni nt l with
      | some l' => .ok l'
      | none => .error .critParameter := by
  induction es with
  | nil => intro ni nt l _; rfl
  | cons e es ih =>
    intro ni nt l h
    have h1 := h e (List.mem_cons_self ..)
    have h2 := fun e he => h e (List.mem_cons_of_mem _ he)
    rw [critFn, critFold, h1]
    simp only [ne_eq, not_true, if_false, Option.isSome_none, Bool.false_eq_true]
    cases e.itm.val with
    | int i =>
      simp only
      split
      · rfl
      · exact ih _ _ _ h2
    | tstr s =>
      simp only
      split
      · rfl
      · exact ih _ _ _ h2
    | _ => rfl

/-- The elements of a crit array and the labels they stand for. -/
theorem crit_elements {xs : List Item} {ces : List Entry}
    (h : Each (fun x e => e.itm.err = none ∧ ValOf x e.itm.val) xs ces) :
    (∀ e ∈ ces, e.itm.err = none) ∧
    ((∀ e ∈ ces, isLabelItem e) ↔ ∀ x ∈ xs, x.int64?.isSome = true ∨ x.text?.isSome = true) ∧
    intsOf ces = xs.filterMap Item.int64? ∧
    (tstrsOf ces).map (·.bytes) = xs.filterMap Item.text? := by
  induction h with
  | nil => exact ⟨by simp, by simp, rfl, rfl⟩
  | @cons x e xs ces h1 h2 ih =>
    obtain ⟨i1, i2, i3, i4⟩ := ih
    obtain ⟨he, hv⟩ := h1
    have hi := hv.int?
    have ht := hv.text?
    refine ⟨?_, ?_, ?_, ?_⟩
    · intro e' he'
      rcases List.mem_cons.mp he' with rfl | h
      · exact he
      · exact i1 _ h
    · simp only [List.mem_cons, forall_eq_or_imp]
      rw [i2]
      have : isLabelItem e ↔ x.int64?.isSome = true ∨ x.text?.isSome = true := by
        rw [hi, ht]
        unfold isLabelItem
        rw [he]
        cases e.itm.val <;> simp [Val.int?, Val.text?]
      rw [this]
    · rw [List.filterMap_cons, hi, ← i3]
      unfold intsOf
      rw [List.filterMap_cons]
      cases e.itm.val <;> rfl
    · rw [List.filterMap_cons, ht, ← i4]
      unfold tstrsOf
      rw [List.filterMap_cons]
      cases e.itm.val <;> rfl

theorem shown_ok {xs : List Item} {ces : List Entry} (h : Each (fun x e => ShownAs x e.itm) xs ces)
    (hr : ∀ x ∈ xs, x.isRead = true) :
    Each (fun x e => e.itm.err = none ∧ ValOf x e.itm.val) xs ces :=
  h.imp fun x hx e hs => by
    rcases hs with ⟨-, h1, h2⟩ | ⟨h1, -⟩
    · exact ⟨h1, h2⟩
    · rw [hr x hx] at h1; cases h1

theorem read_of_takeWhile {xs : List Item} {x : Item} (h : x ∈ xs.takeWhile Item.isRead) :
    x.isRead = true := by
  induction xs with
  | nil => cases h
  | cons y xs ih =>
    rw [List.takeWhile_cons] at h
    split at h
    · rcases List.mem_cons.mp h with rfl | h
      · assumption
      · exact ih h
    · cases h

theorem takeWhile_read {xs : List Item} (h : ∀ x ∈ xs, x.isRead = true) :
    xs.takeWhile Item.isRead = xs := by
  induction xs with
  | nil => rfl
  | cons x xs ih =>
    rw [List.takeWhile_cons, if_pos (h x (List.mem_cons_self ..)),
      ih (fun y hy => h y (List.mem_cons_of_mem _ hy))]

/-- The loop over the crit array when an element cannot be read. -/
theorem critFn_unread {xs : List Item} {ces : List Entry}
    (h : Each (fun x e => ShownAs x e.itm) xs ces) :
    ∀ (ni nt : Nat) (l : LabelList), ni ≤ 10 → nt ≤ 10 → (∃ x ∈ xs, x.isRead = false) →
    critFn ces ni nt l = .error (
      if (∀ x ∈ xs.takeWhile Item.isRead, x.int64?.isSome = true ∨ x.text?.isSome = true) ∧
        ni + ((xs.takeWhile Item.isRead).filterMap Item.int64?).length ≤ 10 ∧
        nt + ((xs.takeWhile Item.isRead).filterMap Item.text?).length ≤ 10 then .cborNotWellFormed
      else .critParameter) := by
  induction h with
  | nil => intro ni nt l _ _ ⟨x, hx, _⟩; cases hx
  | @cons x e xs ces h1 h2 ih =>
    intro ni nt l hi ht hex
    rw [critFn]
    rcases h1 with ⟨hrd, herr, hv⟩ | ⟨hrd, herr⟩
    · have hex' : ∃ x ∈ xs, x.isRead = false := by
        obtain ⟨y, hy, hyr⟩ := hex
        rcases List.mem_cons.mp hy with rfl | hy
        · rw [hrd] at hyr; cases hyr
        · exact ⟨y, hy, hyr⟩
      rw [herr]
      simp only [ne_eq, not_true, if_false, List.takeWhile_cons, hrd, if_true, List.mem_cons,
        forall_eq_or_imp, List.filterMap_cons, hv.int?, hv.text?]
      cases hval : e.itm.val with
      | int i =>
        simp only [Val.int?, Val.text?, Option.isSome_some, true_or, true_and, List.length_cons]
        unfold paramListMax
        by_cases hfull : ni ≥ 10
        · rw [if_pos hfull, if_neg (by omega)]
        · rw [if_neg hfull, ih _ _ _ (by omega) ht hex']
          have : ni + 1 + ((xs.takeWhile Item.isRead).filterMap Item.int64?).length =
            ni + (((xs.takeWhile Item.isRead).filterMap Item.int64?).length + 1) := by omega
          rw [this]
      | tstr s =>
        simp only [Val.int?, Val.text?, Option.isSome_some, or_true, true_and, List.length_cons]
        unfold paramListMax
        by_cases hfull : nt ≥ 10
        · rw [if_pos hfull, if_neg (by omega)]
        · rw [if_neg hfull, ih _ _ _ hi (by omega) hex']
          have : nt + 1 + ((xs.takeWhile Item.isRead).filterMap Item.text?).length =
            nt + (((xs.takeWhile Item.isRead).filterMap Item.text?).length + 1) := by omega
          rw [this]
      | _ => simp [Val.int?, Val.text?]
    · have herr' : e.itm.err ≠ none := by obtain ⟨er, h, -⟩ := herr; rw [h]; simp
      have htw : List.takeWhile Item.isRead (x :: xs) = [] := by
        rw [List.takeWhile_cons, hrd]
        rfl
      rw [if_pos herr', if_pos ⟨by rw [htw]; simp, by rw [htw]; exact hi, by rw [htw]; exact ht⟩]

/-- `decode_critical_parameter` against `readCrit`. -/
theorem readCrit_exact {P : QParams} {d : Nat} {h : Header} {es : List Entry} {prot : Bool}
    {old : List Int × List Bytes} {ts : List Str}
    (he : Each (EntryShows P d) h es) (hold : ts.map (·.bytes) = old.2)
    (hp : prot = true → old = ([], [])) :
    match readCrit prot h old with
    | .error y => critParamFn P d prot es (mkLL old.1 ts) = .error y
    | .ok c => ∃ ts', critParamFn P d prot es (mkLL old.1 ts) = .ok (mkLL c.1 ts') ∧
        ts'.map (·.bytes) = c.2 := by
  have hs := searchSingle_ok (es := es) 2 .arr
  have hf := each_filter he
  unfold readCrit critParamFn
  cases hsf : searchFold [(2, .arr)] (fun (s : Unit) _ => (s, true)) es [] () with
  | mk r u =>
  rw [hsf] at hs
  generalize hh : h.filter (fun p => decide (p.1 = .int 2)) = hh' at hf
  generalize hee : es.filter (fun e => decide (e.key = some 2)) = ee at hf hs
  cases hf with
  | nil =>
    have hr := (hs []).mpr (.inl ⟨rfl, rfl⟩)
    cases hr
    simp only [List.lookup]
    exact ⟨ts, rfl, hold⟩
  | @cons p e hh' ee h1 h2 =>
    obtain ⟨lab, x⟩ := p
    have hmem : (lab, x) ∈ h.filter (fun p => decide (p.1 = .int 2)) := by rw [hh]; simp
    rw [List.mem_filter, decide_eq_true_iff] at hmem
    obtain ⟨hm, hl⟩ := hmem
    simp only at hl
    subst hl
    obtain ⟨hsh, helt⟩ := h1.2 2 rfl (by omega) (by omega)
    simp only at hsh helt
    cases h2 with
    | @cons p2 e2 hh2 ee2 h3 h4 =>
      have : ∀ f, r = .ok f → False := by
        rintro f rfl
        rcases (hs f).mp rfl with ⟨h, -⟩ | ⟨e', h, -⟩ <;> simp at h
      cases r with
      | error y => cases x <;> rfl
      | ok f => exact (this f rfl).elim
    | nil =>
      by_cases hx : ∃ xs, x = .arr xs
      · obtain ⟨xs, rfl⟩ := hx
        obtain ⟨cnt, ces, cE, hcv, hel, hall⟩ := helt xs rfl
        have herr : e.itm.err = none := by
          rcases hsh with ⟨-, h, -⟩ | ⟨h, -⟩
          · exact h
          · cases h
        have hr := (hs [(2, e.itm.val, e.cur)]).mpr (.inr ⟨e, rfl, herr, by rw [hcv]; rfl, rfl⟩)
        cases hr
        simp only [List.lookup, BEq.rfl, hcv]
        cases prot with
        | false => rfl
        | true =>
          have hold' := hp rfl
          subst hold'
          simp only [List.map_eq_nil_iff] at hold
          subst hold
          simp only [Bool.not_true, Bool.true_eq_false, Bool.false_eq_true, if_false, hel]
          by_cases hex : ∃ x ∈ xs, x.isRead = false
          · have hnu : ¬ critUsable xs := by
              rintro ⟨h, -⟩
              obtain ⟨y, hy, hyr⟩ := hex
              have := h y hy
              rcases unread_cases hyr with rfl | rfl <;>
                simp [Item.int64?, Item.text?, notItem, unread] at this
            rw [if_neg hnu, critFn_unread hall 0 0 _ (by omega) (by omega) hex]
            simp only [Nat.zero_add]
            have hlt : (xs.takeWhile Item.isRead).length < xs.length := by
              obtain ⟨y, hy, hyr⟩ := hex
              have hle := (List.takeWhile_sublist Item.isRead (l := xs)).length_le
              refine Nat.lt_of_le_of_ne hle fun heq => ?_
              have heq' := (List.takeWhile_sublist Item.isRead (l := xs)).eq_of_length heq
              rw [← heq'] at hy
              have := read_of_takeWhile hy
              rw [hyr] at this
              cases this
            unfold critFault
            simp only [hlt, true_and]
          have hrd : ∀ x ∈ xs, x.isRead = true := fun x hx => by
            cases h : x.isRead with
            | true => rfl
            | false => exact absurd ⟨x, hx, h⟩ hex
          have hall' := shown_ok hall hrd
          have hfault : critFault xs = .critParameter := by
            unfold critFault
            simp only [takeWhile_read hrd, Nat.lt_irrefl, false_and, if_false]
          obtain ⟨k1, k2, k3, k4⟩ := crit_elements hall'
          have hcf := critFold_iff ces [] []
          simp only [List.length_nil, List.nil_append] at hcf
          have hlen : (tstrsOf ces).length = (xs.filterMap Item.text?).length := by
            rw [← k4, List.length_map]
          have hhead : ((tstrsOf ces).head?.map (·.bytes)).getD [] =
              (xs.filterMap Item.text?).headD [] := by
            rw [← k4]
            cases tstrsOf ces <;> rfl
          rw [critFn_ok ces 0 0 _ k1]
          have hcl := isClear_mk (intsOf ces) (tstrsOf ces)
          rw [hhead, k3] at hcl
          by_cases hu : critUsable xs
          · rw [if_pos hu]
            obtain ⟨u1, u2, u3, u4⟩ := hu
            have := (hcf (mkLL (intsOf ces) (tstrsOf ces)) (by simp) (by simp)).mpr
              ⟨k2.mpr u1, by rw [k3]; exact u2, by rw [hlen]; exact u3, rfl⟩
            rw [this]
            simp only
            rw [if_neg (by rw [k3, hcl]; exact u4), k3]
            exact ⟨_, rfl, k4⟩
          · rw [if_neg hu, hfault]
            simp only
            cases hc : critFold ces 0 0 (mkLL [] []) with
            | none => rfl
            | some l' =>
              obtain ⟨v1, v2, v3, rfl⟩ := (hcf l' (by simp) (by simp)).mp hc
              simp only
              rw [if_pos]
              rw [k3, hcl]
              refine Classical.byContradiction fun hn => hu ⟨k2.mp v1, ?_, ?_, hn⟩
              · rw [← k3]; exact v2
              · rw [← hlen]; exact v3
      · have hr : ∀ f, r = .ok f → False := by
          rintro f rfl
          rcases (hs f).mp rfl with ⟨h, -⟩ | ⟨e', h, herr', ht, -⟩
          · simp at h
          · simp only [List.cons.injEq, and_true] at h
            subst h
            apply hx
            have hv : ValOf x e.itm.val := by
              rcases hsh with ⟨-, -, h⟩ | ⟨-, h⟩
              · exact h
              · rw [herr'] at h; obtain ⟨er, h, -⟩ := h; cases h
            rw [← hv.arr_iff]
            cases hev : e.itm.val with
            | arr c => exact ⟨c, rfl⟩
            | _ => rw [hev] at ht; cases ht
        cases r with
        | ok f => exact (hr f rfl).elim
        | error y =>
          cases x with
          | arr xs => exact absurd ⟨xs, rfl⟩ hx
          | _ => rfl

/-! ### The parameters -/

/-- The parameters and label lists of the decoder are what is known. -/
structure KnownIs (k : Known) (p : Params) (crit unk : LabelList) : Prop where
  alg : p.alg = k.alg
  kid : p.kid.map (·.bytes) = k.kid
  iv : p.iv.map (·.bytes) = k.iv
  partialIv : p.partialIv.map (·.bytes) = k.partialIv
  ctText : p.ctTstr.map (·.bytes) = k.ctText
  ctNum : p.ctUint = k.ctNum.getD 65536
  ctSmall : ∀ n, k.ctNum = some n → n ≤ 65535
  crit : ∃ ts, crit = mkLL k.critInts ts ∧ ts.map (·.bytes) = k.critTexts
  unk : ∃ ts, unk = mkLL k.ints ts ∧ ts.map (·.bytes) = k.texts ∧ LLok (k.ints, ts)

theorem KnownIs.nothing : KnownIs Known.nothing Params.clear LabelList.clear LabelList.clear where
  alg := rfl
  kid := rfl
  iv := rfl
  partialIv := rfl
  ctText := rfl
  ctNum := rfl
  ctSmall := by intro n h; cases h
  crit := ⟨[], mkLL_nil.symm, rfl⟩
  unk := ⟨[], mkLL_nil.symm, rfl, LLok_nil⟩

theorem readAlg_exact {prot : Bool} {h : Header} {f : Found} {p : Params} (hf : FoundIs h f) :
    match readAlg prot h p.alg with
    | .error y => takeAlg prot f p = .error y
    | .ok a => takeAlg prot f p = .ok { p with alg := a } := by
  have h1 := hf 1 (by simp)
  unfold readAlg takeAlg
  cases hg : Header.get h 1 with
  | none =>
    rw [hg] at h1
    have h1' : f.lookup 1 = none := h1
    simp only [h1']
  | some x =>
    rw [hg] at h1
    obtain ⟨v, c, hl, hv, hw⟩ := h1
    have hi := hv.int?
    simp only [wrongType, true_and, hi] at hw
    cases v with
    | int i =>
      simp only [hl, hi, Val.int?, Option.getD_some]
      cases prot with
      | false => rfl
      | true =>
        simp only [Bool.true_eq_false, Bool.not_true, Bool.false_eq_true, if_false]
        by_cases hc : i = 0 ∨ 2147483647 < i
        · rw [if_pos hc, if_pos (show i = 0 ∨ i > 2147483647 from hc)]
        · rw [if_neg hc, if_neg (show ¬ (i = 0 ∨ i > 2147483647) from hc)]
          simp only
          congr 2
          unfold toInt32 
          rw [Int.bmod_def]
          omega
    | _ => simp [Val.int?] at hw

theorem readBytes_exact {h : Header} {f : Found} (hf : FoundIs h f) (i : Int)
    (hi : i = 4 ∨ i = 5 ∨ i = 6) (old : Option Str) :
    match readBytes h i (old.map (·.bytes)) with
    | .error y => y = .duplicateParameter ∧ ∃ s c, f.lookup i = some (.bstr s, c) ∧ old ≠ none
    | .ok b => (f.lookup i = none ∧ b = old.map (·.bytes)) ∨
        ∃ s c, f.lookup i = some (.bstr s, c) ∧ old = none ∧ b = some s.bytes := by
  have h1 := hf i (by omega)
  unfold readBytes
  cases hg : Header.get h i with
  | none =>
    rw [hg] at h1
    have h1' : f.lookup i = none := h1
    exact .inl ⟨h1', rfl⟩
  | some x =>
    rw [hg] at h1
    obtain ⟨v, c, hl, hv, hw⟩ := h1
    have hb := hv.bytes?
    have hw' : ¬ x.bytes? = none := fun h => hw (.inr (.inl ⟨hi, h⟩))
    rw [hb] at hw'
    cases v with
    | bstr s =>
      cases old with
      | none => exact .inr ⟨s, c, hl, rfl, hb⟩
      | some o => exact ⟨rfl, s, c, hl, by simp⟩
    | _ => simp [Val.bytes?] at hw'

theorem readCt_exact {cfg : Config} {h : Header} {f : Found} {p : Params} {ct : Option Bytes}
    {cn : Option Nat} (hf : FoundIs h f) (h1 : p.ctTstr.map (·.bytes) = ct)
    (h2 : p.ctUint = cn.getD 65536) (h3 : ∀ n, cn = some n → n ≤ 65535) :
    match (if cfg.disableContentType then .ok (ct, cn) else readContentType h (ct, cn) :
      Except Err (Option Bytes × Option Nat)) with
    | .error y => takeContentType cfg f p = .error y
    | .ok c => ∃ t u, takeContentType cfg f p = .ok { p with ctTstr := t, ctUint := u } ∧
        t.map (·.bytes) = c.1 ∧ u = c.2.getD 65536 ∧ ∀ n, c.2 = some n → n ≤ 65535 := by
  unfold takeContentType
  cases cfg.disableContentType with
  | true => exact ⟨p.ctTstr, p.ctUint, rfl, h1, h2, h3⟩
  | false =>
    simp only [Bool.false_eq_true, if_false]
    have hg3 := hf 3 (by simp)
    unfold readContentType
    cases hg : Header.get h 3 with
    | none =>
      rw [hg] at hg3
      have h1' : f.lookup 3 = none := hg3
      simp only [h1']
      exact ⟨p.ctTstr, p.ctUint, rfl, h1, h2, h3⟩
    | some x =>
      rw [hg] at hg3
      obtain ⟨v, c, hl, hv, hw⟩ := hg3
      simp only [hl, hv.text?, hv.int?]
      cases v with
      | tstr s =>
        simp only [Val.text?]
        have : (Str.ub p.ctTstr).isNullOrEmpty = decide (ct.getD [] = []) := by
          rw [← h1]
          cases p.ctTstr with
          | none => rfl
          | some o =>
            obtain ⟨off, b⟩ := o
            cases b <;> simp [Str.ub, UB.isNullOrEmpty]
        rw [this]
        by_cases hc : ct.getD [] = []
        · simp only [hc, if_true, decide_true, Bool.not_true, Bool.false_eq_true, if_false]
          exact ⟨some s, p.ctUint, rfl, rfl, h2, h3⟩
        · simp only [hc, if_false, decide_false, Bool.not_false, if_true]
      | int i =>
        simp only [Val.text?, Val.int?]
        by_cases hr : i < 0 ∨ 65535 < i
        · rw [if_pos hr, if_pos (show i < 0 ∨ i > 65535 from hr)]
        · rw [if_neg hr, if_neg (show ¬ (i < 0 ∨ i > 65535) from hr)]
          cases cn with
          | none =>
            simp only [Option.getD_none] at h2
            simp only [if_true, h2, emptyContentType, ne_eq, not_true, if_false]
            refine ⟨p.ctTstr, i.toNat, rfl, h1, rfl, ?_⟩
            intro n hn
            cases hn
            omega
          | some n =>
            have := h3 n rfl
            simp only [Option.getD_some] at h2
            rw [if_neg (by simp), if_pos]
            rw [h2]
            unfold emptyContentType
            omega
      | _ => rfl

/-- `parse_cose_header_parameters` against `readHeader`. -/
theorem readHeader_exact {cfg : Config} {P : QParams} {d : Nat} {prot : Bool} {h : Header}
    {es : List Entry} {k : Known} {p : Params} {crit unk : LabelList}
    (he : Each (EntryShows P d) h es) (hk : KnownIs k p crit unk)
    (hp : prot = true → k.critInts = [] ∧ k.critTexts = []) :
    match readHeader cfg.disableContentType prot h k with
    | .error y => headerFn cfg P d prot es p crit unk = .error y
    | .ok k' => ∃ p' crit' unk', headerFn cfg P d prot es p crit unk = .ok (p', crit', unk') ∧
        KnownIs k' p' crit' unk' := by
  obtain ⟨ts, rfl, hts, hll⟩ := hk.unk
  obtain ⟨cs, rfl, hcs⟩ := hk.crit
  have hs := scan_exact (he.imp fun _ _ _ h => h.scan) [] [] [] ⟨k.ints, k.texts⟩ ts (by intro i _; rfl)
    (by intro i _; simp [Header.get]) hll hts
  unfold readHeader headerFn
  cases hsc : scan h [] ⟨k.ints, k.texts⟩ with
  | error y =>
    rw [hsc] at hs
    obtain ⟨x, s', hsf, hx⟩ := hs
    simp only at hsf ⊢
    rw [hsf]
    rcases hx with ⟨rfl, hr⟩ | ⟨hx, hr⟩
    · simp only [hr]
    · cases x <;> first | exact absurd rfl hx | (simp only at hr ⊢; rw [hr])
  | ok u =>
    rw [hsc] at hs
    obtain ⟨f, ts', hsf, hll', hts', hf⟩ := hs
    rw [List.nil_append] at hf
    simp only at hsf ⊢
    rw [hsf]
    simp only
    have e1 := readAlg_exact (prot := prot) (p := p) hf
    rw [hk.alg] at e1
    unfold copyParams
    cases ha : readAlg prot h k.alg with
    | error y => rw [ha] at e1; simp only at e1 ⊢; rw [e1]
    | ok alg =>
    rw [ha] at e1
    simp only at e1 ⊢
    rw [e1]
    simp only
    -- kid
    have e2 := readBytes_exact hf 4 (by simp) p.kid
    rw [hk.kid] at e2
    cases hb : readBytes h 4 k.kid with
    | error y =>
      rw [hb] at e2
      obtain ⟨rfl, s, c, hl, hne⟩ := e2
      simp only [takeKid, hl]
      cases hpk : p.kid with
      | none => exact absurd hpk hne
      | some o => rfl
    | ok kid =>
    rw [hb] at e2
    have e2' : ∃ kd, takeKid f { p with alg := alg } = .ok { p with alg := alg, kid := kd } ∧
        kd.map (·.bytes) = kid := by
      rcases e2 with ⟨hl, rfl⟩ | ⟨s, c, hl, hn, rfl⟩
      · exact ⟨p.kid, by simp only [takeKid, hl], hk.kid⟩
      · exact ⟨some s, by simp only [takeKid, hl, hn]; rfl, rfl⟩
    obtain ⟨kd, e2', hkd⟩ := e2'
    simp only [e2']
    -- iv
    have e3 := readBytes_exact hf 5 (by simp) p.iv
    rw [hk.iv] at e3
    cases hb : readBytes h 5 k.iv with
    | error y =>
      rw [hb] at e3
      obtain ⟨rfl, s, c, hl, hne⟩ := e3
      simp only [takeIv, hl]
      cases hpk : p.iv with
      | none => exact absurd hpk hne
      | some o => rfl
    | ok iv =>
    rw [hb] at e3
    have e3' : ∃ kd', takeIv f { p with alg := alg, kid := kd } =
        .ok { p with alg := alg, kid := kd, iv := kd' } ∧ kd'.map (·.bytes) = iv := by
      rcases e3 with ⟨hl, rfl⟩ | ⟨s, c, hl, hn, rfl⟩
      · exact ⟨p.iv, by simp only [takeIv, hl], hk.iv⟩
      · exact ⟨some s, by simp only [takeIv, hl, hn]; rfl, rfl⟩
    obtain ⟨kd', e3', hkd'⟩ := e3'
    simp only [e3']
    -- partial iv
    have e4 := readBytes_exact hf 6 (by simp) p.partialIv
    rw [hk.partialIv] at e4
    cases hb : readBytes h 6 k.partialIv with
    | error y =>
      rw [hb] at e4
      obtain ⟨rfl, s, c, hl, hne⟩ := e4
      simp only [takePartialIv, hl]
      cases hpk : p.partialIv with
      | none => exact absurd hpk hne
      | some o => rfl
    | ok piv =>
    rw [hb] at e4
    have e4' : ∃ kd'', takePartialIv f { p with alg := alg, kid := kd, iv := kd' } =
        .ok { p with alg := alg, kid := kd, iv := kd', partialIv := kd'' } ∧
        kd''.map (·.bytes) = piv := by
      rcases e4 with ⟨hl, rfl⟩ | ⟨s, c, hl, hn, rfl⟩
      · exact ⟨p.partialIv, by simp only [takePartialIv, hl], hk.partialIv⟩
      · exact ⟨some s, by simp only [takePartialIv, hl, hn]; rfl, rfl⟩
    obtain ⟨kd'', e4', hkd''⟩ := e4'
    simp only [e4']
    -- content type
    have e5 := readCt_exact (cfg := cfg)
      (p := { p with alg := alg, kid := kd, iv := kd', partialIv := kd'' })
      hf hk.ctText hk.ctNum hk.ctSmall
    cases hc : (if cfg.disableContentType = true then .ok (k.ctText, k.ctNum)
      else readContentType h (k.ctText, k.ctNum) : Except Err (Option Bytes × Option Nat)) with
    | error y => rw [hc] at e5; simp only at e5 ⊢; rw [e5]
    | ok ct =>
    rw [hc] at e5
    obtain ⟨t, n, e5, ht, hn, hsm⟩ := e5
    simp only [e5]
    -- crit
    have e6 := readCrit_exact (prot := prot) (old := (k.critInts, k.critTexts)) he hcs
      (fun h => Prod.ext (hp h).1 (hp h).2)
    cases hcr : readCrit prot h (k.critInts, k.critTexts) with
    | error y => rw [hcr] at e6; simp only at e6 ⊢; rw [e6]
    | ok cr =>
    rw [hcr] at e6
    obtain ⟨ct', e6, hct'⟩ := e6
    simp only at e6 ⊢
    rw [e6]
    exact ⟨_, _, _, rfl, rfl, hkd, hkd', hkd'', ht, hn, hsm, ⟨ct', rfl, hct'⟩,
      ⟨ts', rfl, hts', hll'⟩⟩

/-- The caller passes a detached payload. -/
def VPayload.isDetached : VPayload → Bool
  | .inline _ => false
  | .detached _ => true

/-- Decoding of a message against `Message.read`. -/
theorem read_exact {cfg : Config} {P : QParams} {m : Message} {pb : Bytes} {v : MsgView}
    (hprot : v.prot.bytes = pb) (hpe : Each (EntryShows P 12) m.prot v.protEntries)
    (hue : Each (EntryShows P 13) m.unprot v.unprotEntries) (hpay : AtomIs m.payItem v.payload)
    (hpt : v.payloadTags = []) (hsig : v.sig.bytes = m.sig)
    (pay : VPayload) :
    match m.read cfg.disableContentType with
    | .error y => bodyFn cfg P v pay = .error y
    | .ok k =>
      match m.payloadFault pay.isDetached with
      | some y => bodyFn cfg P v pay = .error y
      | none => ∃ x, bodyFn cfg P v pay = .ok x ∧ KnownIs k x.params x.crit x.unk ∧
          x.prot.ub = .data pb ∧ x.sig.ub = .data m.sig ∧
          x.payload.ub = match pay with
            | .inline _ => .data (m.payload.getD [])
            | .detached p => p := by
  unfold Message.read bodyFn
  have e1 := readHeader_exact (cfg := cfg) (prot := true) hpe KnownIs.nothing
    (fun _ => ⟨rfl, rfl⟩)
  cases hr1 : readHeader cfg.disableContentType true m.prot Known.nothing with
  | error y => rw [hr1] at e1; simp only at e1 ⊢; rw [e1]
  | ok k1 =>
  rw [hr1] at e1
  obtain ⟨p1, crit1, unk1, e1, hk1⟩ := e1
  simp only [e1]
  have e2 := readHeader_exact (cfg := cfg) (prot := false) hue hk1 (by simp)
  cases hr2 : readHeader cfg.disableContentType false m.unprot k1 with
  | error y => rw [hr2] at e2; simp only at e2 ⊢; rw [e2]
  | ok k2 =>
  rw [hr2] at e2
  obtain ⟨p2, crit2, unk2, e2, hk2⟩ := e2
  simp only [e2]
  unfold Message.payloadFault VPayload.isDetached
  unfold Message.payItem at hpay
  cases pay with
  | inline w =>
    cases hm : m.payload with
    | none =>
      rw [hm] at hpay
      have hpay' : v.payload = .null := hpay
      simp [hpay']
    | some b =>
      rw [hm] at hpay
      obtain ⟨off, hpay⟩ := hpay
      simp only [hpay, hpt, reduceCtorEq, if_false, Option.getD_some]
      exact ⟨_, rfl, hk2, by simp [Buf.ub, hprot], by simp [Buf.ub, hsig], rfl⟩
  | detached p =>
    cases hm : m.payload with
    | none =>
      rw [hm] at hpay
      have hpay' : v.payload = .null := hpay
      simp only [hpay', if_true]
      exact ⟨_, rfl, hk2, by simp [Buf.ub, hprot], by simp [Buf.ub, hsig], rfl⟩
    | some b =>
      rw [hm] at hpay
      obtain ⟨off, hpay⟩ := hpay
      simp [hpay]

theorem KnownIs.blocked {k : Known} {p : Params} {crit unk : LabelList}
    (h : KnownIs k p crit unk) : (checkCritical crit unk).1 = .ok () ↔ ¬ k.blocked := by
  obtain ⟨ts, rfl, hts, hll⟩ := h.unk
  obtain ⟨cs, rfl, hcs⟩ := h.crit
  unfold checkCritical Known.blocked
  simp only [mkLL_intPrefix, mkLL_tstrPrefix, hts, hcs]
  have h0 : k.ints.takeWhile (· != 0) = k.ints := by
    have : ∀ xs : List Int, (0 : Int) ∉ xs → xs.takeWhile (· != 0) = xs := by
      intro xs
      induction xs with
      | nil => intro _; rfl
      | cons x xs ih =>
        intro hn
        rw [List.mem_cons, not_or] at hn
        rw [List.takeWhile_cons, if_pos (by simpa using fun h => hn.1 h.symm), ih hn.2]
    exact this _ hll.2.1
  rw [h0]
  have a1 : (k.ints.any fun u => (k.critInts.takeWhile (· != 0)).any (· == u)) = true ↔
      ∃ i ∈ k.critInts.takeWhile (· != 0), i ∈ k.ints := by
    simp only [List.any_eq_true, beq_iff_eq]
    constructor
    · rintro ⟨u, hu, i, hi, rfl⟩; exact ⟨i, hi, hu⟩
    · rintro ⟨i, hi, hu⟩; exact ⟨i, hu, i, hi, rfl⟩
  have a2 : (k.texts.any fun u => k.critTexts.any (· == u)) = true ↔
      ∃ t ∈ k.critTexts, t ∈ k.texts := by
    simp only [List.any_eq_true, beq_iff_eq]
    constructor
    · rintro ⟨u, hu, i, hi, rfl⟩; exact ⟨i, hi, hu⟩
    · rintro ⟨i, hi, hu⟩; exact ⟨i, hu, i, hi, rfl⟩
  rw [← a1, ← a2]
  split
  · rename_i h; simp [h]
  · split
    · rename_i h; simp [h]
    · rename_i h1 h2; simp [h1, h2]

/-! ### Headers as they are shown -/

/-- The item is one that has an encoding; `unread` has none. -/
def Spec.Item.Real (x : Item) : Prop :=
  x.bare ≠ unread ∧ ∀ xs, x.bare = .arr xs → ∀ y ∈ xs, y.bare ≠ unread

theorem Spec.Item.live.isRead {x : Item} (h : x.live) (hu : x ≠ unread) : x.isRead = true := by
  cases hr : x.isRead with
  | true => rfl
  | false =>
    rcases unread_cases hr with rfl | rfl
    · cases h.1
    · exact absurd rfl hu

/-- The item can be read, and so can its elements if it is an array. -/
def Spec.Item.Good (x : Item) : Prop :=
  x.Real ∧ x.bare.live ∧ ∀ xs, x.bare = .arr xs → ∀ y ∈ xs, y.bare.live

theorem encodes_bare {x : Item} {b : Bytes} (h : Encodes x b) : ∃ b', Encodes x.bare b' := by
  have : ∀ (ts : List Nat) {x : Item} {b : Bytes}, Encodes (tagged ts x) b → ∃ b', Encodes x b' := by
    intro ts
    induction ts with
    | nil => intro x b h; exact ⟨b, h⟩
    | cons t ts ih => intro x b h; cases h with | tag _ h => exact ih h
  rw [← Item.tagged_bare x] at h
  exact this _ h

theorem Spec.EncodesAll.each {xs : List Item} {bss : List Bytes} (h : EncodesAll xs bss) :
    ∀ x ∈ xs, ∃ b, Encodes x b := by
  induction xs generalizing bss with
  | nil => intro x hx; cases hx
  | cons y xs ih =>
    cases h with
    | cons h1 h2 =>
      intro x hx
      rcases List.mem_cons.mp hx with rfl | hx
      · exact ⟨_, h1⟩
      · exact ih h2 x hx

theorem Spec.EncodesPairs.each {kvs : List (Item × Item)} {bss : List Bytes}
    (h : EncodesPairs kvs bss) : ∀ kv ∈ kvs, ∃ b, Encodes kv.2 b := by
  induction kvs generalizing bss with
  | nil => intro x hx; cases hx
  | cons y xs ih =>
    cases h with
    | cons h1 h2 h3 =>
      intro x hx
      rcases List.mem_cons.mp hx with rfl | hx
      · exact ⟨_, h2⟩
      · exact ih h3 x hx

theorem Spec.Encodes.elements {xs : List Item} {b : Bytes} (h : Encodes (.arr xs) b) :
    ∀ x ∈ xs, ∃ b, Encodes x b := by
  cases h with
  | arr _ h => exact h.each
  | arrIndef h => exact h.each

theorem Spec.Encodes.not_unread {x : Item} {b : Bytes} (h : Encodes x b) : x.bare ≠ unread := by
  obtain ⟨b', h'⟩ := encodes_bare h
  intro hc
  rw [hc] at h'
  cases h' <;> omega

theorem Spec.Encodes.real {x : Item} {b : Bytes} (h : Encodes x b) : x.Real := by
  refine ⟨h.not_unread, fun xs hx y hy => ?_⟩
  obtain ⟨b', h'⟩ := encodes_bare h
  rw [hx] at h'
  obtain ⟨b'', h''⟩ := h'.elements y hy
  exact h''.not_unread

theorem Spec.Encodes.live {x : Item} {b : Bytes} (h : Encodes x b) {d : Nat} (hf : x.fits d = true) :
    x.bare.live := by
  obtain ⟨b', h'⟩ := encodes_bare h
  have hf' := Item.bare_fits x hf
  generalize x.bare = y at h' hf'
  cases h' with
  | nint hh => 
    have : _ ≤ int64Max := of_decide_eq_true hf'
    unfold int64Max at this
    exact ⟨rfl, by simpa [Item.tooLow] using this⟩
  | simple h1 h2 => exact ⟨by simp only [Item.isNot, beq_eq_false_iff_ne]; omega, rfl⟩
  | simple8 h1 h2 => exact ⟨by simp only [Item.isNot, beq_eq_false_iff_ne]; omega, rfl⟩
  | _ => exact ⟨rfl, rfl⟩

theorem fitsAll_mem {d : Nat} {xs : List Item} (h : Spec.fitsAll d xs = true) :
    ∀ x ∈ xs, x.fits d = true := by
  induction xs with
  | nil => intro x hx; cases hx
  | cons y xs ih =>
    simp only [Spec.fitsAll, Bool.and_eq_true] at h
    intro x hx
    rcases List.mem_cons.mp hx with rfl | hx
    · exact h.1
    · exact ih h.2 x hx

theorem Spec.Encodes.good {x : Item} {b : Bytes} (h : Encodes x b) {d : Nat} (hf : x.fits d = true) :
    x.Good := by
  refine ⟨h.real, h.live hf, fun xs hx y hy => ?_⟩
  obtain ⟨b', h'⟩ := encodes_bare h
  have hf' := Item.bare_fits x hf
  rw [hx] at h' hf'
  simp only [Item.fits, Bool.and_eq_true] at hf'
  obtain ⟨b'', h''⟩ := h'.elements y hy
  exact h''.live (fitsAll_mem hf'.2 y hy)

theorem fits_entries {h : Header} {d : Nat} (hf : (Header.item h).fits d = true) :
    ∀ p ∈ h, p.2.fits (d - 1) = true := by
  have : ∀ (h : Header), fitsPairs (d - 1) (h.map fun p => (p.1.item, p.2)) = true →
      ∀ p ∈ h, p.2.fits (d - 1) = true := by
    intro h
    induction h with
    | nil => intro _ p hp; cases hp
    | cons q h ih =>
      intro hf p hp
      simp only [List.map_cons, fitsPairs, Bool.and_eq_true] at hf
      rcases List.mem_cons.mp hp with rfl | hp
      · exact hf.1.2
      · exact ih hf.2 p hp
  unfold Header.item at hf
  simp only [Item.fits, Bool.and_eq_true] at hf
  exact this h hf.2

theorem Spec.Encodes.entries {h : Header} {b : Bytes} (he : Encodes (Header.item h) b) :
    ∀ p ∈ h, ∃ b, Encodes p.2 b := by
  have : ∀ kv ∈ h.map (fun p => (p.1.item, p.2)), ∃ b, Encodes kv.2 b := by
    cases he with
    | map _ h => exact h.each
    | mapIndef h => exact h.each
  intro p hp
  exact this _ (List.mem_map_of_mem hp)

theorem Spec.Message.Encoded.prot_entries {m : Message} {pb msg : Bytes} (h : m.Encoded pb msg) :
    ∀ p ∈ m.prot, ∃ b, Encodes p.2 b := by
  rcases h.1 with ⟨h, -⟩ | h
  · rw [h]; intro p hp; cases hp
  · exact h.entries

theorem Spec.Message.Encoded.unprot_entries {m : Message} {pb msg : Bytes} (h : m.Encoded pb msg) :
    ∀ p ∈ m.unprot, ∃ b, Encodes p.2 b := by
  obtain ⟨-, hm⟩ := h
  have : ∀ (ts : List Nat) {x : Item} {b : Bytes}, Encodes (tagged ts x) b → ∃ b', Encodes x b' := by
    intro ts
    induction ts with
    | nil => intro x b h; exact ⟨b, h⟩
    | cons t ts ih => intro x b h; cases h with | tag _ h => exact ih h
  obtain ⟨b, hb⟩ := this _ hm
  obtain ⟨b', hb'⟩ := hb.elements (Header.item m.unprot) (by simp)
  exact hb'.entries

theorem Spec.Message.Encoded.prot_good {P : QParams} {m : Message} {pb msg : Bytes}
    (h : m.Encoded pb msg) (hf : m.Fits P msg) : ∀ p ∈ m.prot, p.2.Good := by
  intro p hp
  obtain ⟨b, hb⟩ := h.prot_entries p hp
  exact hb.good (fits_entries hf.prot p hp)

theorem Spec.Message.Encoded.unprot_good {P : QParams} {m : Message} {pb msg : Bytes}
    (h : m.Encoded pb msg) (hf : m.Fits P msg) : ∀ p ∈ m.unprot, p.2.Good := by
  intro p hp
  obtain ⟨b, hb⟩ := h.unprot_entries p hp
  exact hb.good (fits_entries hf.unprot p hp)

theorem bare_of_untagged {x : Item} (h : x.isTag = false) : x.bare = x := by
  cases x <;> first | rfl | cases h

/-- Without tags, a header is taken for what it is. -/
theorem shown_plain {P : QParams} {h : Header} (hp : Header.Plain h)
    (he : ∀ p ∈ h, p.2.Good) : Shown P h h := by
  intro d es hes
  refine hes.imp fun p hm e hv => ?_
  obtain ⟨h1, cE, hv⟩ := hv
  refine ⟨h1, fun i hi hi1 hi6 => ?_⟩
  obtain ⟨lab, x⟩ := p
  simp only at hi hv
  subst hi
  obtain ⟨htag, helt⟩ := hp i x hm hi1 hi6
  obtain ⟨⟨hu, hue⟩, hlv, hle⟩ := he _ hm
  rw [bare_of_untagged htag] at hu hue hlv hle
  obtain ⟨g1, g2⟩ := valIs_valOf hv htag hlv
  refine ⟨.inl ⟨hlv.isRead hu, g1, g2⟩, ?_⟩
  rintro xs rfl
  obtain ⟨-, -, cnt, hcv, hel⟩ := hv
  obtain ⟨ces, hel, hall⟩ := hel (d - 1) (Nat.le_refl _)
  refine ⟨cnt, ces, cE, hcv, hel, hall.imp fun x hx e ⟨cE', hv'⟩ => ?_⟩
  have hu' := hue xs rfl x hx
  have hl' := hle xs rfl x hx
  rw [bare_of_untagged (helt xs rfl x hx)] at hu' hl'
  obtain ⟨k1, k2⟩ := valIs_valOf hv' (helt xs rfl x hx) hl'
  exact .inl ⟨hl'.isRead hu', k1, k2⟩

end TCose
