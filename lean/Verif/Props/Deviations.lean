import Verif.Spec.Deviations
import Verif.Props.Verdict
import Verif.Lemmas.EncEncodes

/-!
# C84: which rules on headers are not enforced

C65 gives the outcome for any headers by reading through them in order.  Here it is set
against the rules of RFC 8152 (`Message.Valid`): accepted headers follow them but for six
kinds of deviation, and each of the six is accepted.
-/

namespace TCose.Props
open TCose Spec

theorem nodup_of_count {α : Type} [DecidableEq α] : ∀ {l : List α}, (∀ a, l.count a ≤ 1) → l.Nodup := by
  intro l
  induction l with
  | nil => intro _; exact List.nodup_nil
  | cons b l ih =>
    intro h
    rw [List.nodup_cons]
    refine ⟨fun hb => ?_, ih fun a => ?_⟩
    · have h1 := h b
      have h2 : 0 < l.count b := List.count_pos_iff.mpr hb
      rw [List.count_cons_self] at h1
      omega
    · have h1 := h a
      rw [List.count_cons] at h1
      omega

/-- What a successful pass over a header shows. -/
structure Scanned (h : Header) (seen : List Int) (u u' : Unknown) : Prop where
  once : ∀ i : Int, i = 1 ∨ i = 3 ∨ i = 4 ∨ i = 5 ∨ i = 6 →
    (h.map (·.1)).count (Label.int i) + (if i ∈ seen then 1 else 0) ≤ 1
  types : ∀ i x, (Label.int i, x) ∈ h → ¬ wrongType i x
  range : ∀ i x, (Label.int i, x) ∈ h → i ≤ 9223372036854775807
  ints : u'.ints = u.ints ++ (Header.unknownInts h).filter (· ≠ 0)
  texts : u'.texts = u.texts ++ Header.texts h
  fewInts : u.ints.length ≤ 10 → u'.ints.length ≤ 10
  fewTexts : u.texts.length ≤ 10 → u'.texts.length ≤ 10

theorem scanned : ∀ (h : Header) {seen : List Int} {u u' : Unknown}, scan h seen u = .ok u' →
    Scanned h seen u u' := by
  intro h
  induction h with
  | nil =>
    intro seen u u' hs
    simp only [scan] at hs
    cases hs
    refine ⟨fun i _ => ?_, ?_, ?_, ?_, ?_, id, id⟩
    · simp only [List.map_nil, List.count_nil]; split <;> omega
    · intro i x h; cases h
    · intro i x h; cases h
    · simp [Header.unknownInts]
    · simp [Header.texts]
  | cons p r ih =>
    obtain ⟨l, x⟩ := p
    intro seen u u' hs
    cases l with
    | text t =>
      simp only [scan] at hs
      split at hs
      · cases hs
      · rename_i hlen
        have := ih hs
        refine ⟨fun i hi => ?_, ?_, ?_, ?_, ?_, this.fewInts, fun h => this.fewTexts ?_⟩
        · have := this.once i hi
          simpa [List.count_cons] using this
        · intro i y hm
          rcases List.mem_cons.mp hm with hm | hm
          · cases hm
          · exact this.types i y hm
        · intro i y hm
          rcases List.mem_cons.mp hm with hm | hm
          · cases hm
          · exact this.range i y hm
        · rw [this.ints]; rfl
        · rw [this.texts]; simp [Header.texts]
        · simp only [List.length_append, List.length_cons, List.length_nil]; omega
    | int i =>
      simp only [scan] at hs
      by_cases h1 : i = 1 ∨ i = 3 ∨ i = 4 ∨ i = 5 ∨ i = 6
      · rw [if_pos h1] at hs
        split at hs
        · cases hs
        · rename_i h2
          have := ih hs
          refine ⟨fun j hj => ?_, ?_, ?_, ?_, ?_, this.fewInts, this.fewTexts⟩
          · have h3 := this.once j hj
            simp only [List.map_cons, List.count_cons, List.mem_cons] at h3 ⊢
            by_cases hij : j = i
            · subst hij
              rw [if_neg (fun hh => h2 (.inl hh))]
              simp only [true_or, if_true] at h3
              simp only [beq_self_eq_true, if_true]
              omega
            · have : (Label.int i == Label.int j) = false := by
                simp only [beq_eq_false_iff_ne, ne_eq, Label.int.injEq]
                exact fun h => hij h.symm
              rw [this]
              simp only [hij, false_or] at h3
              simpa using h3
          · intro j y hm
            rcases List.mem_cons.mp hm with hm | hm
            · cases hm; exact fun hh => h2 (.inr hh)
            · exact this.types j y hm
          · intro j y hm
            rcases List.mem_cons.mp hm with hm | hm
            · cases hm; omega
            · exact this.range j y hm
          · rw [this.ints]
            have : 1 ≤ i ∧ i ≤ 6 := by omega
            simp [Header.unknownInts, this]
          · rw [this.texts]; rfl
      · rw [if_neg h1] at hs
        have hcount : ∀ j : Int, j = 1 ∨ j = 3 ∨ j = 4 ∨ j = 5 ∨ j = 6 →
            (Label.int i == Label.int j) = false := by
          intro j hj
          simp only [beq_eq_false_iff_ne, ne_eq, Label.int.injEq]
          intro h; subst h; exact h1 hj
        by_cases h2 : i = 2
        · rw [if_pos h2] at hs
          have := ih hs
          refine ⟨fun j hj => ?_, ?_, ?_, ?_, ?_, this.fewInts, this.fewTexts⟩
          · have h3 := this.once j hj
            simp only [List.map_cons, List.count_cons, hcount j hj]
            simpa using h3
          · intro j y hm
            rcases List.mem_cons.mp hm with hm | hm
            · cases hm
              rintro (h | h) <;> omega
            · exact this.types j y hm
          · intro j y hm
            rcases List.mem_cons.mp hm with hm | hm
            · cases hm; omega
            · exact this.range j y hm
          · rw [this.ints]
            simp [Header.unknownInts, h2]
          · rw [this.texts]; rfl
        · rw [if_neg h2] at hs
          split at hs
          · cases hs
          · rename_i h3
            split at hs
            · cases hs
            · rename_i h4
              have := ih hs
              refine ⟨fun j hj => ?_, ?_, ?_, ?_, ?_, fun hl => this.fewInts ?_, fun hl => this.fewTexts ?_⟩
              · have h3 := this.once j hj
                simp only [List.map_cons, List.count_cons, hcount j hj]
                simpa using h3
              · intro j y hm
                rcases List.mem_cons.mp hm with hm | hm
                · cases hm
                  rintro (h | h) <;> omega
                · exact this.types j y hm
              · intro j y hm
                rcases List.mem_cons.mp hm with hm | hm
                · cases hm; omega
                · exact this.range j y hm
              · rw [this.ints]
                have h5 : ¬ (1 ≤ i ∧ i ≤ 6) := by omega
                by_cases h0 : i = 0
                · simp [Header.unknownInts, h0]
                · simp [Header.unknownInts, h0, h5]
              · rw [this.texts]
                split <;> rfl
              · split
                · exact hl
                · simp only [List.length_append, List.length_cons, List.length_nil]; omega
              · split <;> exact hl

theorem get_of_count {h : Header} {i : Int} {x : Item} (hm : (Label.int i, x) ∈ h)
    (hc : (h.map (·.1)).count (Label.int i) ≤ 1) : Header.get h i = some x := by
  induction h with
  | nil => cases hm
  | cons p h ih =>
    unfold Header.get
    rw [List.find?_cons]
    rcases List.mem_cons.mp hm with rfl | hm
    · simp
    · rw [List.map_cons, List.count_cons] at hc
      have h1 : 0 < (h.map (·.1)).count (Label.int i) :=
        List.count_pos_iff.mpr (List.mem_map.mpr ⟨_, hm, rfl⟩)
      have h2 : ¬ (p.1 == Label.int i) = true := by
        intro h2
        rw [if_pos h2] at hc
        omega
      rw [decide_eq_false (by simpa using h2)]
      exact ih hm (by omega)

theorem count_mem {h : Header} {l : Label} (hc : 1 ≤ (h.map (·.1)).count l) : ∃ x, (l, x) ∈ h := by
  have h1 : l ∈ h.map (·.1) := List.count_pos_iff.mp hc
  obtain ⟨p, hp, rfl⟩ := List.mem_map.mp h1
  exact ⟨p.2, hp⟩

/-- What a header that was read shows. -/
structure HeaderRead (noCt prot : Bool) (h : Header) (k k' : Known) : Prop where
  scanned : ∃ u, Scanned h [] ⟨k.ints, k.texts⟩ u ∧ k'.ints = u.ints ∧ k'.texts = u.texts
  alg : readAlg prot h k.alg = .ok k'.alg
  kid : readBytes h 4 k.kid = .ok k'.kid
  iv : readBytes h 5 k.iv = .ok k'.iv
  partialIv : readBytes h 6 k.partialIv = .ok k'.partialIv
  ct : noCt = false → readContentType h (k.ctText, k.ctNum) = .ok (k'.ctText, k'.ctNum)
  crit : readCrit prot h (k.critInts, k.critTexts) = .ok (k'.critInts, k'.critTexts)

theorem header_read {noCt prot : Bool} {h : Header} {k k' : Known}
    (hr : readHeader noCt prot h k = .ok k') : HeaderRead noCt prot h k k' := by
  unfold readHeader at hr
  cases h1 : Spec.scan h [] ⟨k.ints, k.texts⟩ with
  | error e => rw [h1] at hr; cases hr
  | ok u =>
  simp only [h1] at hr
  cases h2 : readAlg prot h k.alg with
  | error e => rw [h2] at hr; cases hr
  | ok alg =>
  simp only [h2] at hr
  cases h3 : readBytes h 4 k.kid with
  | error e => rw [h3] at hr; cases hr
  | ok kid =>
  simp only [h3] at hr
  cases h4 : readBytes h 5 k.iv with
  | error e => rw [h4] at hr; cases hr
  | ok iv =>
  simp only [h4] at hr
  cases h5 : readBytes h 6 k.partialIv with
  | error e => rw [h5] at hr; cases hr
  | ok piv =>
  simp only [h5] at hr
  generalize h6 : (if noCt = true then (Except.ok (k.ctText, k.ctNum) : Except Err _)
    else readContentType h (k.ctText, k.ctNum)) = ct at hr
  cases ct with
  | error e => cases hr
  | ok ct =>
  simp only at hr
  cases h7 : readCrit prot h (k.critInts, k.critTexts) with
  | error e => rw [h7] at hr; cases hr
  | ok crit =>
  simp only [h7] at hr
  cases hr
  refine ⟨⟨u, Props.scanned h h1, rfl, rfl⟩, h2, h3, h4, h5, ?_, h7⟩
  intro hn
  rw [hn] at h6
  exact h6

theorem bstr_once {h h' : Header} {i : Int} {o o' : Option Bytes}
    (hi : i = 4 ∨ i = 5 ∨ i = 6) {u u' : Unknown} {v v' : Unknown}
    (hs : Scanned h [] u u') (hs' : Scanned h' [] v v')
    (h1 : readBytes h i none = .ok o) (h2 : readBytes h' i o = .ok o') :
    (∀ x, (Label.int i, x) ∈ h → ∀ y, (Label.int i, y) ∈ h' → False) ∧
    ∀ x, (Label.int i, x) ∈ h ++ h' → ∃ b, x = .bstr b := by
  have bs : ∀ (h : Header) (u u' : Unknown), Scanned h [] u u' → ∀ x, (Label.int i, x) ∈ h →
      ∃ b, x = .bstr b := by
    intro h u u' hs x hx
    have := hs.types i x hx
    unfold wrongType at this
    cases hb : x.bytes? with
    | none => exact absurd (.inr (.inl ⟨hi, hb⟩)) this
    | some b =>
      unfold Item.bytes? at hb
      split at hb
      · exact ⟨_, rfl⟩
      · cases hb
  refine ⟨fun x hx y hy => ?_, fun x hx => ?_⟩
  · have c1 := hs.once i (by omega)
    have c2 := hs'.once i (by omega)
    obtain ⟨b, rfl⟩ := bs h u u' hs x hx
    unfold readBytes at h1 h2
    rw [get_of_count hx (by omega)] at h1
    rw [get_of_count hy (by omega)] at h2
    simp only [if_true, Item.bytes?] at h1
    cases h1
    simp at h2
  · rcases List.mem_append.mp hx with hx | hx
    · exact bs h u u' hs x hx
    · exact bs h' v v' hs' x hx

/-- The label in an element of crit. -/
def itemLabel : Item → Label
  | .uint n => .int n
  | .nint n => .int (-1 - (n : Int))
  | .tstr t => .text t
  | _ => .int 0

theorem itemLabel_item {x : Item} (h : x.int64?.isSome = true ∨ x.text?.isSome = true) :
    (itemLabel x).item = x := by
  cases x <;> simp [Item.int64?, Item.text?] at h <;> simp only [itemLabel, Label.item, Spec.int]
  · rw [if_pos (by omega)]; rfl
  · rename_i n
    rw [if_neg (by omega)]
    congr 1
    omega

theorem itemLabel_ints : ∀ (xs : List Item),
    (∀ x ∈ xs, x.int64?.isSome = true ∨ x.text?.isSome = true) →
    labelInts (xs.map itemLabel) = xs.filterMap Item.int64? ∧
    labelTexts (xs.map itemLabel) = xs.filterMap Item.text? := by
  intro xs
  induction xs with
  | nil => intro _; exact ⟨rfl, rfl⟩
  | cons x xs ih =>
    intro h
    obtain ⟨i1, i2⟩ := ih fun y hy => h y (List.mem_cons_of_mem _ hy)
    have hx := h x List.mem_cons_self
    unfold labelInts at i1 ⊢
    unfold labelTexts at i2 ⊢
    simp only [List.map_cons, List.filterMap_cons]
    rw [i1, i2]
    cases x <;> simp [Item.int64?, Item.text?] at hx <;> simp [itemLabel, Item.int64?, Item.text?]
    rw [if_pos hx]

theorem crit_read {noCt : Bool} {h : Header} {k k' : Known} (hr : HeaderRead noCt true h k k') :
    (h.map (·.1)).count (Label.int 2) ≤ 1 ∧
    ((∀ x, (Label.int 2, x) ∉ h) → k'.critInts = k.critInts ∧ k'.critTexts = k.critTexts) ∧
    ∀ x, (Label.int 2, x) ∈ h → ∃ ls : List Label, x = .arr (ls.map Label.item) ∧
      k'.critInts = labelInts ls ∧ k'.critTexts = labelTexts ls ∧
      (labelInts ls).length ≤ 10 ∧ (labelTexts ls).length ≤ 10 ∧
      ¬ ((labelInts ls).headD 0 = 0 ∧ (labelTexts ls).headD [] = []) ∧
      ∀ i, Label.int i ∈ ls → i ≤ 9223372036854775807 := by
  have hc := hr.crit
  have hcount : (h.map (·.1)).count (Label.int 2) =
      (h.filter (fun p => decide (p.1 = .int 2))).length := by
    rw [List.count_eq_length_filter, List.filter_map, List.length_map]
    congr 1
  have hmem : ∀ x, (Label.int 2, x) ∈ h ↔ (Label.int 2, x) ∈ h.filter (fun p => decide (p.1 = .int 2)) := by
    intro x; simp
  rw [hcount]
  simp only [hmem]
  unfold readCrit at hc
  split at hc
  · rename_i hf
    rw [hf]
    simp only [Except.ok.injEq, Prod.mk.injEq] at hc
    refine ⟨by simp, fun _ => ⟨hc.1.symm, hc.2.symm⟩, ?_⟩
    intro x hx; cases hx
  · rename_i l xs hf
    rw [hf]
    simp only [Bool.true_eq_false, if_false] at hc
    split at hc
    · rename_i hu
      simp only [Except.ok.injEq, Prod.mk.injEq] at hc
      obtain ⟨u1, u2, u3, u4⟩ := hu
      refine ⟨by simp, ?_, ?_⟩
      · intro hno
        exfalso
        have : (l, Item.arr xs) ∈ h.filter (fun p => decide (p.1 = .int 2)) := by rw [hf]; simp
        have hl : l = .int 2 := by simpa using (List.mem_filter.mp this).2
        subst hl
        exact hno (.arr xs) (by simp)
      · intro x hx
        simp only [List.mem_cons, Prod.mk.injEq, List.not_mem_nil, or_false] at hx
        obtain ⟨i1, i2⟩ := itemLabel_ints xs u1
        refine ⟨xs.map itemLabel, ?_, by rw [i1, hc.1], by rw [i2, hc.2], by rw [i1]; exact u2, by rw [i2]; exact u3,
          by rw [i1, i2]; exact u4, ?_⟩
        · rw [hx.2, List.map_map]
          congr 1
          symm
          calc xs.map (Label.item ∘ itemLabel) = xs.map id :=
                List.map_congr_left fun x hx => itemLabel_item (u1 x hx)
            _ = xs := List.map_id xs
        · intro i hi
          obtain ⟨y, hy, hyi⟩ := List.mem_map.mp hi
          have hy' := u1 y hy
          cases y <;> simp [Item.int64?, Item.text?] at hy' <;> simp [itemLabel] at hyi <;> omega
    · cases hc
  · cases hc

theorem fitsPairs_of {d : Nat} : ∀ {kvs : List (Item × Item)}, fitsPairs d kvs = true →
    ∀ k v, (k, v) ∈ kvs → k.fits d = true ∧ v.fits d = true := by
  intro kvs
  induction kvs with
  | nil => intro _ k v h; cases h
  | cons p r ih =>
    obtain ⟨k0, v0⟩ := p
    intro h k v hm
    simp only [fitsPairs, Bool.and_eq_true] at h
    rcases List.mem_cons.mp hm with hm | hm
    · cases hm; exact ⟨h.1.1.2, h.1.2⟩
    · exact ih h.2 k v hm

theorem fitsAll_of {d : Nat} : ∀ {xs : List Item}, Spec.fitsAll d xs = true →
    ∀ x ∈ xs, x.fits d = true := by
  intro xs
  induction xs with
  | nil => intro _ k h; cases h
  | cons y r ih =>
    intro h x hm
    simp only [Spec.fitsAll, Bool.and_eq_true] at h
    rcases List.mem_cons.mp hm with rfl | hm
    · exact h.1
    · exact ih h.2 x hm

theorem header_fits {d : Nat} {h : Header} (hf : (Header.item h).fits d = true) {l : Label} {x : Item}
    (hm : (l, x) ∈ h) : l.item.fits (d - 1) = true ∧ x.fits (d - 1) = true := by
  unfold Header.item at hf
  simp only [Item.fits, Bool.and_eq_true] at hf
  exact fitsPairs_of hf.2 _ _ (List.mem_map.mpr ⟨_, hm, rfl⟩)

theorem label_low {d : Nat} {i : Int} (h : (Label.int i).item.fits d = true) :
    -9223372036854775808 ≤ i := by
  simp only [Label.item, Spec.int] at h
  split at h
  · omega
  · simp only [Item.fits, int64Max] at h
    have h := of_decide_eq_true h
    omega

theorem number_int {x : Item} {i : Int} (h : x.int64? = some i) : x = Spec.int i := by
  unfold Spec.int
  cases x <;> simp [Item.int64?] at h
  · obtain ⟨-, rfl⟩ := h
    rw [if_pos (by omega)]; rfl
  · subst h
    rw [if_neg (by omega)]
    congr 1
    omega

/-- A content type that was read. -/
theorem ct_read {h : Header} {old new : Option Bytes × Option Nat} {x : Item}
    (hg : Header.get h 3 = some x) (hr : readContentType h old = .ok new) :
    (∃ t, x = .tstr t ∧ old.1.getD [] = [] ∧ new = (some t, old.2)) ∨
    ∃ n, n ≤ 65535 ∧ x = .uint n ∧ old.2 = none ∧ new = (old.1, some n) := by
  unfold readContentType at hr
  rw [hg] at hr
  simp only at hr
  split at hr
  · rename_i t ht
    left
    split at hr
    · rename_i h1
      cases hr
      refine ⟨t, ?_, by simpa using h1, rfl⟩
      cases x <;> simp [Item.text?] at ht
      rw [ht]
    · cases hr
  · rename_i i _ hi
    right
    split at hr
    · cases hr
    · rename_i h2
      split at hr
      · rename_i h3
        cases hr
        refine ⟨i.toNat, by omega, ?_, h3, rfl⟩
        rw [number_int hi, Spec.int, if_pos (by omega)]
      · cases hr
  · cases hr

theorem unknown_nonzero {h : Header} : (∀ x, (Label.int 0, x) ∉ h) →
    (Header.unknownInts h).filter (· ≠ 0) = Header.unknownInts h := by
  intro hno
  rw [List.filter_eq_self]
  intro i hi
  simp only [ne_eq, decide_not, Bool.not_eq_eq_eq_not, Bool.not_true, decide_eq_false_iff_not]
  rintro rfl
  unfold Header.unknownInts at hi
  obtain ⟨⟨l, x⟩, hp, hl⟩ := List.mem_filterMap.mp hi
  cases l with
  | text t => cases hl
  | int j =>
    simp only at hl
    split at hl
    · cases hl
    · cases hl; exact hno x hp

theorem takeWhile_all {l : List Int} (h : (0 : Int) ∉ l) : l.takeWhile (· != 0) = l := by
  induction l with
  | nil => rfl
  | cons i r ih =>
    simp only [List.mem_cons, not_or] at h
    rw [List.takeWhile_cons, if_pos (by simpa using fun h0 : i = 0 => h.1 h0.symm), ih h.2]

theorem mem_labelInts {ls : List Label} {i : Int} : i ∈ labelInts ls ↔ Label.int i ∈ ls := by
  unfold labelInts
  rw [List.mem_filterMap]
  constructor
  · rintro ⟨l, hl, h⟩
    cases l with
    | int j => cases h; exact hl
    | text t => cases h
  · intro h; exact ⟨_, h, rfl⟩

theorem mem_labelTexts {ls : List Label} {t : Bytes} : t ∈ labelTexts ls ↔ Label.text t ∈ ls := by
  unfold labelTexts
  rw [List.mem_filterMap]
  constructor
  · rintro ⟨l, hl, h⟩
    cases l with
    | int j => cases h
    | text t => cases h; exact hl
  · intro h; exact ⟨_, h, rfl⟩

theorem labels_inj : ∀ a b : List Label, a.map Label.item = b.map Label.item → a = b := by
  have inj : ∀ a b : Label, a.item = b.item → a = b := by
    intro a b h
    cases a <;> cases b <;> simp only [Label.item, Spec.int] at h
    · congr 1
      split at h <;> split at h <;> first | (injection h; omega) | cases h
    · split at h <;> cases h
    · split at h <;> cases h
    · cases h; rfl
  intro a
  induction a with
  | nil => intro b h; cases b with | nil => rfl | cons y b => cases h
  | cons x a ih =>
    intro b h
    cases b with
    | nil => cases h
    | cons y b =>
      simp only [List.map_cons, List.cons.injEq] at h
      rw [inj x y h.1, ih b h.2]

theorem int_inj {i j : Int} (h : Spec.int i = Spec.int j) : i = j := by
  unfold Spec.int at h
  split at h <;> split at h <;> first | (injection h; omega) | cases h

/-- What deviates breaks the rules. -/
theorem deviates_invalid {noCt : Bool} {m : Message} (h : m.Deviates noCt) : ¬ m.Valid := by
  intro hv
  have uses : ∀ l, m.uses l ≤ 1 := fun l => List.nodup_iff_count.mp hv.unique l
  obtain ⟨_, h⟩ := h
  cases h with
  | repeated l _ h2 => have := uses l; omega
  | contentTypes x y hx hy _ =>
    have h1 := uses (.int 3)
    unfold Message.uses at h1
    simp only [Message.headers, List.map_append, List.count_append] at h1
    have a : 0 < (m.prot.map (·.1)).count (Label.int 3) :=
      List.count_pos_iff.mpr (List.mem_map.mpr ⟨_, hx, rfl⟩)
    have b : 0 < (m.unprot.map (·.1)).count (Label.int 3) :=
      List.count_pos_iff.mpr (List.mem_map.mpr ⟨_, hy, rfl⟩)
    omega
  | unreadContentType x _ hx ht hn =>
    rcases hv.ct x hx with ⟨t, h⟩ | ⟨n, h, h'⟩
    · exact ht t h
    · exact hn n h h'
  | wideAlg i hi hlow =>
    obtain ⟨j, hj, -, h1, -⟩ := hv.alg _ hi
    have := int_inj hj
    omega
  | zeroLabel x _ h => have := hv.fewInts; omega
  | emptyCrit ls hls h0 _ =>
    obtain ⟨ls', e, -, -, -, n0, nt, -⟩ := hv.crit _ hls
    injection e with e
    rw [labels_inj _ _ e] at h0
    exact h0.elim n0 nt

/-- Headers that can be read follow the rules or deviate in one of the ways named. -/
theorem read_deviates {noCt : Bool} {m : Message} {k : Known} {d d' : Nat}
    (hfp : (Header.item m.prot).fits d = true) (hfu : (Header.item m.unprot).fits d' = true)
    (hr : m.read noCt = .ok k) :
    m.Deviates noCt ∨ (m.Valid ∧ (¬ k.blocked → m.NoUnknownCrit)) := by
  by_cases hdev : m.Deviates noCt
  · exact .inl hdev
  right
  unfold Message.read at hr
  cases h1 : readHeader noCt true m.prot Known.nothing with
  | error e => rw [h1] at hr; cases hr
  | ok k1 =>
  simp only [h1] at hr
  have r1 := header_read h1
  have r2 := header_read hr
  obtain ⟨u1, s1, si1, st1⟩ := r1.scanned
  obtain ⟨u2, s2, si2, st2⟩ := r2.scanned
  obtain ⟨c1, c2, c3⟩ := crit_read r1
  have hints : u2.ints = (Header.unknownInts m.headers).filter (· ≠ 0) := by
    have a := s1.ints
    have b := s2.ints
    simp only [Known.nothing, List.nil_append] at a b
    rw [b, si1, a]
    simp [Header.unknownInts, Message.headers]
  have htexts : u2.texts = Header.texts m.headers := by
    have a := s1.texts
    have b := s2.texts
    simp only [Known.nothing, List.nil_append] at a b
    rw [b, st1, a]
    simp [Header.texts, Message.headers]
  -- labels that are protected only
  have p1 : ∀ x, (Label.int 1, x) ∉ m.unprot := by
    intro x hx
    have h2 := r2.alg
    have h3 := s2.once 1 (.inl rfl)
    unfold readAlg at h2
    rw [get_of_count hx (by omega)] at h2
    simp at h2
  have p2 : ∀ x, (Label.int 2, x) ∉ m.unprot := by
    intro x hx
    have h2 := r2.crit
    unfold readCrit at h2
    have hx : (Label.int 2, x) ∈ m.unprot.filter (fun p => decide (p.1 = .int 2)) := by simp [hx]
    split at h2
    · rename_i hf; rw [hf] at hx; cases hx
    · simp at h2
    · cases h2
  have b4 := bstr_once (i := 4) (.inl rfl) s1 s2 r1.kid r2.kid
  have b5 := bstr_once (i := 5) (.inr (.inl rfl)) s1 s2 r1.iv r2.iv
  have b6 := bstr_once (i := 6) (.inr (.inr rfl)) s1 s2 r1.partialIv r2.partialIv
  -- content types
  have p3 : (∀ x, (Label.int 3, x) ∈ m.headers →
        (∃ t, x = .tstr t) ∨ ∃ n, n ≤ 65535 ∧ x = .uint n) ∧
      ∀ x, (Label.int 3, x) ∈ m.prot → ∀ y, (Label.int 3, y) ∈ m.unprot → False := by
    cases hn : noCt with
    | true =>
      refine ⟨fun x hx => Classical.byContradiction fun hc => hdev ⟨_, .unreadContentType x hn hx
        (fun t e => hc (.inl ⟨t, e⟩)) (fun n hle e => hc (.inr ⟨n, hle, e⟩))⟩, fun x hx y hy => ?_⟩
      exact hdev ⟨_, .contentTypes x y hx hy (.inl hn)⟩
    | false =>
      have g1 := s1.once 3 (by simp)
      have g2 := s2.once 3 (by simp)
      refine ⟨fun x hx => ?_, fun x hx y hy => hdev ?_⟩
      · rcases List.mem_append.mp hx with hx | hx
        · rcases ct_read (get_of_count hx (by omega)) (r1.ct hn) with ⟨t, h, -⟩ | ⟨n, h, h', -⟩
          · exact .inl ⟨t, h⟩
          · exact .inr ⟨n, h, h'⟩
        · rcases ct_read (get_of_count hx (by omega)) (r2.ct hn) with ⟨t, h, -⟩ | ⟨n, h, h', -⟩
          · exact .inl ⟨t, h⟩
          · exact .inr ⟨n, h, h'⟩
      · refine ⟨_, .contentTypes x y hx hy (.inr ?_)⟩
        rcases ct_read (get_of_count hx (by omega)) (r1.ct hn) with ⟨t, h, -, e⟩ | ⟨n, -, h, -, e⟩ <;>
        rcases ct_read (get_of_count hy (by omega)) (r2.ct hn) with ⟨t', h', o, -⟩ | ⟨n', -, h', o, -⟩
        · right
          injection e with e1 e2
          rw [e1] at o
          simp only [Option.getD_some] at o
          exact ⟨t', by rw [h, o], h'⟩
        · exact .inl ⟨t, n', .inl ⟨h, h'⟩⟩
        · exact .inl ⟨t', n, .inr ⟨h, h'⟩⟩
        · injection e with e1 e2
          rw [e2] at o
          cases o
  have valid : m.Valid := by
    constructor
    case unique =>
      apply nodup_of_count
      intro l
      refine Classical.byContradiction fun hc => ?_
      by_cases hl : l.inTable
      · cases l with
        | text t => exact hl
        | int i =>
          simp only [Message.headers, List.map_append, List.count_append] at hc
          have sep : (m.prot.map (·.1)).count (Label.int i) ≤ 1 →
              (m.unprot.map (·.1)).count (Label.int i) ≤ 1 →
              (∀ x, (Label.int i, x) ∈ m.prot → ∀ y, (Label.int i, y) ∈ m.unprot → False) → False := by
            intro a b hs
            obtain ⟨x, hx⟩ := count_mem (h := m.prot) (l := Label.int i) (by omega)
            obtain ⟨y, hy⟩ := count_mem (h := m.unprot) (l := Label.int i) (by omega)
            exact hs x hx y hy
          have hl : 1 ≤ i ∧ i ≤ 6 := hl
          by_cases h2 : i = 2
          · subst h2
            have : (m.unprot.map (·.1)).count (Label.int 2) = 0 := by
              refine Nat.le_zero.mp (Nat.not_lt.mp fun hh => ?_)
              obtain ⟨y, hy⟩ := count_mem (h := m.unprot) (l := Label.int 2) hh
              exact p2 y hy
            omega
          · have g1 := s1.once i (by omega)
            have g2 := s2.once i (by omega)
            refine sep (by omega) (by omega) ?_
            rcases (by omega : i = 1 ∨ i = 3 ∨ i = 4 ∨ i = 5 ∨ i = 6) with rfl | rfl | rfl | rfl | rfl
            · intro x _ y hy; exact p1 y hy
            · exact p3.2
            · exact b4.1
            · exact b5.1
            · exact b6.1
      · exact hdev ⟨_, .repeated l hl (by unfold Message.uses; omega)⟩
    case range =>
      intro i x hx
      rcases List.mem_append.mp hx with hx | hx
      · exact ⟨label_low (header_fits hfp hx).1, s1.range i x hx⟩
      · exact ⟨label_low (header_fits hfu hx).1, s2.range i x hx⟩
    case alg =>
      intro x hx
      have g1 := s1.once 1 (by simp)
      have h2 := r1.alg
      unfold readAlg at h2
      rw [get_of_count hx (by omega)] at h2
      have ht := s1.types 1 x hx
      unfold wrongType at ht
      cases hi : x.int64? with
      | none => exact absurd (.inl ⟨rfl, hi⟩) ht
      | some i =>
        simp only [hi, Bool.true_eq_false, if_false, Option.getD_some] at h2
        split at h2
        · cases h2
        · rename_i h3
          have hxi := number_int hi
          refine ⟨i, hxi, by omega, ?_, by omega⟩
          refine Int.not_lt.mp fun hlow => hdev ⟨_, .wideAlg i ?_ hlow⟩
          rw [← hxi]; exact hx
    case crit =>
      intro x hx
      obtain ⟨ls, e1, -, -, e4, e5, e6, e7⟩ := c3 x hx
      have hcr : m.IsCrit ls := by unfold Message.IsCrit; rw [← e1]; exact hx
      have h0 : Label.int 0 ∉ ls := fun h => hdev ⟨_, .emptyCrit ls hcr (.inl h) e6⟩
      have ht : Label.text [] ∉ ls := fun h => hdev ⟨_, .emptyCrit ls hcr (.inr h) e6⟩
      refine ⟨ls, e1, ?_, e4, e5, h0, ht, fun i hi => ⟨?_, e7 i hi⟩⟩
      · rintro rfl
        exact e6 ⟨rfl, rfl⟩
      · have hfx := (header_fits hfp hx).2
        rw [e1] at hfx
        simp only [Item.fits, Bool.and_eq_true] at hfx
        exact label_low (fitsAll_of hfx.2 _ (List.mem_map.mpr ⟨_, hi, rfl⟩))
    case ct => exact p3.1
    case bstrs =>
      rintro i (rfl | rfl | rfl) x hx
      · exact b4.2 x hx
      · exact b5.2 x hx
      · exact b6.2 x hx
    case protectedOnly => exact fun x => ⟨p1 x, p2 x⟩
    case fewInts =>
      refine Nat.not_lt.mp fun hgt => ?_
      have h3 := s2.fewInts (by rw [si1]; exact s1.fewInts (by simp [Known.nothing]))
      by_cases h0 : ∃ x, (Label.int 0, x) ∈ m.headers
      · obtain ⟨x, hx⟩ := h0
        exact hdev ⟨_, .zeroLabel x hx hgt⟩
      · rw [hints, unknown_nonzero (fun x hx => h0 ⟨x, hx⟩)] at h3
        omega
    case fewTexts =>
      have h3 := s2.fewTexts (by rw [st1]; exact s1.fewTexts (by simp [Known.nothing]))
      rw [htexts] at h3
      exact h3
  refine ⟨valid, fun hb ls hls => ?_⟩
  have hcu : k.critInts = k1.critInts ∧ k.critTexts = k1.critTexts := by
    have h2 := r2.crit
    unfold readCrit at h2
    split at h2
    · simp only [Except.ok.injEq, Prod.mk.injEq] at h2
      exact ⟨h2.1.symm, h2.2.symm⟩
    · simp at h2
    · cases h2
  obtain ⟨ls', e1, e2, e3, -, -, e6, -⟩ := c3 _ hls
  have heq : ls' = ls := by
    injection e1 with e1
    exact (labels_inj _ _ e1).symm
  subst heq
  have h0 : Label.int 0 ∉ ls' := fun h => hdev ⟨_, .emptyCrit ls' hls (.inl h) e6⟩
  unfold Known.blocked at hb
  rw [hcu.1, hcu.2, e2, e3, si2, st2, hints, htexts,
    takeWhile_all (fun h => h0 (mem_labelInts.mp h))] at hb
  refine ⟨fun i hi hu => hb (.inl ⟨i, mem_labelInts.mpr hi, ?_⟩),
    fun t ht hu => hb (.inr ⟨t, mem_labelTexts.mpr ht, hu⟩)⟩
  rw [List.mem_filter]
  refine ⟨hu, ?_⟩
  simp only [ne_eq, decide_not, Bool.not_eq_eq_eq_not, Bool.not_true, decide_eq_false_iff_not]
  rintro rfl
  exact h0 hi

variable (cfg : Config) (P : QParams) (C : Crypto) (junk : Junk) (me : VerifyCtx) (m : Message)
  (pb msg : Bytes) (aad : UB) (pay : VPayload) (want : Bool)

theorem shown_deviates (hP : P.maxTags ≤ 4) (he : m.Encoded pb msg) (hf : m.Fits P msg)
    {m' : Message} (hs : ShownMsg P m m') (hargs : ArgsOk aad pay)
    (hfp : (Header.item m'.prot).fits 13 = true) (hfu : (Header.item m'.unprot).fits 14 = true)
    (h : (verifyInternal cfg P C junk me msg aad pay want).res = .ok ()) :
    m'.Deviates cfg.disableContentType ∨
      (m'.Valid ∧ (Opt.unknownCritAllowed me.flags = false → m'.NoUnknownCrit)) := by
  obtain ⟨h1, h2⟩ := verdict_shown (cfg := cfg) C junk me want hP he hf hs hargs
  have hpol : TagPolicy me.flags m.tags.reverse := by
    refine Classical.byContradiction fun hpol => ?_
    rw [h1 hpol] at h
    cases h
  have h2 := h2 hpol
  cases hr : m'.read cfg.disableContentType with
  | error e => rw [hr] at h2; simp only at h2; rw [h2] at h; cases h
  | ok k =>
    rw [hr] at h2
    simp only at h2
    cases hpf : m'.payloadFault pay.isDetached with
    | some y => rw [hpf] at h2; simp only at h2; rw [h2] at h; cases h
    | none =>
      rw [hpf] at h2
      obtain ⟨x, -, -, hset, -⟩ := h2
      refine (read_deviates hfp hfu hr).imp id fun ⟨a, b⟩ => ⟨a, fun hcr => b fun hbl => ?_⟩
      rw [h] at hset
      unfold settle at hset
      split at hset
      · cases hset
      · rw [if_pos ⟨hcr, hbl⟩] at hset
        cases hset

/-- **C84.** Whenever a message is accepted, by whatever adapter and key and with whatever
options, its headers follow the rules of RFC 8152 — and no critical parameter is present and
unknown, unless that was allowed — or they deviate in one of the six ways of
`Message.Deviates`. -/
theorem C84_accepted (hP : P.maxTags ≤ 4) (he : m.Encoded pb msg) (hf : m.Fits P msg)
    (hp : Header.Plain m.prot) (hu : Header.Plain m.unprot) (hargs : ArgsOk aad pay)
    (h : (verifyInternal cfg P C junk me msg aad pay want).res = .ok ()) :
    m.Deviates cfg.disableContentType ∨
      (m.Valid ∧ (Opt.unknownCritAllowed me.flags = false → m.NoUnknownCrit)) :=
  shown_deviates cfg P C junk me m pb msg aad pay want hP he hf (plain_msg he hf hp hu) hargs hf.prot hf.unprot h

/-- **C84.** An accepted message breaks the rules exactly if it deviates in one of the six ways. -/
theorem C84_iff (hP : P.maxTags ≤ 4) (he : m.Encoded pb msg) (hf : m.Fits P msg)
    (hp : Header.Plain m.prot) (hu : Header.Plain m.unprot) (hargs : ArgsOk aad pay)
    (h : (verifyInternal cfg P C junk me msg aad pay want).res = .ok ()) :
    ¬ m.Valid ↔ m.Deviates cfg.disableContentType := by
  refine ⟨fun hv => ?_, deviates_invalid⟩
  rcases C84_accepted cfg P C junk me m pb msg aad pay want hP he hf hp hu hargs h with h | ⟨h, -⟩
  · exact h
  · exact absurd h hv

/-- A message with the headers given, signed by the toy adapter. -/
def devMsg (prot unprot : Header) : Message where
  tags := [18]
  prot := prot
  unprot := unprot
  payload := some [1]
  sig := toySig (toyDigest algSHA256 (sigStructure (Header.item prot).enc [] [1]))

/-- Its encoding with short heads. -/
def devBytes (prot unprot : Header) : Bytes :=
  (tagged [18] ((devMsg prot unprot).body (Header.item prot).enc)).enc

theorem dev_encoded {prot unprot : Header} (h1 : (Header.item prot).small)
    (h2 : (Header.item unprot).small) (h3 : (Header.item prot).enc.length < 2 ^ 64)
    (h4 : (devMsg prot unprot).sig.length < 2 ^ 64) :
    (devMsg prot unprot).Encoded (Header.item prot).enc (devBytes prot unprot) := by
  refine ⟨.inr (enc_encodes _ h1), enc_encodes _ ?_⟩
  simp only [devMsg, tagged, List.foldr, Message.body, Item.small, smallAll, Message.payItem] at h4 ⊢
  exact ⟨by decide, by simp, h3, h2, by simp, h4, trivial⟩

theorem dev_plain {h : Header} (hh : h.all (fun p => !p.2.isTag && match p.2 with
    | .arr xs => xs.all (fun y => !y.isTag)
    | _ => true) = true) : Header.Plain h := by
  intro i x hx _ _
  have h1 := List.all_eq_true.mp hh _ hx
  simp only [Bool.and_eq_true, Bool.not_eq_eq_eq_not, Bool.not_true] at h1
  refine ⟨h1.1, ?_⟩
  rintro xs rfl y hy
  have h2 := List.all_eq_true.mp h1.2 y hy
  simpa using h2

/-- {1: -7} -/
def devAlg : Label × Item := (.int 1, Spec.int (-7))

/-- Headers that deviate in the way named and in no other. -/
def devHeaders : Deviation → Header × Header
  | .repeated => ([devAlg, (.int 70, .uint 0)], [(.int 70, .uint 1)])
  | .contentTypes => ([devAlg, (.int 3, .tstr [0x61])], [(.int 3, .uint 1)])
  | .unreadContentType => ([devAlg], [(.int 3, .bstr [])])
  | .wideAlg => ([(.int 1, Spec.int (-4294967303))], [])
  | .zeroLabel => ([devAlg], [(.int 0, .null), (.int 71, .null), (.int 72, .null), (.int 73, .null),
      (.int 74, .null), (.int 75, .null), (.int 76, .null), (.int 77, .null), (.int 78, .null),
      (.int 79, .null), (.int 80, .null)])
  | .emptyCrit => ([devAlg, (.int 2, .arr [.uint 70, .uint 0])], [])

/-- Only one kind of deviation needs a build that does not look at content types. -/
def devCfg (d : Deviation) : Config :=
  { Config.full with disableContentType := match d with | .unreadContentType => true | _ => false }

/-- **C84.** Each of the six deviations occurs: there is a message that deviates from the rules in
this way and in no other and that is accepted, the signature having been checked. -/
theorem C84_each (d : Deviation) : ∃ (cfg : Config) (m : Message) (pb msg : Bytes),
    m.Encoded pb msg ∧ m.Fits QParams.std msg ∧ Header.Plain m.prot ∧ Header.Plain m.unprot ∧
    (∀ d', m.DeviatesBy cfg.disableContentType d' ↔ d' = d) ∧
    (verifyInternal cfg QParams.std toyCrypto noJunk (VerifyCtx.init 0) msg (.null 0) (.inline true)
      true).res = .ok () := by
  refine ⟨devCfg d, devMsg (devHeaders d).1 (devHeaders d).2, (Header.item (devHeaders d).1).enc,
    devBytes (devHeaders d).1 (devHeaders d).2, dev_encoded ?_ ?_ ?_ ?_, ⟨?_, ?_, ?_, ?_⟩,
    dev_plain ?_, dev_plain ?_, ?_, ?_⟩
  · cases d <;> simp [devHeaders, devAlg, Header.item, Item.small, smallPairs, smallAll, Label.item,
      Spec.int]
  · cases d <;> simp [devHeaders, devAlg, Header.item, Item.small, smallPairs, smallAll, Label.item,
      Spec.int]
  · cases d <;> decide +kernel
  · cases d <;> decide +kernel
  · cases d <;> decide +kernel
  · cases d <;> decide +kernel
  · cases d <;> decide +kernel
  · cases d <;> decide +kernel
  · cases d <;> decide +kernel
  · cases d <;> decide +kernel
  · intro d'
    constructor
    · intro h
      refine Classical.byContradiction fun hne => ?_
      cases h with
      | repeated l hl h2 =>
        have hn : ((devMsg (devHeaders d).1 (devHeaders d).2).headers.map (·.1)).Nodup ∨
            ∀ l : Label, ¬ l.inTable →
              ((devMsg (devHeaders d).1 (devHeaders d).2).headers.map (·.1)).count l ≤ 1 := by
          cases d
          · exact absurd rfl hne
          · right
            intro l hl
            have : l ≠ .int 3 := by rintro rfl; exact hl ⟨by decide, by decide⟩
            have : l ≠ .int 1 := by rintro rfl; exact hl ⟨by decide, by decide⟩
            have : ([.int 1, .int 3, .int 3] : List Label).count l = 0 :=
              List.count_eq_zero.mpr (by simp [*])
            exact this ▸ Nat.zero_le 1
          all_goals left; decide +kernel
        unfold Message.uses at h2
        rcases hn with hn | hn
        · have := List.nodup_iff_count.mp hn l; omega
        · have := hn l hl; omega
      | contentTypes x y hx hy _ =>
        cases d <;> simp [devMsg, devHeaders, devAlg] at hx hy hne
      | unreadContentType x hn _ _ _ => cases d <;> simp [devCfg, Config.full] at hn hne
      | wideAlg i hi hlow =>
        cases d <;> simp [devMsg, devHeaders, devAlg] at hi hne
        all_goals
          have := int_inj hi
          omega
      | zeroLabel x _ h10 =>
        revert h10
        cases d <;> first | exact absurd rfl hne | decide +kernel
      | emptyCrit ls hls _ _ =>
        unfold Message.IsCrit at hls
        cases d <;> simp [devMsg, devHeaders, devAlg] at hls hne
    · rintro rfl
      cases d'
      · exact .repeated (.int 70) (by simp [Label.inTable]) (by decide +kernel)
      · exact .contentTypes (.tstr [0x61]) (.uint 1) (by simp [devMsg, devHeaders])
          (by simp [devMsg, devHeaders]) (.inr (.inl ⟨_, _, .inl ⟨rfl, rfl⟩⟩))
      · exact .unreadContentType (.bstr []) rfl (by simp [devMsg, devHeaders, Message.headers])
          (by intro t h; cases h) (by intro n _ h; cases h)
      · exact .wideAlg (-4294967303) (by simp [devMsg, devHeaders]) (by decide)
      · exact .zeroLabel .null (by simp [devMsg, devHeaders, Message.headers]) (by decide +kernel)
      · refine .emptyCrit [.int 70, .int 0] ?_ (by simp) (by decide)
        simp [Message.IsCrit, devMsg, devHeaders, Label.item, Spec.int]
  · cases d <;> decide +kernel

/-- Not vacuous, nor is every deviation accepted: a message that follows the rules is accepted; one
with the content type twice is not, unless the build does not look at it; nor is one with crit in
the unprotected header. -/
example : (verifyInternal Config.full QParams.std toyCrypto noJunk (VerifyCtx.init 0)
      (devBytes [devAlg, (.int 70, .uint 0)] [(.int 3, .uint 1)]) (.null 0) (.inline true) true).res =
      .ok () ∧
    (verifyInternal Config.full QParams.std toyCrypto noJunk (VerifyCtx.init 0)
      (devBytes [devAlg, (.int 3, .uint 1)] [(.int 3, .uint 1)]) (.null 0) (.inline true) true).res =
      .error .duplicateParameter ∧
    (verifyInternal (devCfg .unreadContentType) QParams.std toyCrypto noJunk (VerifyCtx.init 0)
      (devBytes [devAlg, (.int 3, .uint 1)] [(.int 3, .uint 1)]) (.null 0) (.inline true) true).res =
      .ok () ∧
    (verifyInternal Config.full QParams.std toyCrypto noJunk (VerifyCtx.init 0)
      (devBytes [devAlg] [(.int 2, .arr [.uint 70])]) (.null 0) (.inline true) true).res =
      .error .parameterNotProtected := by
  decide +kernel

end TCose.Props
