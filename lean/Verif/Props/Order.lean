import Verif.Spec.Order
import Verif.Props.OctetsBehind
import Verif.Props.Deviations

/-!
# C102: the order of parameters in the unprotected header

Nobody signs the order in which the parameters of the unprotected header stand, and it should mean nothing.
-/

namespace TCose.Props
open TCose Spec

/-- The labels that are recorded: unknown integers other than 0. -/
def recorded (h : Header) : List Int := (Header.unknownInts h).filter (· ≠ 0)

theorem recorded_perm {h h' : Header} (hp : h.Perm h') : (recorded h).Perm (recorded h') :=
  (hp.filterMap _).filter _

theorem texts_perm {h h' : Header} (hp : h.Perm h') : (Header.texts h).Perm (Header.texts h') := hp.filterMap _

/-- What a header without other faults gives. -/
theorem scan_back : ∀ (h : Header) {seen : List Int} {u : Unknown},
    (∀ i : Int, i = 1 ∨ i = 3 ∨ i = 4 ∨ i = 5 ∨ i = 6 →
      (h.map (·.1)).count (Label.int i) + (if i ∈ seen then 1 else 0) ≤ 1) →
    (∀ i x, (Label.int i, x) ∈ h → ¬ wrongType i x) →
    (∀ i x, (Label.int i, x) ∈ h → i ≤ 9223372036854775807) →
    u.ints.length + (recorded h).length ≤ 10 → u.texts.length + (Header.texts h).length ≤ 10 →
    Spec.scan h seen u = if zeroLate u.ints.length h then .error .tooManyParameters
      else .ok ⟨u.ints ++ recorded h, u.texts ++ Header.texts h⟩ := by
  intro h
  induction h with
  | nil => intro seen u _ _ _ _ _; simp [Spec.scan, zeroLate, recorded, Header.unknownInts, Header.texts]
  | cons p r ih =>
    obtain ⟨l, x⟩ := p
    intro seen u honce htype hrange hi ht
    have htype' : ∀ i y, (Label.int i, y) ∈ r → ¬ wrongType i y := fun i y hm => htype i y (List.mem_cons_of_mem _ hm)
    have hrange' : ∀ i y, (Label.int i, y) ∈ r → i ≤ 9223372036854775807 :=
      fun i y hm => hrange i y (List.mem_cons_of_mem _ hm)
    cases l with
    | text t =>
      have e1 : recorded ((Label.text t, x) :: r) = recorded r := rfl
      have e2 : Header.texts ((Label.text t, x) :: r) = t :: Header.texts r := rfl
      rw [e1] at hi ⊢
      rw [e2] at ht ⊢
      simp only [List.length_cons] at ht
      have ez : zeroLate u.ints.length ((Label.text t, x) :: r) = zeroLate u.ints.length r := rfl
      simp only [Spec.scan]
      rw [ez, if_neg (by omega), ih (u := { u with texts := u.texts ++ [t] }) (fun i hi' => ?_) htype' hrange' hi
        (by simp only [List.length_append, List.length_cons, List.length_nil]; omega)]
      · simp
      · have := honce i hi'
        simpa [List.count_cons] using this
    | int i =>
      have e2 : Header.texts ((Label.int i, x) :: r) = Header.texts r := rfl
      rw [e2] at ht ⊢
      simp only [Spec.scan]
      have ez : zeroLate u.ints.length ((Label.int i, x) :: r) = if i = 0 then decide (10 ≤ u.ints.length) || zeroLate u.ints.length r
          else if 1 ≤ i ∧ i ≤ 6 then zeroLate u.ints.length r else zeroLate (u.ints.length + 1) r := rfl
      by_cases h1 : i = 1 ∨ i = 3 ∨ i = 4 ∨ i = 5 ∨ i = 6
      · have hk : 1 ≤ i ∧ i ≤ 6 := by omega
        have e1 : recorded ((Label.int i, x) :: r) = recorded r := by simp [recorded, Header.unknownInts, hk]
        rw [e1] at hi ⊢
        have hseen : i ∉ seen := by
          intro hs
          have := honce i h1
          simp [hs] at this
        rw [if_neg (by omega), if_pos hk] at ez
        rw [ez, if_pos h1, if_neg (by
          rintro (h | h)
          · exact hseen h
          · exact htype i x (List.mem_cons_self ..) h)]
        refine ih ?_ htype' hrange' hi ht
        intro j hj
        have h3 := honce j hj
        simp only [List.map_cons, List.count_cons, List.mem_cons] at h3 ⊢
        by_cases hij : j = i
        · subst hij
          simp only [beq_self_eq_true, if_true, true_or] at h3 ⊢
          omega
        · have : (Label.int i == Label.int j) = false := by
            simp only [beq_eq_false_iff_ne, ne_eq, Label.int.injEq]
            exact fun h => hij h.symm
          rw [this] at h3
          simpa [hij] using h3
      · have honce' : ∀ j : Int, j = 1 ∨ j = 3 ∨ j = 4 ∨ j = 5 ∨ j = 6 →
            (r.map (·.1)).count (Label.int j) + (if j ∈ seen then 1 else 0) ≤ 1 := by
          intro j hj
          have h3 := honce j hj
          simp only [List.map_cons, List.count_cons] at h3
          omega
        rw [if_neg h1]
        by_cases h2 : i = 2
        · have e1 : recorded ((Label.int i, x) :: r) = recorded r := by simp [recorded, Header.unknownInts, h2]
          rw [e1] at hi ⊢
          rw [if_neg (by omega), if_pos (by omega)] at ez
          rw [ez, if_pos h2]
          exact ih honce' htype' hrange' hi ht
        · rw [if_neg h2, if_neg (by have := hrange i x (List.mem_cons_self ..); omega)]
          by_cases h0 : i = 0
          · have e1 : recorded ((Label.int i, x) :: r) = recorded r := by
              simp [recorded, Header.unknownInts, h0]
            rw [e1] at hi ⊢
            rw [if_pos h0] at ez
            rw [ez, if_pos h0]
            by_cases h10 : u.ints.length = 10
            · rw [if_pos h10]
              simp [h10]
            · rw [if_neg h10, ih honce' htype' hrange' hi ht]
              have : ¬ 10 ≤ u.ints.length := by omega
              simp [this]
          · have hk : ¬ (1 ≤ i ∧ i ≤ 6) := by omega
            have e1 : recorded ((Label.int i, x) :: r) = i :: recorded r := by
              simp [recorded, Header.unknownInts, hk, h0]
            rw [e1] at hi ⊢
            simp only [List.length_cons] at hi
            rw [if_neg h0, if_neg hk] at ez
            rw [ez, if_neg (by omega), if_neg h0, ih (u := { u with ints := u.ints ++ [i] }) honce' htype' hrange'
              (by simp only [List.length_append, List.length_cons, List.length_nil]; omega) ht]
            simp

/-- What is known of headers, but for the order of unknown labels. -/
structure KnownAlike (k k' : Known) : Prop where
  rest : k' = { k with ints := k'.ints, texts := k'.texts }
  ints : k.ints.Perm k'.ints
  texts : k.texts.Perm k'.texts

theorem KnownAlike.blocked {k k' : Known} (h : KnownAlike k k') : k'.blocked ↔ k.blocked := by
  unfold Known.blocked
  have e1 : k'.critInts = k.critInts := by rw [h.rest]
  have e2 : k'.critTexts = k.critTexts := by rw [h.rest]
  rw [e1, e2]
  simp only [h.ints.mem_iff, h.texts.mem_iff]

theorem perm_one {α : Type} {l l' : List α} (hp : l.Perm l') (hl : l.length ≤ 1) : l = l' := by
  match l, hl with
  | [], _ => exact (List.nil_perm.mp hp).symm
  | [a], _ => exact List.singleton_perm.mp hp

theorem get_perm {h h' : Header} (hp : h.Perm h') {i : Int} (hc : (h.map (·.1)).count (Label.int i) ≤ 1) :
    Header.get h i = Header.get h' i := by
  have hf := hp.filter (fun p => decide (p.1 = Label.int i))
  have hl : (h.filter (fun p => decide (p.1 = Label.int i))).length ≤ 1 := by
    rw [List.count_eq_countP, List.countP_map, List.countP_eq_length_filter] at hc
    refine Nat.le_trans (Nat.le_of_eq ?_) hc
    congr 2
  unfold Header.get
  rw [← List.head?_filter, ← List.head?_filter, perm_one hf hl]

/-- The unprotected header in another order. -/
theorem readHeader_perm {noCt : Bool} {h h' : Header} {k k1 : Known} (hp : h.Perm h')
    (hi : k.ints.length ≤ 10) (ht : k.texts.length ≤ 10) (hr : readHeader noCt false h k = .ok k1) :
    k1.ints = k.ints ++ recorded h ∧
    if zeroLate k.ints.length h' then readHeader noCt false h' k = .error .tooManyParameters
    else ∃ k1', readHeader noCt false h' k = .ok k1' ∧ KnownAlike k1 k1' := by
  unfold readHeader at hr
  cases hs : Spec.scan h [] ⟨k.ints, k.texts⟩ with
  | error e => rw [hs] at hr; cases hr
  | ok u =>
    rw [hs] at hr
    have S := scanned h hs
    have honce := S.once
    have hints : u.ints = k.ints ++ recorded h := S.ints
    have htexts : u.texts = k.texts ++ Header.texts h := S.texts
    have hil := S.fewInts hi
    have htl := S.fewTexts ht
    have hcount : ∀ i : Int, i = 1 ∨ i = 3 ∨ i = 4 ∨ i = 5 ∨ i = 6 → (h.map (·.1)).count (Label.int i) ≤ 1 := by
      intro i h; have := honce i h; omega
    have hs' := scan_back h' (seen := []) (u := ⟨k.ints, k.texts⟩)
      (fun i h => by
        have := honce i h
        rwa [(hp.map (·.1)).count_eq] at this)
      (fun i x hm => S.types i x (hp.mem_iff.mpr hm)) (fun i x hm => S.range i x (hp.mem_iff.mpr hm))
      (by rw [← (recorded_perm hp).length_eq, ← List.length_append, ← hints]; exact hil)
      (by rw [← (texts_perm hp).length_eq, ← List.length_append, ← htexts]; exact htl)
    have hcr : ∀ c, readCrit false h (k.critInts, k.critTexts) = .ok c →
        readCrit false h' (k.critInts, k.critTexts) = .ok c := by
      intro c hc
      have hf := hp.filter (fun p => decide (p.1 = Label.int 2))
      unfold readCrit at hc ⊢
      cases hfl : h.filter (fun p => decide (p.1 = Label.int 2)) with
      | nil =>
        rw [hfl] at hc hf
        rw [List.nil_perm.mp hf]
        exact hc
      | cons a as =>
        rw [hfl] at hc
        exfalso
        split at hc
        · rename_i e; cases e
        · cases hc
        · cases hc
    have hg : ∀ i : Int, i = 1 ∨ i = 3 ∨ i = 4 ∨ i = 5 ∨ i = 6 → Header.get h' i = Header.get h i :=
      fun i hi' => (get_perm hp (hcount i hi')).symm
    have ga : readAlg false h' k.alg = readAlg false h k.alg := by unfold readAlg; rw [hg 1 (by omega)]
    have g4 : readBytes h' 4 k.kid = readBytes h 4 k.kid := by unfold readBytes; rw [hg 4 (by omega)]
    have g5 : readBytes h' 5 k.iv = readBytes h 5 k.iv := by unfold readBytes; rw [hg 5 (by omega)]
    have g6 : readBytes h' 6 k.partialIv = readBytes h 6 k.partialIv := by unfold readBytes; rw [hg 6 (by omega)]
    have g3 : readContentType h' (k.ctText, k.ctNum) = readContentType h (k.ctText, k.ctNum) := by
      unfold readContentType; rw [hg 3 (by omega)]
    simp only at hr
    cases ea : readAlg false h k.alg with
    | error e => rw [ea] at hr; cases hr
    | ok alg =>
    rw [ea] at hr ga
    cases e4 : readBytes h 4 k.kid with
    | error e => rw [e4] at hr; cases hr
    | ok kid =>
    rw [e4] at hr g4
    cases e5 : readBytes h 5 k.iv with
    | error e => rw [e5] at hr; cases hr
    | ok iv =>
    rw [e5] at hr g5
    cases e6 : readBytes h 6 k.partialIv with
    | error e => rw [e6] at hr; cases hr
    | ok piv =>
    rw [e6] at hr g6
    simp only at hr
    cases e3 : (if noCt then .ok (k.ctText, k.ctNum) else readContentType h (k.ctText, k.ctNum) :
        Except Err (Option Bytes × Option Nat)) with
    | error e => rw [e3] at hr; cases hr
    | ok ct =>
    rw [e3] at hr
    rw [← g3] at e3
    cases ec : readCrit false h (k.critInts, k.critTexts) with
    | error e => rw [ec] at hr; cases hr
    | ok c =>
    rw [ec] at hr
    simp only at hr
    cases hr
    refine ⟨hints, ?_⟩
    simp only at hs'
    by_cases hz : zeroLate k.ints.length h' = true
    · rw [if_pos hz] at hs' ⊢
      unfold readHeader
      rw [hs']
    · rw [if_neg hz] at hs' ⊢
      refine ⟨⟨alg, kid, iv, piv, ct.1, ct.2, c.1, c.2, k.ints ++ recorded h', k.texts ++ Header.texts h'⟩,
        ?_, ⟨?_, ?_, ?_⟩⟩
      · unfold readHeader
        rw [hs', ga, g4, g5, g6]
        simp only
        rw [e3, hcr c ec]
      · rfl
      · simp only [hints]; exact (recorded_perm hp).append_left _
      · simp only [htexts]; exact (texts_perm hp).append_left _

theorem zeroLate_untag {P : QParams} : ∀ (h : Header) (n : Nat), zeroLate n (Header.untag P h) = zeroLate n h := by
  intro h
  induction h with
  | nil => intro n; rfl
  | cons p r ih =>
    obtain ⟨l, x⟩ := p
    intro n
    have e : Header.untag P ((l, x) :: r) = (l, x.untagParam P) :: Header.untag P r := rfl
    rw [e]
    cases l with
    | text t => exact ih n
    | int i =>
      simp only [zeroLate]
      rw [ih, ih]

theorem recorded_untag {P : QParams} (h : Header) : recorded (Header.untag P h) = recorded h := by
  unfold recorded Header.unknownInts Header.untag
  rw [List.filterMap_map]
  rfl

/-- Only a label 0 can be late, and only if ten others are there. -/
theorem zeroLate_only : ∀ (h : Header) (n : Nat), zeroLate n h = true →
    (∃ x, (Label.int 0, x) ∈ h) ∧ 10 ≤ n + (recorded h).length := by
  intro h
  induction h with
  | nil => intro n hz; cases hz
  | cons p r ih =>
    obtain ⟨l, x⟩ := p
    intro n hz
    cases l with
    | text t =>
      obtain ⟨⟨y, h1⟩, h2⟩ := ih n hz
      exact ⟨⟨y, List.mem_cons_of_mem _ h1⟩, h2⟩
    | int i =>
      simp only [zeroLate] at hz
      by_cases h0 : i = 0
      · subst h0
        have e1 : recorded ((Label.int 0, x) :: r) = recorded r := by simp [recorded, Header.unknownInts]
        rw [e1]
        simp only [if_true, Bool.or_eq_true, decide_eq_true_eq] at hz
        refine ⟨⟨x, List.mem_cons_self ..⟩, ?_⟩
        rcases hz with hz | hz
        · omega
        · exact (ih n hz).2
      · rw [if_neg h0] at hz
        by_cases hk : 1 ≤ i ∧ i ≤ 6
        · rw [if_pos hk] at hz
          have e1 : recorded ((Label.int i, x) :: r) = recorded r := by simp [recorded, Header.unknownInts, hk]
          rw [e1]
          obtain ⟨⟨y, h1⟩, h2⟩ := ih n hz
          exact ⟨⟨y, List.mem_cons_of_mem _ h1⟩, h2⟩
        · rw [if_neg hk] at hz
          have e1 : recorded ((Label.int i, x) :: r) = i :: recorded r := by
            simp [recorded, Header.unknownInts, hk, h0]
          rw [e1, List.length_cons]
          obtain ⟨⟨y, h1⟩, h2⟩ := ih (n + 1) hz
          exact ⟨⟨y, List.mem_cons_of_mem _ h1⟩, by omega⟩

/-- No more than ten labels of each kind are recorded in the first header. -/
theorem read_few {P : QParams} {noCt : Bool} {x : Hdr} {k : Known}
    (h : x.read P noCt true Known.nothing = .ok k) : k.ints.length ≤ 10 ∧ k.texts.length ≤ 10 := by
  cases x with
  | no e => cases h
  | cut y s =>
    simp only [Hdr.read] at h
    split at h <;> cases h
  | whole y =>
    simp only [Hdr.read] at h
    unfold readHeader at h
    cases hs : Spec.scan (Header.untag P y) [] ⟨Known.nothing.ints, Known.nothing.texts⟩ with
    | error e => rw [hs] at h; cases h
    | ok u =>
      rw [hs] at h
      have S := scanned _ hs
      have : k.ints = u.ints ∧ k.texts = u.texts := by
        simp only at h
        split at h
        · cases h
        split at h
        · cases h
        split at h
        · cases h
        split at h
        · cases h
        split at h
        · cases h
        split at h
        · cases h
        cases h
        exact ⟨rfl, rfl⟩
      rw [this.1, this.2]
      exact ⟨S.fewInts (by simp [Known.nothing]), S.fewTexts (by simp [Known.nothing])⟩

/-- The elements, with the second one in another order. -/
theorem readAll_perm {P : QParams} {noCt : Bool} {det : Option Bytes} {xs xs' : List Item} {y y' : Item}
    {h h' : Header} {f : Found4} {fin : Option Err} (hx : ∀ i, i ≠ 1 → (xs[i]? : Option Item) = xs'[i]?)
    (h1 : (xs[1]? : Option Item) = some y) (h1' : (xs'[1]? : Option Item) = some y')
    (hy : y.header? P = .ok h) (hy' : y'.header? P = .ok h') (hp : h.Perm h')
    (hf : readAll P noCt det xs [] fin = .ok f) :
    ∃ n, f.known.ints.length = n + (recorded h).length ∧
    if zeroLate n h' then readAll P noCt det xs' [] fin = .error .tooManyParameters
    else ∃ k', readAll P noCt det xs' [] fin = .ok { f with known := k' } ∧ KnownAlike f.known k' := by
  unfold readAll at hf ⊢
  rw [← hx 0 (by omega), ← hx 2 (by omega), ← hx 3 (by omega)]
  rw [h1] at hf
  rw [h1']
  simp only at hf ⊢
  rw [hy] at hf
  rw [hy']
  split at hf
  · cases hf
  rotate_left
  · split at hf <;> cases hf
  rename_i pb h0
  split at hf
  · cases hf
  rename_i k hk
  obtain ⟨hi, ht⟩ := read_few hk
  simp only [Hdr.of, Hdr.read] at hf ⊢
  split at hf
  · cases hf
  rename_i k1 hk1
  obtain ⟨e1, e2⟩ := readHeader_perm (hp.map fun p => (p.1, p.2.untagParam P)) hi ht hk1
  change k1.ints = k.ints ++ recorded (Header.untag P h) at e1
  change if zeroLate k.ints.length (Header.untag P h') = true then _ else _ at e2
  rw [recorded_untag] at e1
  rw [zeroLate_untag] at e2
  split at hf
  · cases hf
  rename_i p hp2
  split at hf
  · cases hf
  rename_i sg hs
  split at hf
  · cases hf
  rename_i hfin
  cases hf
  refine ⟨k.ints.length, by simp [e1], ?_⟩
  by_cases hz : zeroLate k.ints.length h' = true
  · rw [if_pos hz] at e2 ⊢
    change readHeader noCt false (Header.untag P h') k = _ at e2
    rw [e2]
  · rw [if_neg hz] at e2 ⊢
    obtain ⟨k', g1, g2⟩ := e2
    change readHeader noCt false (Header.untag P h') k = _ at g1
    refine ⟨k', ?_, g2⟩
    rw [g1]

variable {cfg : Config} {P : QParams} {C : Crypto} {junk : Junk} {me : VerifyCtx} {b b' : Bytes}
  {aad : UB} {pay : VPayload} {want : Bool} {h h' : Header} {f : Found4}

/-- **C102.** The headers of a message can be read.  With the parameters of the unprotected header in another order everything
is the same, the result and all that is stored; except that a label 0 behind ten other unknown labels, those in the protected
header included, makes the message refused. -/
theorem C102_exact (hP : P.maxTags ≤ 4) (hl : P.Local) (hargs : ArgsOk aad pay) (hr : Reordered P h h' b b')
    (hf : foundIn cfg P b pay me.flags = some f) :
    let before := effectOf (verifyInternal cfg P C junk me b aad pay want)
    ∃ n, f.known.ints.length = n + ((Header.unknownInts h).filter (· ≠ 0)).length ∧
    effectOf (verifyInternal cfg P C junk me b' aad pay want) =
      if zeroLate n h' then .refused .tooManyParameters { me with auTags := before.ctx.auTags } else before := by
  intro before
  have hb := (C95_everything cfg P C junk me b aad pay want hP hl hargs).1
  change before = _ at hb
  generalize before = before at hb ⊢
  subst hb
  rw [(C95_everything cfg P C junk me b' aad pay want hP hl hargs).1]
  obtain ⟨x, x', xs, xs', y, y', r1, r2, ht, ha, ha', hx, h1, h1', hy, hy'⟩ := hr.items
  have m1 := messageAt_item r1 []
  have m2 := messageAt_item r2 []
  rw [List.append_nil, ha, if_pos rfl] at m1
  rw [List.append_nil, ha', if_pos rfl] at m2
  have s1 := hr.size
  have s2 := hr.size'
  unfold foundIn at hf
  rw [if_neg (by omega), m1] at hf
  unfold effectAll
  rw [if_neg (by omega), if_neg (by omega), m1, m2]
  simp only at hf ⊢
  rw [ht] at hf ⊢
  by_cases hp : TagPolicy me.flags x'.tagList.reverse
  rotate_left
  · rw [if_pos hp] at hf; cases hf
  rw [if_neg (not_not_intro hp)] at hf ⊢
  cases hra : readAll P cfg.disableContentType pay.octets xs [] none with
  | error e => rw [hra] at hf; cases hf
  | ok g =>
    rw [hra] at hf
    cases hf
    obtain ⟨n, e1, e2⟩ := readAll_perm hx h1 h1' hy hy' hr.perm hra
    refine ⟨n, e1, ?_⟩
    rw [if_neg (not_not_intro hp)]
    by_cases hz : zeroLate n h' = true
    · rw [if_pos hz] at e2 ⊢
      rw [e2]
      simp only
      split <;> (simp only [Effect.refused]; split <;> rfl)
    · rw [if_neg hz] at e2 ⊢
      obtain ⟨k', g1, g2⟩ := e2
      rw [g1]
      simp only
      have hbl := g2.blocked
      have e3 : k'.kid = f.known.kid := by rw [g2.rest]
      have e4 : k'.alg = f.known.alg := by rw [g2.rest]
      have e5 : toShow k' = toShow f.known := by rw [g2.rest]; rfl
      have hst : SizeStored cfg me k' (sigStructure f.prot aad.bytes f.payload) ↔
          SizeStored cfg me f.known (sigStructure f.prot aad.bytes f.payload) := by
        unfold SizeStored
        rw [e3, e4, hbl]
      have hse : ∀ d t s, settle cfg C me k' d t s = settle cfg C me f.known d t s := by
        intro d t s
        unfold settle
        simp only [e3, e4, hbl]
      rw [hse, e5]
      simp only [hst]

/-- **C102_partial.** With the parameters of the unprotected header in another order the result and all that is
stored are the same.  Missing: a label 0 where there are ten other unknown labels (`C102_claim_false`). -/
theorem C102_order_partial (hP : P.maxTags ≤ 4) (hl : P.Local) (hargs : ArgsOk aad pay) (hr : Reordered P h h' b b')
    (hf : foundIn cfg P b pay me.flags = some f)
    (hz : (∀ x, (Label.int 0, x) ∉ h) ∨ f.known.ints.length < 10) :
    effectOf (verifyInternal cfg P C junk me b' aad pay want) = effectOf (verifyInternal cfg P C junk me b aad pay want) := by
  obtain ⟨n, e1, e2⟩ := C102_exact (C := C) (junk := junk) (want := want) hP hl hargs hr hf
  rw [e2, if_neg]
  intro hl
  obtain ⟨⟨x, g1⟩, g2⟩ := zeroLate_only _ _ hl
  rcases hz with hz | hz
  · exact hz x (hr.perm.mem_iff.mpr g1)
  · have := (recorded_perm hr.perm).length_eq
    change _ = n + (recorded h).length at e1
    omega

/-- A label 0 and other unknown labels, ten or two. -/
def lateHeader (ten first : Bool) : Header :=
  let others := (if ten then [100, 101, 102, 103, 104, 105, 106, 107, 108, 109] else [100, 101]).map
    fun i : Int => (Label.int i, Spec.int 0)
  if first then (.int 0, Spec.int 0) :: others else others ++ [(.int 0, Spec.int 0)]

/-- A signed message with them in the unprotected header. -/
def lateBytes (ten first : Bool) : Bytes := devBytes [devAlg] (lateHeader ten first)

theorem late_reads (ten first : Bool) :
    Reads 4 15 (tagged [18] ((devMsg [devAlg] (lateHeader ten first)).body (Header.item [devAlg]).enc))
      (lateBytes ten first) := by
  refine (dev_encoded (prot := [devAlg]) (unprot := lateHeader ten first) ?_ ?_ ?_ ?_).2.reads ?_
  · simp [devAlg, Header.item, Item.small, smallPairs, Label.item, Spec.int]
  · cases ten <;> cases first <;> simp [lateHeader, Header.item, Item.small, smallPairs, Label.item, Spec.int]
  · decide +kernel
  · cases ten <;> cases first <;> decide +kernel
  · cases ten <;> cases first <;> decide +kernel

theorem late_reordered (ten : Bool) : Reordered QParams.std (lateHeader ten true) (lateHeader ten false)
    (lateBytes ten true) (lateBytes ten false) where
  items := ⟨_, _, _, _, _, _, late_reads ten true, late_reads ten false, rfl, rfl, rfl, by
    intro i hi
    match i with
    | 0 => rfl
    | 1 => exact absurd rfl hi
    | 2 => rfl
    | 3 => rfl
    | i + 4 => rfl, rfl, rfl, by cases ten <;> rfl, by cases ten <;> rfl⟩
  perm := (List.perm_append_singleton _ _).symm
  size := by cases ten <;> decide +kernel
  size' := by cases ten <;> decide +kernel

/-- **C102, what does not hold.** A signed message that is accepted, and is refused with the entries of its unprotected header
in another order. -/
theorem C102_claim_false :
    Reordered QParams.std (lateHeader true true) (lateHeader true false) (lateBytes true true) (lateBytes true false) ∧
    (verifyInternal Config.full QParams.std toyCrypto noJunk (VerifyCtx.init 0) (lateBytes true true) (.null 0)
      (.inline true) true).res = .ok () ∧
    (verifyInternal Config.full QParams.std toyCrypto noJunk (VerifyCtx.init 0) (lateBytes true false) (.null 0)
      (.inline true) true).res = .error .tooManyParameters :=
  ⟨late_reordered true, by decide +kernel, by decide +kernel⟩

/-- A message with two unknown labels and a label 0, in two orders, meets the hypotheses and is accepted. -/
example : QParams.std.maxTags ≤ 4 ∧ ArgsOk (.null 0) (.inline true) ∧
    Reordered QParams.std (lateHeader false true) (lateHeader false false) (lateBytes false true) (lateBytes false false) ∧
    lateBytes false true ≠ lateBytes false false ∧
    (foundIn Config.full QParams.std (lateBytes false true) (.inline true) 0).any (fun f => f.known.ints.length < 10) ∧
    (verifyInternal Config.full QParams.std toyCrypto noJunk (VerifyCtx.init 0) (lateBytes false false) (.null 0)
      (.inline true) true).res = .ok () := by
  refine ⟨by decide, ?_, late_reordered false, by decide +kernel, by decide +kernel, by decide +kernel⟩
  exact ⟨rfl, fun p h => by cases h⟩

end TCose.Props
