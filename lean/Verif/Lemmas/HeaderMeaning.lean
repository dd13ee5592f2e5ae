import Verif.Lemmas.DecodeBody

/-!
# What a decoded header means, entry by entry
-/

namespace TCose
open Spec

/-- The labels not processed by t_cose, of a header with entries `es`. -/
def otherLabels (es : List Entry) : List (Option Val) :=
  (es.filter (fun e => !wanted headerQs e)).map (·.label)

/-- The header parameters of one header map, entry by entry: how `p` becomes
`p'`. -/
structure HeaderFacts (cfg : Config) (prot : Bool) (es : List Entry) (p p' : Params) : Prop where
  once : ∀ i ∈ [1, 3, 4, 5, 6], (es.filter (fun e => e.key = some i)).length ≤ 1
  good : ∀ e ∈ es, ∀ i ∈ [1, 3, 4, 5, 6], e.label = some (.int i) → e.itm.err = none
  noAlg : (∀ e ∈ es, e.label ≠ some (.int 1)) → p'.alg = p.alg
  alg : ∀ e ∈ es, e.label = some (.int 1) →
    prot = true ∧ ∃ i, e.itm.val = .int i ∧ i ≠ 0 ∧ i ≤ 2147483647 ∧ p'.alg = toInt32 i
  noKid : (∀ e ∈ es, e.label ≠ some (.int 4)) → p'.kid = p.kid
  kid : ∀ e ∈ es, e.label = some (.int 4) →
    p.kid = none ∧ ∃ s, e.itm.val = .bstr s ∧ p'.kid = some s
  noIv : (∀ e ∈ es, e.label ≠ some (.int 5)) → p'.iv = p.iv
  iv : ∀ e ∈ es, e.label = some (.int 5) →
    p.iv = none ∧ ∃ s, e.itm.val = .bstr s ∧ p'.iv = some s
  noPiv : (∀ e ∈ es, e.label ≠ some (.int 6)) → p'.partialIv = p.partialIv
  piv : ∀ e ∈ es, e.label = some (.int 6) →
    p.partialIv = none ∧ ∃ s, e.itm.val = .bstr s ∧ p'.partialIv = some s
  noCt : (cfg.disableContentType = true ∨ ∀ e ∈ es, e.label ≠ some (.int 3)) →
    p'.ctTstr = p.ctTstr ∧ p'.ctUint = p.ctUint
  ct : cfg.disableContentType = false → ∀ e ∈ es, e.label = some (.int 3) →
    (∃ s, e.itm.val = .tstr s ∧ (Str.ub p.ctTstr).isNullOrEmpty = true ∧
      p'.ctTstr = some s ∧ p'.ctUint = p.ctUint) ∨
    (∃ i, e.itm.val = .int i ∧ 0 ≤ i ∧ i ≤ 65535 ∧ p.ctUint = emptyContentType ∧
      p'.ctUint = i.toNat ∧ p'.ctTstr = p.ctTstr)

theorem lookup_cases {f : Found} {i : Int} : f.lookup i = none ∨ ∃ v c, f.lookup i = some (v, c) := by
  cases f.lookup i with
  | none => exact .inl rfl
  | some q => exact .inr ⟨q.1, q.2, rfl⟩

theorem takeAlg_ok {prot : Bool} {f : Found} {p p' : Params} (h : takeAlg prot f p = .ok p')
    (hty : ∀ v c, f.lookup 1 = some (v, c) → ∃ i, v = .int i) :
    (f.lookup 1 = none ∧ p' = p) ∨
    ∃ i c, f.lookup 1 = some (.int i, c) ∧ prot = true ∧ i ≠ 0 ∧ i ≤ 2147483647 ∧
      p' = { p with alg := toInt32 i } := by
  unfold takeAlg at h
  rcases lookup_cases (f := f) (i := 1) with hn | ⟨v, c, hs⟩
  · rw [hn] at h; cases h; exact .inl ⟨hn, rfl⟩
  · obtain ⟨i, rfl⟩ := hty v c hs
    rw [hs] at h
    simp only at h
    cases prot with
    | false => simp at h
    | true =>
      simp only [Bool.not_true, Bool.false_eq_true, if_false] at h
      split at h
      · cases h
      · rename_i hr
        cases h
        exact .inr ⟨i, c, hs, rfl, by omega, by omega, rfl⟩

theorem takeKid_ok {f : Found} {p p' : Params} (h : takeKid f p = .ok p')
    (hty : ∀ v c, f.lookup 4 = some (v, c) → ∃ i, v = .bstr i) :
    (f.lookup 4 = none ∧ p' = p) ∨
    ∃ s c, f.lookup 4 = some (.bstr s, c) ∧ p.kid = none ∧ p' = { p with kid := some s } := by
  unfold takeKid at h
  rcases lookup_cases (f := f) (i := 4) with hn | ⟨v, c, hs⟩
  · rw [hn] at h; cases h; exact .inl ⟨hn, rfl⟩
  · obtain ⟨i, rfl⟩ := hty v c hs
    rw [hs] at h
    simp only at h
    split at h
    · rename_i hk
      cases h
      exact .inr ⟨i, c, hs, by simpa using hk, rfl⟩
    · cases h

theorem takeIv_ok {f : Found} {p p' : Params} (h : takeIv f p = .ok p')
    (hty : ∀ v c, f.lookup 5 = some (v, c) → ∃ i, v = .bstr i) :
    (f.lookup 5 = none ∧ p' = p) ∨
    ∃ s c, f.lookup 5 = some (.bstr s, c) ∧ p.iv = none ∧ p' = { p with iv := some s } := by
  unfold takeIv at h
  rcases lookup_cases (f := f) (i := 5) with hn | ⟨v, c, hs⟩
  · rw [hn] at h; cases h; exact .inl ⟨hn, rfl⟩
  · obtain ⟨i, rfl⟩ := hty v c hs
    rw [hs] at h
    simp only at h
    split at h
    · rename_i hk
      cases h
      exact .inr ⟨i, c, hs, by simpa using hk, rfl⟩
    · cases h

theorem takePartialIv_ok {f : Found} {p p' : Params} (h : takePartialIv f p = .ok p')
    (hty : ∀ v c, f.lookup 6 = some (v, c) → ∃ i, v = .bstr i) :
    (f.lookup 6 = none ∧ p' = p) ∨
    ∃ s c, f.lookup 6 = some (.bstr s, c) ∧ p.partialIv = none ∧
      p' = { p with partialIv := some s } := by
  unfold takePartialIv at h
  rcases lookup_cases (f := f) (i := 6) with hn | ⟨v, c, hs⟩
  · rw [hn] at h; cases h; exact .inl ⟨hn, rfl⟩
  · obtain ⟨i, rfl⟩ := hty v c hs
    rw [hs] at h
    simp only at h
    split at h
    · rename_i hk
      cases h
      exact .inr ⟨i, c, hs, by simpa using hk, rfl⟩
    · cases h

theorem takeContentType_ok {cfg : Config} {f : Found} {p p' : Params}
    (h : takeContentType cfg f p = .ok p') :
    ((cfg.disableContentType = true ∨ f.lookup 3 = none) ∧ p' = p) ∨
    (cfg.disableContentType = false ∧
      ((∃ s c, f.lookup 3 = some (.tstr s, c) ∧ (Str.ub p.ctTstr).isNullOrEmpty = true ∧
        p' = { p with ctTstr := some s }) ∨
       (∃ i c, f.lookup 3 = some (.int i, c) ∧ 0 ≤ i ∧ i ≤ 65535 ∧
        p.ctUint = emptyContentType ∧ p' = { p with ctUint := i.toNat }))) := by
  unfold takeContentType at h
  split at h
  · rename_i hd
    cases h
    exact .inl ⟨.inl hd, rfl⟩
  · rename_i hd
    have hd : cfg.disableContentType = false := by simpa using hd
    rcases lookup_cases (f := f) (i := 3) with hn | ⟨v, c, hs⟩
    · rw [hn] at h; cases h; exact .inl ⟨.inr hn, rfl⟩
    · refine .inr ⟨hd, ?_⟩
      rw [hs] at h
      cases v with
      | tstr s =>
        simp only at h
        split at h
        · cases h
        · rename_i he
          cases h
          exact .inl ⟨s, c, hs, by simpa using he, rfl⟩
      | int i =>
        simp only at h
        split at h
        · cases h
        · split at h
          · cases h
          · rename_i hr he
            cases h
            exact .inr ⟨i, c, hs, by omega, by omega, by simpa using he, rfl⟩
      | _ => simp at h

theorem headerQs_lookup {i : Int} (h : i ∈ [(1 : Int), 3, 4, 5, 6]) :
    (headerQs.lookup i).isSome = true := by
  simp only [List.mem_cons, List.not_mem_nil, or_false] at h
  rcases h with rfl | rfl | rfl | rfl | rfl <;> rfl

theorem HeaderOk.facts {cfg : Config} {P : QParams} {room : Nat} {prot : Bool}
    {es : List Entry} {p p' : Params} {crit crit' unk' : LabelList} {st : List Int × List Str}
    (hst : LLok st)
    (h : HeaderOk cfg P room prot es p crit (mkLL st.1 st.2) p' crit' unk') :
    HeaderFacts cfg prot es p p' ∧
    (∃ st', noteLabels (otherLabels es) st = some st' ∧ unk' = mkLL st'.1 st'.2) ∧
    CritOk P room prot es crit crit' := by
  obtain ⟨⟨f, r, hsf, hcp⟩, hcr⟩ := h
  rw [searchFold_iff] at hsf
  obtain ⟨h1, h2, -, h4, rfl⟩ := hsf
  obtain ⟨st', hn, hs'⟩ := (cbFold_header _ hst _).mp h4
  simp only [CbCtx.mk.injEq] at hs'
  refine ⟨?_, ⟨st', hn, hs'.1⟩, hcr⟩
  have hw : ∀ e ∈ es, ∀ i ∈ [(1 : Int), 3, 4, 5, 6], e.label = some (.int i) → goodFor headerQs e := by
    intro e he i hi hl
    refine h1 e (List.mem_filter.mpr ⟨he, ?_⟩)
    unfold wanted
    rw [key_iff.mpr hl]
    exact headerQs_lookup hi
  -- found values and entries
  generalize hf : (((es.filter (wanted headerQs)).map foundOf).reverse ++ []) = f at hcp
  have hlk : ∀ i ∈ [(1 : Int), 3, 4, 5, 6], ∀ v c, f.lookup i = some (v, c) ↔
      ∃ e ∈ es, e.label = some (.int i) ∧ e.itm.val = v ∧ e.cur = c := by
    intro i hi v c
    rw [← hf]
    exact found_lookup (headerQs_lookup hi) h2
  have hlkn : ∀ i ∈ [(1 : Int), 3, 4, 5, 6], f.lookup i = none ↔
      ∀ e ∈ es, e.label ≠ some (.int i) := by
    intro i hi
    rw [← hf]
    exact found_lookup_none (headerQs_lookup hi) h2
  have hlke : ∀ i ∈ [(1 : Int), 3, 4, 5, 6], ∀ e ∈ es, e.label = some (.int i) →
      f.lookup i = some (e.itm.val, e.cur) := by
    intro i hi e he hl
    exact (hlk i hi _ _).mpr ⟨e, he, hl, rfl, rfl⟩
  have hty : ∀ i t, headerQs.lookup i = some t → i ∈ [(1 : Int), 3, 4, 5, 6] →
      ∀ v c, f.lookup i = some (v, c) → t.ok v = true := by
    intro i t hq hi v c hl
    obtain ⟨e, he, hle, rfl, -⟩ := (hlk i hi v c).mp hl
    exact (hw e he i hi hle).2 i t (key_iff.mpr hle) hq
  have tint : ∀ v, QTyp.int.ok v = true → ∃ i, v = .int i := by
    intro v h; cases v <;> first | exact ⟨_, rfl⟩ | cases h
  have tbstr : ∀ v, QTyp.bstr.ok v = true → ∃ i, v = .bstr i := by
    intro v h; cases v <;> first | exact ⟨_, rfl⟩ | cases h
  unfold copyParams at hcp
  cases ha : takeAlg prot f p with
  | error x => rw [ha] at hcp; cases hcp
  | ok p1 =>
    rw [ha] at hcp
    simp only at hcp
    cases hk : takeKid f p1 with
    | error x => rw [hk] at hcp; cases hcp
    | ok p2 =>
      rw [hk] at hcp
      simp only at hcp
      cases hi : takeIv f p2 with
      | error x => rw [hi] at hcp; cases hcp
      | ok p3 =>
        rw [hi] at hcp
        simp only at hcp
        cases hp : takePartialIv f p3 with
        | error x => rw [hp] at hcp; cases hcp
        | ok p4 =>
          rw [hp] at hcp
          simp only at hcp
          have fa := takeAlg_ok ha (fun v c h => tint v (hty 1 .int rfl (by simp) v c h))
          have fk := takeKid_ok hk (fun v c h => tbstr v (hty 4 .bstr rfl (by simp) v c h))
          have fi := takeIv_ok hi (fun v c h => tbstr v (hty 5 .bstr rfl (by simp) v c h))
          have fp := takePartialIv_ok hp (fun v c h => tbstr v (hty 6 .bstr rfl (by simp) v c h))
          have fc := takeContentType_ok hcp
          -- which fields each step leaves alone
          have a1 : p1.kid = p.kid ∧ p1.iv = p.iv ∧ p1.partialIv = p.partialIv ∧
              p1.ctTstr = p.ctTstr ∧ p1.ctUint = p.ctUint := by
            rcases fa with ⟨-, rfl⟩ | ⟨i, c, -, -, -, -, rfl⟩ <;> exact ⟨rfl, rfl, rfl, rfl, rfl⟩
          have a2 : p2.alg = p1.alg ∧ p2.iv = p1.iv ∧ p2.partialIv = p1.partialIv ∧
              p2.ctTstr = p1.ctTstr ∧ p2.ctUint = p1.ctUint := by
            rcases fk with ⟨-, rfl⟩ | ⟨i, c, -, -, rfl⟩ <;> exact ⟨rfl, rfl, rfl, rfl, rfl⟩
          have a3 : p3.alg = p2.alg ∧ p3.kid = p2.kid ∧ p3.partialIv = p2.partialIv ∧
              p3.ctTstr = p2.ctTstr ∧ p3.ctUint = p2.ctUint := by
            rcases fi with ⟨-, rfl⟩ | ⟨i, c, -, -, rfl⟩ <;> exact ⟨rfl, rfl, rfl, rfl, rfl⟩
          have a4 : p4.alg = p3.alg ∧ p4.kid = p3.kid ∧ p4.iv = p3.iv ∧
              p4.ctTstr = p3.ctTstr ∧ p4.ctUint = p3.ctUint := by
            rcases fp with ⟨-, rfl⟩ | ⟨i, c, -, -, rfl⟩ <;> exact ⟨rfl, rfl, rfl, rfl, rfl⟩
          have a5 : p'.alg = p4.alg ∧ p'.kid = p4.kid ∧ p'.iv = p4.iv ∧
              p'.partialIv = p4.partialIv := by
            rcases fc with ⟨-, rfl⟩ | ⟨-, (⟨s, c, -, -, rfl⟩ | ⟨i, c, -, -, -, -, rfl⟩)⟩ <;>
              exact ⟨rfl, rfl, rfl, rfl⟩
          obtain ⟨b1, b2, b3, b4, b5⟩ := a1
          obtain ⟨c1, c2, c3, c4, c5⟩ := a2
          obtain ⟨d1, d2, d3, d4, d5⟩ := a3
          obtain ⟨e1, e2, e3, e4, e5⟩ := a4
          obtain ⟨g1, g2, g3, g4⟩ := a5
          refine ⟨?_, ?_, ?_, ?_, ?_, ?_, ?_, ?_, ?_, ?_, ?_, ?_⟩
          · intro i hi
            exact wanted_unique (headerQs_lookup hi) h2
          · intro e he i hi hl
            exact (hw e he i hi hl).1
          · intro hno
            rw [g1, e1, d1, c1]
            rcases fa with ⟨-, rfl⟩ | ⟨i, c, hl, -⟩
            · rfl
            · rw [(hlkn 1 (by simp)).mpr hno] at hl; cases hl
          · intro e he hl
            have := hlke 1 (by simp) e he hl
            rcases fa with ⟨hn, -⟩ | ⟨i, c, hl2, hpr, h0, hle, hp1⟩
            · rw [this] at hn; cases hn
            · rw [this] at hl2
              simp only [Option.some.injEq, Prod.mk.injEq] at hl2
              refine ⟨hpr, i, hl2.1, h0, hle, ?_⟩
              rw [g1, e1, d1, c1, hp1]
          · intro hno
            rw [g2, e2, d2]
            rcases fk with ⟨-, rfl⟩ | ⟨i, c, hl, -⟩
            · exact b1
            · rw [(hlkn 4 (by simp)).mpr hno] at hl; cases hl
          · intro e he hl
            have := hlke 4 (by simp) e he hl
            rcases fk with ⟨hn, -⟩ | ⟨s, c, hl2, hnone, hp1⟩
            · rw [this] at hn; cases hn
            · rw [this] at hl2
              simp only [Option.some.injEq, Prod.mk.injEq] at hl2
              refine ⟨by rw [← b1]; exact hnone, s, hl2.1, ?_⟩
              rw [g2, e2, d2, hp1]
          · intro hno
            rw [g3, e3]
            rcases fi with ⟨-, rfl⟩ | ⟨i, c, hl, -⟩
            · rw [c2, b2]
            · rw [(hlkn 5 (by simp)).mpr hno] at hl; cases hl
          · intro e he hl
            have := hlke 5 (by simp) e he hl
            rcases fi with ⟨hn, -⟩ | ⟨s, c, hl2, hnone, hp1⟩
            · rw [this] at hn; cases hn
            · rw [this] at hl2
              simp only [Option.some.injEq, Prod.mk.injEq] at hl2
              refine ⟨by rw [← b2, ← c2]; exact hnone, s, hl2.1, ?_⟩
              rw [g3, e3, hp1]
          · intro hno
            rw [g4]
            rcases fp with ⟨-, rfl⟩ | ⟨i, c, hl, -⟩
            · rw [d3, c3, b3]
            · rw [(hlkn 6 (by simp)).mpr hno] at hl; cases hl
          · intro e he hl
            have := hlke 6 (by simp) e he hl
            rcases fp with ⟨hn, -⟩ | ⟨s, c, hl2, hnone, hp1⟩
            · rw [this] at hn; cases hn
            · rw [this] at hl2
              simp only [Option.some.injEq, Prod.mk.injEq] at hl2
              refine ⟨by rw [← b3, ← c3, ← d3]; exact hnone, s, hl2.1, ?_⟩
              rw [g4, hp1]
          · intro hno
            rcases fc with ⟨-, rfl⟩ | ⟨hdis, hc⟩
            · exact ⟨by rw [e4, d4, c4, b4], by rw [e5, d5, c5, b5]⟩
            · rcases hno with hd | hno
              · rw [hd] at hdis; cases hdis
              · have hnn := (hlkn 3 (by simp)).mpr hno
                rcases hc with ⟨s, c, hl, -⟩ | ⟨i, c, hl, -⟩ <;> (rw [hnn] at hl; cases hl)
          · intro hdis e he hl
            have := hlke 3 (by simp) e he hl
            rcases fc with ⟨hd | hn, -⟩ | ⟨-, hc⟩
            · rw [hd] at hdis; cases hdis
            · rw [this] at hn; cases hn
            · have ht : p4.ctTstr = p.ctTstr := by rw [e4, d4, c4, b4]
              have hu : p4.ctUint = p.ctUint := by rw [e5, d5, c5, b5]
              rcases hc with ⟨s, c, hl2, hemp, hp1⟩ | ⟨i, c, hl2, h0, hm, hemp, hp1⟩
              · rw [this] at hl2
                simp only [Option.some.injEq, Prod.mk.injEq] at hl2
                refine .inl ⟨s, hl2.1, by rw [← ht]; exact hemp, by rw [hp1], ?_⟩
                rw [hp1]; exact hu
              · rw [this] at hl2
                simp only [Option.some.injEq, Prod.mk.injEq] at hl2
                refine .inr ⟨i, hl2.1, h0, hm, by rw [← hu]; exact hemp, by rw [hp1], ?_⟩
                rw [hp1]; exact ht

end TCose
