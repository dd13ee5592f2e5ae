import Verif.Props.Levels

/-!
# Helper: encoder calls that leave no error respect QCBOR's limits
-/

namespace TCose
open Props

theorem bump_err_none {e : Enc} {n : Nest} {ns : List Nest} (hn : e.nest = n :: ns)
    (h : e.bump.err = none) :
    e.err = none ∧ e.bump.nest = { n with count := n.count + 1 } :: ns ∧ n.count + 1 ≤ 65534 := by
  unfold Enc.bump at h ⊢
  rw [hn] at h ⊢
  simp only at h ⊢
  by_cases hc : n.count + 1 ≥ Enc.maxItems + 1
  · rw [if_pos hc] at h; cases h
  · rw [if_neg hc] at h ⊢
    refine ⟨h, rfl, ?_⟩
    unfold Enc.maxItems at hc
    omega

theorem addItem_err_none {e : Enc} {n : Nest} {ns : List Nest} {x : Bytes} {y : UB}
    (hn : e.nest = n :: ns) (h : (e.addItem x y).err = none) :
    e.err = none ∧ (e.addItem x y).nest = { n with count := n.count + 1 } :: ns ∧
      n.count + 1 ≤ 65534 := by
  unfold Enc.addItem at h ⊢
  by_cases h1 : e.err.isSome = true
  · rw [if_pos h1] at h; rw [h] at h1; cases h1
  · rw [if_neg h1] at h ⊢
    by_cases h2 : e.inOpenB = true
    · rw [if_pos h2] at h; cases h
    · rw [if_neg h2] at h ⊢
      have hk := append_keeps e (.data x)
      have hk2 := append_keeps (e.append (.data x)) y
      obtain ⟨-, b, c⟩ := bump_err_none (n := n) (ns := ns) (by rw [hk2.2, hk.2, hn]) h
      exact ⟨by simpa using h1, b, c⟩

theorem addTag_err_none {e : Enc} {t : Nat} (h : (e.addTag t).err = none) :
    e.err = none ∧ (e.addTag t).nest = e.nest := by
  unfold Enc.addTag at h ⊢
  by_cases h1 : e.err.isSome = true
  · rw [if_pos h1] at h; rw [h] at h1; cases h1
  · rw [if_neg h1] at h ⊢
    by_cases h2 : e.inOpenB = true
    · rw [if_pos h2] at h; cases h
    · rw [if_neg h2] at h ⊢
      exact ⟨by simpa using h1, (append_keeps e _).2⟩

theorem openLevel_err_none {e : Enc} {n : Nest} {ns : List Nest} {k : NKind}
    (hn : e.nest = n :: ns) (h : (e.openLevel k).err = none) :
    e.err = none ∧ n.count + 1 ≤ 65534 ∧ ns.length + 1 < 15 ∧
    ∃ s, (e.openLevel k).nest = ⟨k, s, 0⟩ :: { n with count := n.count + 1 } :: ns := by
  unfold Enc.openLevel at h ⊢
  by_cases h1 : e.err.isSome = true
  · rw [if_pos h1] at h; rw [h] at h1; cases h1
  · rw [if_neg h1] at h ⊢
    by_cases h2 : e.inOpenB = true
    · rw [if_pos h2] at h; cases h
    · rw [if_neg h2] at h ⊢
      simp only at h ⊢
      by_cases h3 : e.bump.err.isSome = true
      · rw [if_pos h3] at h; rw [h] at h3; cases h3
      · rw [if_neg h3] at h ⊢
        obtain ⟨-, b, c⟩ := bump_err_none hn (by simpa using h3)
        by_cases h4 : e.bump.len ≥ Enc.maxStart
        · rw [if_pos h4] at h; cases h
        · rw [if_neg h4] at h ⊢
          by_cases h5 : e.bump.nest.length ≥ Enc.maxNesting
          · rw [if_pos h5] at h; cases h
          · rw [if_neg h5]
            refine ⟨by simpa using h1, c, ?_, e.bump.len, by simp only [b]⟩
            rw [b] at h5
            unfold Enc.maxNesting at h5
            simp only [List.length_cons] at h5
            omega

theorem closeLevel_err_none {e : Enc} {n : Nest} {ns : List Nest} {k : NKind} {f : Nest → Bytes}
    (hn : e.nest = n :: ns) (h : (e.closeLevel k f).err = none) :
    e.err = none ∧ (e.closeLevel k f).nest = ns := by
  refine ⟨(closeLevel_delta e k f h).1, ?_⟩
  unfold Enc.closeLevel at h ⊢
  by_cases h1 : e.err.isSome = true
  · rw [if_pos h1] at h; rw [h] at h1; cases h1
  · rw [if_neg h1] at h ⊢
    rw [hn] at h ⊢
    simp only at h ⊢
    by_cases h2 : n.kind ≠ k
    · rw [if_pos h2] at h; cases h
    · rw [if_neg h2]

theorem closeLevel_err_back {e : Enc} {k : NKind} {f : Nest → Bytes}
    (h : (e.closeLevel k f).err = none) : e.err = none :=
  (closeLevel_delta e k f h).1

mutual

theorem run_err_none : ∀ (c : Content) {e : Enc} {n : Nest} {ns : List Nest}, e.nest = n :: ns →
    (c.run e).err = none →
    e.err = none ∧ c.fits (14 - ns.length) = true ∧
      (c.run e).nest = { n with count := n.count + 1 } :: ns ∧ n.count + 1 ≤ 65534
  | .int i, e, n, ns, hn, h => by
    obtain ⟨a, b, c⟩ := addItem_err_none hn h
    exact ⟨a, by simp [Content.fits], b, c⟩
  | .uint i, e, n, ns, hn, h => by
    obtain ⟨a, b, c⟩ := addItem_err_none hn h
    exact ⟨a, by simp [Content.fits], b, c⟩
  | .bytes i, e, n, ns, hn, h => by
    obtain ⟨a, b, c⟩ := addItem_err_none hn h
    exact ⟨a, by simp [Content.fits], b, c⟩
  | .text i, e, n, ns, hn, h => by
    obtain ⟨a, b, c⟩ := addItem_err_none hn h
    exact ⟨a, by simp [Content.fits], b, c⟩
  | .raw i, e, n, ns, hn, h => by
    obtain ⟨a, b, c⟩ := addItem_err_none hn h
    exact ⟨a, by simp [Content.fits], b, c⟩
  | .null, e, n, ns, hn, h => by
    obtain ⟨a, b, c⟩ := addItem_err_none hn h
    exact ⟨a, by simp [Content.fits], b, c⟩
  | .bool b, e, n, ns, hn, h => by
    obtain ⟨a, b, c⟩ := addItem_err_none hn h
    exact ⟨a, by simp [Content.fits], b, c⟩
  | .tagged t c, e, n, ns, hn, h => by
    simp only [Content.run] at h ⊢
    by_cases ht : (e.addTag t).err = none
    · obtain ⟨t1, t2⟩ := addTag_err_none ht
      obtain ⟨a, b, d⟩ := run_err_none c (e := e.addTag t) (by rw [t2, hn]) h
      exact ⟨t1, by simpa [Content.fits] using b, d⟩
    · have hn' : (e.addTag t).nest = n :: ns := by
        unfold Enc.addTag
        split
        · exact hn
        · split
          · exact hn
          · rw [(append_keeps e _).2, hn]
      exact absurd (run_err_none c hn' h).1 ht
  | .arr cs, e, n, ns, hn, h => by
    simp only [Content.run] at h ⊢
    exact level_err_none cs hn .arr _ (Content.arr cs).fits (fun d => by simp [Content.fits]) h
  | .map cs, e, n, ns, hn, h => by
    simp only [Content.run] at h ⊢
    exact level_err_none cs hn .map _ (Content.map cs).fits (fun d => by simp [Content.fits]) h
  | .wrap cs, e, n, ns, hn, h => by
    simp only [Content.run] at h ⊢
    exact level_err_none cs hn .bstr _ (Content.wrap cs).fits (fun d => by simp [Content.fits]) h

theorem level_err_none : ∀ (cs : List Content) {e : Enc} {n : Nest} {ns : List Nest},
    e.nest = n :: ns → ∀ (k : NKind) (f : Nest → Bytes) (fits : Nat → Bool),
    (∀ d, fits (d + 1) = (decide (cs.length ≤ 65534) && fitsAll cs d)) →
    ((runAll cs (e.openLevel k)).closeLevel k f).err = none →
    e.err = none ∧ fits (14 - ns.length) = true ∧
      ((runAll cs (e.openLevel k)).closeLevel k f).nest = { n with count := n.count + 1 } :: ns ∧
      n.count + 1 ≤ 65534
  | cs, e, n, ns, hn, k, f, fits, hf, h => by
    have hr := closeLevel_err_back h
    have ho : (e.openLevel k).err = none := runAll_err_back cs hr
    obtain ⟨o1, o2, o3, s, o4⟩ := openLevel_err_none hn ho
    obtain ⟨-, r2, r3, r4⟩ := runAll_err_none cs o4 hr
    obtain ⟨-, c2⟩ := closeLevel_err_none r3 h
    refine ⟨o1, ?_, c2, o2⟩
    have : 14 - ns.length = (13 - ns.length) + 1 := by omega
    rw [this, hf]
    simp only [List.length_cons] at r2
    have e2 : 14 - (ns.length + 1) = 13 - ns.length := by omega
    rw [e2] at r2
    rw [r2, Bool.and_true, decide_eq_true_eq]
    simp only at r4
    omega

theorem runAll_err_none : ∀ (cs : List Content) {e : Enc} {n : Nest} {ns : List Nest},
    e.nest = n :: ns → (runAll cs e).err = none →
    e.err = none ∧ fitsAll cs (14 - ns.length) = true ∧
      (runAll cs e).nest = { n with count := n.count + cs.length } :: ns ∧
      (n.count + cs.length ≤ 65534 ∨ cs.length = 0)
  | [], e, n, ns, hn, h => ⟨h, by simp [fitsAll], by simpa [runAll] using hn, .inr rfl⟩
  | c :: cs, e, n, ns, hn, h => by
    simp only [runAll] at h ⊢
    have h1 : (c.run e).err = none := runAll_err_back cs h
    obtain ⟨a1, a2, a3, a4⟩ := run_err_none c hn h1
    obtain ⟨-, b2, b3, b4⟩ := runAll_err_none cs a3 h
    refine ⟨a1, by simp [fitsAll, a2, b2], ?_, .inl ?_⟩
    · rw [b3]
      simp only [List.length_cons, List.cons.injEq, Nest.mk.injEq, true_and, and_true]
      omega
    · simp only [List.length_cons] at b4 ⊢
      omega

theorem runAll_err_back : ∀ (cs : List Content) {e : Enc}, (runAll cs e).err = none → e.err = none
  | [], _, h => h
  | c :: cs, _, h => run_err_back c (runAll_err_back cs h)

theorem run_err_back : ∀ (c : Content) {e : Enc}, (c.run e).err = none → e.err = none
  | .int i, e, h => (addItem_delta _ _ _ h).1
  | .uint i, e, h => (addItem_delta _ _ _ h).1
  | .bytes i, e, h => (addItem_delta _ _ _ h).1
  | .text i, e, h => (addItem_delta _ _ _ h).1
  | .raw i, e, h => (addItem_delta _ _ _ h).1
  | .null, e, h => (addItem_delta _ _ _ h).1
  | .bool b, e, h => (addItem_delta _ _ _ h).1
  | .tagged t c, e, h => (addTag_delta _ _ (run_err_back c h)).1
  | .arr cs, e, h => (openLevel_delta _ _ (runAll_err_back cs (closeLevel_err_back h))).1
  | .map cs, e, h => (openLevel_delta _ _ (runAll_err_back cs (closeLevel_err_back h))).1
  | .wrap cs, e, h => (openLevel_delta _ _ (runAll_err_back cs (closeLevel_err_back h))).1

end

end TCose
