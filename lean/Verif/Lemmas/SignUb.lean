import Verif.Lemmas.SignSafe

/-! Helper lemmas: when signing copies from a NULL pointer. -/

namespace TCose
open Enc (PRef Place maxStart)

namespace Enc

theorem insert_ub_mono {e : Enc} (h : e.ub = true) (s : UB) (pos : Nat) : (e.insert s pos).ub = true := by
  unfold Enc.insert
  repeat' split
  all_goals first | exact h | rfl

theorem bump_ub (e : Enc) : e.bump.ub = e.ub := by
  unfold Enc.bump; repeat' split
  all_goals rfl

theorem addItem_ub_mono {e : Enc} (h : e.ub = true) (hd : Bytes) (s : UB) : (e.addItem hd s).ub = true := by
  unfold Enc.addItem
  split
  · exact h
  · split
    · exact h
    · rw [bump_ub]; exact insert_ub_mono (insert_ub_mono h _ _) _ _

theorem closeLevel_ub_mono {e : Enc} (h : e.ub = true) (k : NKind) (f : Nest → Bytes) :
    (e.closeLevel k f).ub = true := by
  unfold Enc.closeLevel
  split
  · exact h
  · split
    · exact h
    · split
      · exact h
      · exact insert_ub_mono h _ _

theorem closeBytes_ub_mono {e : Enc} (h : e.ub = true) (n : Nat) : (e.closeBytes n).ub = true := by
  have h1 : (e.advance n).ub = true := by
    unfold Enc.advance; repeat' split
    all_goals exact h
  unfold Enc.closeBytes
  simp only
  split
  · exact h1
  · exact closeLevel_ub_mono h1 _ _

theorem writePlace_ub_mono {e : Enc} (h : e.ub = true) (s : Bytes) : (e.writePlace s).ub = true := by
  unfold Enc.writePlace
  repeat' split
  all_goals first | exact h | rfl

theorem insert_full {e : Enc} (h : e.small = true) (s : UB) (pos : Nat) : e.insert s pos = e := by
  unfold Enc.insert; rw [if_pos h]

theorem addItem_full {e : Enc} (h : e.small = true) (hd : Bytes) (s : UB) :
    (e.addItem hd s).small = true ∧ (e.addItem hd s).ub = e.ub := by
  unfold Enc.addItem
  split
  · exact ⟨h, rfl⟩
  · split
    · exact ⟨h, rfl⟩
    · unfold Enc.append
      rw [insert_full h, insert_full h, bump_ub, bump_small]
      exact ⟨h, rfl⟩

theorem closeLevel_small_full {e : Enc} (h : e.small = true) (k : NKind) (f : Nest → Bytes) :
    (e.closeLevel k f).small = true := by
  unfold Enc.closeLevel
  split
  · exact h
  · split
    · exact h
    · split
      · exact h
      · rw [insert_full h]; exact h

theorem closeLevel_full {e : Enc} (h : e.small = true) (k : NKind) (f : Nest → Bytes) :
    (e.closeLevel k f).ub = e.ub := by
  unfold Enc.closeLevel
  split
  · rfl
  · split
    · rfl
    · split
      · rfl
      · rw [insert_full h]

end Enc

theorem tbsEnc_hollow (k : Nat) (hk : 0 < k) (hk2 : k < 24) (aad pay : UB) (m : Bytes) :
    (tbsEnc (.null k) aad pay (.buf m)).ub = decide (12 + k ≤ m.length) ∧
      (m.length < 12 + k → (tbsEnc (.null k) aad pay (.buf m)).small = true) := by
  unfold tbsEnc
  have h1 := (Rel.init_rel (.buf m)).openArray_rel
  rw [Ideal.openArray, Ideal.init, Ideal.openLevel_ok (ns := []) _ trivial (by simp) (by simp [maxStart])] at h1
  have h2 := h1.addText_rel contextString
  rw [Ideal.addText, Ideal.addItem_cons (by decide) (by decide)] at h2
  generalize ((Enc.init (.buf m)).openArray.addText contextString) = e2 at h2 ⊢
  have hlen : (([] ++ (encodeHead 3 contextString.length ++ contextString) : Bytes)).length = 11 := by decide
  have hhd : (encodeHead 2 k).length = 1 := by unfold encodeHead; rw [if_pos hk2]; rfl
  have hub2 : e2.ub = false := h2.ub
  have hcap : e2.mem.cap = m.length := h2.cap_eq
  have hnul : e2.mem.isNull = false := h2.nul_eq
  have key : (e2.addBytes (.null k)).ub = decide (12 + k ≤ m.length) ∧
      (m.length < 12 + k → (e2.addBytes (.null k)).small = true) := by
    cases hs : e2.small with
    | true =>
      have hsm := h2.small hs
      simp only [List.nil_append, Mem.cap] at hsm hlen
      obtain ⟨a, b⟩ := Enc.addItem_full hs (encodeHead 2 k) (.null k)
      rw [Enc.addBytes]
      simp only [UB.len]
      rw [b, hub2]
      refine ⟨?_, fun _ => a⟩
      symm; rw [decide_eq_false_iff_not]; omega
    | false =>
      obtain ⟨g1, g2, g3, -⟩ := h2.good hs
      simp only [List.nil_append] at g1 hlen
      have hl2 : e2.len = 11 := by rw [← hlen]; exact g1
      have hopen : e2.inOpenB = false := by unfold Enc.inOpenB; rw [g3]; rfl
      rw [Enc.addBytes, Enc.addItem, if_neg (by rw [g2]; decide), if_neg (by simp [hopen]), Enc.bump_ub,
        Enc.bump_small]
      simp only [UB.len]
      obtain ⟨mem, len, small, err, nest, ub⟩ := e2
      simp only at hs hub2 hcap hnul hl2
      subst hs hub2 hl2
      cases mem with
      | null c => cases hnul
      | buf m2 =>
        simp only [Mem.cap] at hcap
        have e1 : ∀ x : Enc, x = Enc.append ⟨.buf m2, 11, false, err, nest, false⟩ (.data (encodeHead 2 k)) →
            (x.append (.null k)).ub = decide (12 + k ≤ m.length) ∧
            (m.length < 12 + k → (x.append (.null k)).small = true) := by
          intro x hx
          unfold Enc.append Enc.insert at hx
          simp only [Bool.false_eq_true, if_false, UB.len, hhd, Mem.cap, Nat.lt_irrefl] at hx
          by_cases h12 : m2.length - 11 < 1
          · rw [if_pos h12] at hx
            subst hx
            unfold Enc.append
            rw [Enc.insert_full rfl]
            refine ⟨?_, fun _ => rfl⟩
            symm; rw [decide_eq_false_iff_not]; omega
          · rw [if_neg h12] at hx
            subst hx
            unfold Enc.append Enc.insert
            have hil : (Enc.insertMem m2 11 11 (encodeHead 2 k)).length = m2.length := by
              unfold Enc.insertMem
              simp only [List.length_append, List.length_take, List.length_drop, hhd]
              omega
            simp only [Bool.false_eq_true, if_false, UB.len, Mem.cap, Nat.lt_irrefl, hil]
            by_cases hroom : m2.length - (11 + 1) < k
            · rw [if_pos hroom]
              refine ⟨?_, fun _ => rfl⟩
              symm; rw [decide_eq_false_iff_not]; omega
            · rw [if_neg hroom, if_neg (by omega)]
              refine ⟨?_, fun h => by omega⟩
              symm; rw [decide_eq_true_iff]; omega
        exact e1 _ rfl
  obtain ⟨k1, k2⟩ := key
  by_cases hr : 12 + k ≤ m.length
  · rw [decide_eq_true hr] at k1 ⊢
    exact ⟨Enc.closeLevel_ub_mono (Enc.addItem_ub_mono (Enc.addItem_ub_mono k1 _ _) _ _) _ _, fun h => by omega⟩
  · rw [decide_eq_false hr] at k1 ⊢
    have s0 := k2 (by omega)
    obtain ⟨s1, u1⟩ := Enc.addItem_full s0 (encodeHead 2 aad.len) aad
    obtain ⟨s2, u2⟩ := Enc.addItem_full s1 (encodeHead 2 pay.len) pay
    exact ⟨(Enc.closeLevel_full s2 _ _).trans (u2.trans (u1.trans k1)), fun _ => Enc.closeLevel_small_full s2 _ _⟩

/-- Serialising a Sig_structure with a NULL protected header of `k` octets into a
real buffer: it is copied exactly if there is room for the context string and it. -/
theorem createTbs_ub (k : Nat) (hk : 0 < k) (hk2 : k < 24) (aad pay : UB) (m : Bytes) :
    (createTbs (.null k) aad pay (.buf m)).2 = decide (12 + k ≤ m.length) := by
  rw [← (tbsEnc_hollow k hk hk2 aad pay m).1]
  unfold createTbs
  simp only
  split <;> rfl

/-- So it is copied if that succeeds. -/
theorem createTbs_hollow_ok {k : Nat} (hk : 0 < k) (hk2 : k < 24) {aad pay : UB} {m : Bytes} {tbs : UB} {ub : Bool}
    (h : createTbs (.null k) aad pay (.buf m) = (.ok tbs, ub)) : ub = true := by
  have h2 := createTbs_ub k hk hk2 aad pay m
  rw [h] at h2
  simp only at h2
  rw [h2, decide_eq_true_iff]
  refine Classical.byContradiction fun hlt => ?_
  have hs := (tbsEnc_hollow k hk hk2 aad pay m).2 (by omega)
  have : (tbsEnc (.null k) aad pay (.buf m)).errState = .tooSmall := by
    unfold Enc.errState; rw [hs]; rfl
  unfold createTbs Enc.finish at h
  simp only [this] at h
  cases h

/-- With a NULL output buffer only the signing procedure can do anything undefined,
and only if it is reached. -/
theorem encSig_ub {cap : Nat} {e : Enc} {cfg : Config} {C : Crypto} {me : SignCtx} {aad dp : UB}
    (h : Safe cap true (closePayload dp e).1) :
    ((closePayload dp e).1.errState ≠ .ok → (encodeSignatureInternal cfg C me aad dp e).2.2.ub = false) ∧
    ((closePayload dp e).1.errState = .ok →
      (encodeSignatureInternal cfg C me aad dp e).2.2.ub =
        (signDispatch cfg C me ((closePayload dp e).1.openBytes.1.deref me.protectedParams) aad
          (closePayload dp e).2 .null).2.2) := by
  unfold encodeSignatureInternal
  generalize closePayload dp e = q at h ⊢
  obtain ⟨e1, pay⟩ := q
  simp only at h ⊢
  constructor
  · intro hs
    cases he : e1.errState with
    | ok => exact absurd he hs
    | tooSmall => exact h.ub
    | other x => exact h.ub
  · intro hs
    rw [hs]
    simp only
    have h3 : Safe cap true e1.openBytes.1 := h.openLevel _
    have hplace : e1.openBytes.2 = .null := by
      change e1.outPlace = _
      have := h.nul_eq
      unfold Enc.outPlace
      cases hm : e1.mem with
      | null c => rfl
      | buf m => rw [hm] at this; cases this
    generalize e1.openBytes = q at h3 hplace ⊢
    obtain ⟨e2, place⟩ := q
    simp only at h3 hplace ⊢
    subst hplace
    have hsh := fun sig me' ub =>
      @signDispatch_shape cfg C me me' (e2.deref me.protectedParams) aad pay .null sig ub
    generalize signDispatch cfg C me (e2.deref me.protectedParams) aad pay .null = q at hsh ⊢
    obtain ⟨r, me', ub⟩ := q
    have hub2 : e2.ub = false := h3.ub
    cases r with
    | error x => simp [hub2]
    | ok sig =>
      simp only
      cases sig with
      | data s => have := hsh _ _ _ rfl; simp [SigShape] at this
      | null n =>
        simp only
        cases ub with
        | false =>
          have h5 : Safe cap true { e2 with ub := e2.ub || false } := h3.of_eq rfl rfl (by simp)
          exact (Safe.closeLevel (Safe.closeBytes h5 _) _ _).ub
        | true => exact Enc.closeLevel_ub_mono (Enc.closeBytes_ub_mono (by simp) _) _ _

theorem signTail_ub (cfg : Config) (C : Crypto) (me : SignCtx) (aad dp : UB) (e : Enc) :
    (signTail cfg C me aad dp e).2.2 = (encodeSignatureInternal cfg C me aad dp e).2.2 := by
  unfold signTail
  generalize encodeSignatureInternal cfg C me aad dp e = q
  obtain ⟨r, me', e'⟩ := q
  cases r with
  | error x => rfl
  | ok u =>
    simp only
    split
    · rfl
    · rfl
    · split <;> rfl

end TCose
