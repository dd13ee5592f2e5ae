import Verif.Lemmas.Limits
import Verif.Lemmas.SignMain

/-! Helper lemmas: size-only runs against real runs. -/

namespace TCose
open Enc (PRef Place maxStart)

theorem sign_ok_elim {cfg : Config} {C : Crypto} {me : SignCtx} {det : Bool} {payload aad : UB}
    {w : Bytes} {out : Mem} {r : UB}
    (hpay : PayArg det out.isNull payload w)
    (h : (signAadInternal cfg C me det payload aad out).1 = .ok r) :
    SignPre cfg me ∧ (det = true ∨ (tagPart me ++ hdrBytes cfg me).length < maxStart) ∧
    (preSig cfg me det w).length ≤ out.cap ∧
    ∃ pp sig me' ub, signDispatch cfg C { me with protectedParams := pp }
        (seen out.isNull (protMap me.alg)) aad (paySeen det out.isNull w)
        (placeOf out.cap out.isNull (preSig cfg me det w).length) = (.ok sig, me', ub) ∧
      ∀ s, Rel.SigSrc out.cap out.isNull (preSig cfg me det w).length sig s → ub = false →
        (preSig cfg me det w).length < maxStart ∧
        (msgBytes cfg me det w s).length ≤ out.cap ∧
        r = seen out.isNull (msgBytes cfg me det w s) := by
  have hpre := sign_ok_pre h
  have hH : det = true ∨ (tagPart me ++ hdrBytes cfg me).length < maxStart := by
    cases det with
    | true => exact .inl rfl
    | false =>
      refine .inr (Nat.lt_of_not_le fun hh => ?_)
      obtain ⟨x, hx⟩ := sign_big (C := C) (aad := aad) (out := out) hpre
        (by simpa [PayArg] using hpay) hh
      rw [h] at hx; cases hx
  obtain ⟨h1, h2⟩ := sign_run cfg C me det payload aad w out hpre hpay hH
  have hcap : (preSig cfg me det w).length ≤ out.cap := by
    refine Nat.le_of_not_lt fun hh => ?_
    obtain ⟨e2, m2, h3⟩ := h1 hh
    rw [h3] at h; cases h
  obtain ⟨pp, hpp, h2⟩ := h2 hcap
  refine ⟨hpre, hH, hcap, pp, ?_⟩
  generalize signDispatch cfg C { me with protectedParams := pp } (seen out.isNull (protMap me.alg))
    aad (paySeen det out.isNull w) (placeOf out.cap out.isNull (preSig cfg me det w).length) = q at h2 ⊢
  obtain ⟨res, m2, ub⟩ := q
  cases res with
  | error x =>
    obtain ⟨e2, h2⟩ := h2
    rw [h2] at h; cases h
  | ok sig =>
    obtain ⟨e2, r2, h3, h4⟩ := h2
    refine ⟨sig, m2, ub, rfl, ?_⟩
    intro s hs hub
    rw [h3] at h
    simp only [] at h
    obtain ⟨g1, g2, g3, g4, g5⟩ := h4 s hs hub
    have hlt : (preSig cfg me det w).length < maxStart := by
      refine Nat.lt_of_not_le fun hh => ?_
      obtain ⟨x, hx⟩ := g4 hh
      rw [hx] at h; cases h
    have hle : (msgBytes cfg me det w s).length ≤ out.cap := by
      refine Nat.le_of_not_lt fun hh => ?_
      rw [g3 hh hlt] at h; cases h
    refine ⟨hlt, hle, ?_⟩
    have := g5 hle hlt
    rw [h] at this
    injection this

theorem sign_ok_intro {cfg : Config} {C : Crypto} {me : SignCtx} {det : Bool} {payload aad : UB}
    {w s : Bytes} {out : Mem} {sig : UB} {me' : PRef → SignCtx}
    (hpre : SignPre cfg me) (hpay : PayArg det out.isNull payload w)
    (hH : det = true ∨ (tagPart me ++ hdrBytes cfg me).length < maxStart)
    (hlt : (preSig cfg me det w).length < maxStart)
    (hle : (msgBytes cfg me det w s).length ≤ out.cap)
    (hd : ∀ pp, signDispatch cfg C { me with protectedParams := pp }
        (seen out.isNull (protMap me.alg)) aad (paySeen det out.isNull w)
        (placeOf out.cap out.isNull (preSig cfg me det w).length) = (.ok sig, me' pp, false))
    (hs : Rel.SigSrc out.cap out.isNull (preSig cfg me det w).length sig s) :
    (signAadInternal cfg C me det payload aad out).1
      = .ok (seen out.isNull (msgBytes cfg me det w s)) := by
  obtain ⟨h1, h2⟩ := sign_run cfg C me det payload aad w out hpre hpay hH
  have := preSig_lt_msg cfg me det w s
  obtain ⟨pp, hpp, h2⟩ := h2 (by omega)
  rw [hd pp] at h2
  obtain ⟨e2, r2, h3, h4⟩ := h2
  obtain ⟨g1, g2, g3, g4, g5⟩ := h4 s hs rfl
  rw [h3]
  exact g5 hle hlt

theorem msgBytes_length_congr {cfg : Config} {me : SignCtx} {det : Bool} {w s s' : Bytes}
    (h : s.length = s'.length) :
    (msgBytes cfg me det w s).length = (msgBytes cfg me det w s').length := by
  simp only [msgBytes, List.length_append, bstrBytes, h]

theorem createTbsHash_indep {cfg : Config} {C : Crypto} {alg : Int}
    (hfin0 : ∀ ha h0 us, Spec.hashFor cfg alg = some ha → C.hashStart ha = .ok h0 →
      ∃ d, d ≠ [] ∧ C.hashFinish (List.foldl C.hashUpdate h0 us) (Spec.digestRoom cfg) = .ok d)
    (p a w p' a' w' : UB) :
    (∃ d, d ≠ [] ∧ createTbsHash cfg C alg p a w (maxHashSize cfg) = .ok d) ∧
      (∃ d, (d ≠ [] ∧ Spec.HashGives cfg C alg d) ∧
        createTbsHash cfg C alg p' a' w' (maxHashSize cfg) = .ok d) ∨
    (∃ x, createTbsHash cfg C alg p a w (maxHashSize cfg) = .error x) ∧
      (∃ x, createTbsHash cfg C alg p' a' w' (maxHashSize cfg) = .error x) := by
  rw [createTbsHash_eq, createTbsHash_eq]
  split
  · exact .inr ⟨⟨_, rfl⟩, ⟨_, rfl⟩⟩
  · rename_i hne
    have hf := hashFor_of_ne hne
    have hfin := fun h0 us => hfin0 _ h0 us hf
    rw [maxHashSize_eq]
    cases hs : C.hashStart (hashAlgOfSigAlg cfg alg) with
    | error x => exact .inr ⟨⟨_, rfl⟩, ⟨_, rfl⟩⟩
    | ok h =>
      refine .inl ⟨hfin _ _ hs, ?_⟩
      obtain ⟨d, hd, hf⟩ := hfin _ (tbsChunks p' a' w') hs
      exact ⟨d, ⟨hd, _, _, _, hashFor_of_ne hne, hs, hf⟩, hf⟩

theorem scLoop_some {h : Bytes} (hh : h ≠ []) (n : Nat) : ∀ (fuel i : Nat) (buf : Bytes),
    n - i ≤ fuel → ∃ b, scLoop h n fuel i buf = some b := by
  have hp : 0 < h.length := List.length_pos_iff.mpr hh
  intro fuel
  induction fuel with
  | zero =>
    intro i buf hf
    unfold scLoop
    rw [if_neg (by omega)]
    exact ⟨_, rfl⟩
  | succ f ih =>
    intro i buf hf
    unfold scLoop
    split
    · exact ih _ _ (by omega)
    · exact ⟨_, rfl⟩

theorem scLoop_length {h : Bytes} {n : Nat} : ∀ {fuel i : Nat} {buf b : Bytes},
    buf.length = n → scLoop h n fuel i buf = some b → b.length = n := by
  intro fuel
  induction fuel with
  | zero =>
    intro i buf b hb hs
    unfold scLoop at hs
    split at hs
    · cases hs
    · cases hs; exact hb
  | succ f ih =>
    intro i buf b hb hs
    unfold scLoop at hs
    split at hs
    · rename_i hi
      refine ih ?_ hs
      simp only [List.length_append, List.length_take, List.length_drop]
      split <;> omega
    · cases hs; exact hb

theorem scSign_total {alg : Int} {h : Bytes} (hh : h ≠ []) {k n : Nat} (hk : scSigSize alg = .ok k)
    (hn : k ≤ n) : ∃ s, scSign alg h n = .ok s ∧ s.length = k := by
  unfold scSign
  rw [hk]
  simp only []
  rw [if_neg (by omega)]
  obtain ⟨b, hb⟩ := scLoop_some hh k k 0 (List.replicate k 0) (by omega)
  rw [hb]
  refine ⟨_, rfl, ?_⟩
  have := scLoop_length (by simp) hb
  simp [this]

theorem scSign_len {alg : Int} {h s : Bytes} {n : Nat} (hs : scSign alg h n = .ok s) :
    scSigSize alg = .ok s.length := by
  have : ∃ k, scSigSize alg = .ok k := ⟨_, rfl⟩
  obtain ⟨k, hk⟩ := this
  unfold scSign at hs
  rw [hk] at hs ⊢
  simp only [] at hs
  split at hs
  · cases hs
  · split at hs
    · rename_i b hb
      have := scLoop_length (by simp) hb
      injection hs with hs
      rw [← hs]
      simp [this]
    · cases hs

/-- Auxiliary buffers adequate for the two runs. -/
def AuxOk (me : SignCtx) (prot aad w : Bytes) (aux0 aux1 : Mem) : Prop :=
  me.alg = algEDDSA → Spec.Opt.shortCircuit me.flags = false →
    aux0.isNull = true ∧ (Spec.sigStructure prot aad w).length ≤ aux0.cap ∧
    aux1.isNull = false ∧ (Spec.sigStructure prot aad w).length ≤ aux1.cap

theorem dispatch_size_agree {cfg : Config} {C : Crypto} {me : SignCtx} (hpre : SignPre cfg me)
    {p0 a0 w0 p1 a1 w1 : UB} {prot aad w : Bytes} {aux0 aux1 : Mem} {pp0 pp1 : PRef}
    (hp0 : Src true p0 prot) (ha0 : Src true a0 aad) (hw0 : Src true w0 w)
    (hp1 : Src false p1 prot) (ha1 : Src false a1 aad) (hw1 : Src false w1 w)
    (hassm : Spec.SizeAssm cfg C me.alg me.key) (hexact : Spec.SigSizeExact C)
    (haux : AuxOk me prot aad w aux0 aux1) :
    (∃ k m0, signDispatch cfg C { me with protectedParams := pp0, aux := aux0 } p0 a0 w0 .null
        = (.ok (.null k), m0, false) ∧
      ∀ n, (k ≤ n → ∃ s m1, signDispatch cfg C { me with protectedParams := pp1, aux := aux1 } p1 a1 w1
          (.room n) = (.ok (.data s), m1, false) ∧ s.length = k) ∧
        (∀ s m1 ub, signDispatch cfg C { me with protectedParams := pp1, aux := aux1 } p1 a1 w1
          (.room n) = (.ok (.data s), m1, ub) → s.length = k)) ∨
    (∃ x m0 ub, signDispatch cfg C { me with protectedParams := pp0, aux := aux0 } p0 a0 w0 .null
        = (.error x, m0, ub)) ∧
      ∀ n, ∃ x m1 ub, signDispatch cfg C { me with protectedParams := pp1, aux := aux1 } p1 a1 w1
          (.room n) = (.error x, m1, ub) := by
  unfold signDispatch
  by_cases hf : hasFlag me.flags optShortCircuit = true
  · have hd : cfg.disableShortCircuit = false := by
      cases hc : cfg.disableShortCircuit with
      | false => rfl
      | true => exact absurd ⟨hf, hc⟩ hpre.sc
    simp only [hd, hf, Bool.not_false, Bool.and_self, if_true]
    unfold signShortCircuit
    simp only []
    rcases createTbsHash_indep hassm.fin (alg := me.alg) p0 a0 w0 p1 a1 w1 with
      ⟨⟨d, _, h0⟩, ⟨d1, hd1, h1⟩⟩ | ⟨⟨x, h0⟩, ⟨x1, h1⟩⟩
    · rw [h0, h1]
      simp only []
      refine .inl ⟨_, _, rfl, fun n => ⟨fun hn => ?_, fun s m1 ub hs => ?_⟩⟩
      · obtain ⟨s, hs1, hs2⟩ := scSign_total hd1.1 rfl hn
        refine ⟨s, ?_⟩
        rw [hs1]
        exact ⟨_, rfl, hs2⟩
      · simp only [Prod.mk.injEq] at hs
        cases hq : scSign me.alg d1 n with
        | error x => rw [hq] at hs; cases hs.1
        | ok s2 =>
          rw [hq] at hs
          have := hs.1
          simp only [Except.map, Except.ok.injEq, UB.data.injEq] at this
          subst this
          have := scSign_len hq
          injection this with this
          exact this.symm
    · rw [h0, h1]
      exact .inr ⟨⟨_, _, _, rfl⟩, fun n => ⟨_, _, _, rfl⟩⟩
  · have hf' : hasFlag me.flags optShortCircuit = false := by simpa using hf
    simp only [hf', Bool.and_false, Bool.false_eq_true, if_false]
    by_cases he : me.alg = algEDDSA
    · have hed : cfg.disableEDDSA = false := by
        have ha := hpre.alg
        simp only [sigAlgSupported, he] at ha
        simpa [algEDDSA, algES256, algES384, algES512, algPS256, algPS384, algPS512] using ha
      obtain ⟨x1, x2, x3, x4⟩ := haux he hf'
      simp only [hed, he, Bool.not_false, beq_self_eq_true, Bool.and_self, if_true]
      unfold signEddsa
      simp only []
      rw [createTbs_run aux0 (x1 ▸ hp0) (x1 ▸ ha0) (x1 ▸ hw0), if_neg (by omega),
        createTbs_run aux1 (x3 ▸ hp1) (x3 ▸ ha1) (x3 ▸ hw1), if_neg (by omega)]
      simp only [x3, Bool.false_eq_true, if_false]
      cases hk : C.sigSize algEDDSA me.key with
      | error x =>
        refine .inr ⟨⟨_, _, _, rfl⟩, fun n => ?_⟩
        cases hq : C.signEddsa me.key (seen false (Spec.sigStructure prot aad w)).bytes n with
        | error x => exact ⟨_, _, _, rfl⟩
        | ok s =>
          have := hexact.eddsa _ _ _ _ hq
          rw [this] at hk; cases hk
      | ok k =>
        refine .inl ⟨k, _, rfl, fun n => ⟨fun hn => ?_, fun s m1 ub hs => ?_⟩⟩
        · obtain ⟨s, hs⟩ := hassm.eddsa he (seen false (Spec.sigStructure prot aad w)).bytes n k
            (by rw [he]; exact hk) hn
          rw [hs]
          have := hexact.eddsa _ _ _ _ hs
          rw [this] at hk
          injection hk with hk
          exact ⟨s, _, rfl, hk⟩
        · simp only [Prod.mk.injEq] at hs
          cases hq : C.signEddsa me.key (seen false (Spec.sigStructure prot aad w)).bytes n with
          | error x => rw [hq] at hs; cases hs.1
          | ok s2 =>
            rw [hq] at hs
            have h3 := hs.1
            simp only [Except.map, Except.ok.injEq, UB.data.injEq] at h3
            subst h3
            have := hexact.eddsa _ _ _ _ hq
            rw [this] at hk
            injection hk
    · have : (me.alg == algEDDSA) = false := by simpa using he
      simp only [this, Bool.and_false, Bool.false_eq_true, if_false]
      unfold signDefault
      simp only []
      rcases createTbsHash_indep hassm.fin (alg := me.alg) p0 a0 w0 p1 a1 w1 with
        ⟨⟨d, _, h0⟩, ⟨d1, hd1, h1⟩⟩ | ⟨⟨x, h0⟩, ⟨x1, h1⟩⟩
      · rw [h0, h1]
        simp only []
        cases hk : C.sigSize me.alg me.key with
        | error x =>
          refine .inr ⟨⟨_, _, _, rfl⟩, fun n => ?_⟩
          cases hq : C.sign me.alg me.key d1 n with
          | error x => exact ⟨_, _, _, rfl⟩
          | ok s =>
            have := hexact.sign _ _ _ _ _ hq
            rw [this] at hk; cases hk
        | ok k =>
          refine .inl ⟨k, _, rfl, fun n => ⟨fun hn => ?_, fun s m1 ub hs => ?_⟩⟩
          · obtain ⟨s, hs⟩ := hassm.sign he d1 n k hd1.2 hk hn
            rw [hs]
            have := hexact.sign _ _ _ _ _ hs
            rw [this] at hk
            injection hk with hk
            exact ⟨s, _, rfl, hk⟩
          · simp only [Prod.mk.injEq] at hs
            cases hq : C.sign me.alg me.key d1 n with
            | error x => rw [hq] at hs; cases hs.1
            | ok s2 =>
              rw [hq] at hs
              have h3 := hs.1
              simp only [Except.map, Except.ok.injEq, UB.data.injEq] at h3
              subst h3
              have := hexact.sign _ _ _ _ _ hq
              rw [this] at hk
              injection hk
      · rw [h0, h1]
        exact .inr ⟨⟨_, _, _, rfl⟩, fun n => ⟨_, _, _, rfl⟩⟩

end TCose
