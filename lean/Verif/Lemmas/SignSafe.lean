import Verif.Lemmas.SignSize

/-! Helper lemmas: memory safety of signing in every outcome. -/

namespace TCose
open Enc (PRef Place maxStart)

/-- The encoder stays inside its storage and nothing undefined has happened. -/
structure Safe (cap : Nat) (nul : Bool) (e : Enc) : Prop where
  cap_eq : e.mem.cap = cap
  nul_eq : e.mem.isNull = nul
  ub : e.ub = false
  le : e.len ≤ cap

/-- A source that is fine to copy into storage of kind `nul`. -/
def SrcOk (nul : Bool) (s : UB) : Prop := nul = true ∨ s.wf

theorem SrcOk.data (nul : Bool) (b : Bytes) : SrcOk nul (.data b) := .inr rfl
theorem SrcOk.nil (nul : Bool) : SrcOk nul .nil := .inr rfl
theorem SrcOk.src {nul : Bool} {s : UB} (h : SrcOk nul s) : ∃ b, Src nul s b := by
  rcases h with rfl | h
  · cases s with
    | data b => exact ⟨b, .inl rfl⟩
    | null n => exact ⟨List.replicate n 0, .inr ⟨.inl rfl, by simp [UB.len]⟩⟩
  · exact ⟨_, UB.wf_src h nul⟩

namespace Safe
variable {cap : Nat} {nul : Bool} {e : Enc}

theorem of_eq (h : Safe cap nul e) {e' : Enc} (h1 : e'.mem = e.mem) (h2 : e'.len = e.len)
    (h3 : e'.ub = e.ub) : Safe cap nul e' :=
  ⟨h1 ▸ h.cap_eq, h1 ▸ h.nul_eq, h3 ▸ h.ub, h2 ▸ h.le⟩

theorem insert (h : Safe cap nul e) {s : UB} (hs : SrcOk nul s) (pos : Nat) :
    Safe cap nul (e.insert s pos) := by
  unfold Enc.insert
  split
  · exact h
  · split
    · exact h.of_eq rfl rfl rfl
    · split
      · exact h.of_eq rfl rfl rfl
      · rename_i h1 h2 h3
        have hc := h.cap_eq
        have hn := h.nul_eq
        have hl := h.le
        cases hm : e.mem with
        | null c =>
          rw [hm] at hc hn
          simp only []
          refine ⟨hc, hn, h.ub, ?_⟩
          rw [hm] at h2; simp only [Mem.cap] at h2 hc; simp only; omega
        | buf m =>
          rw [hm] at hc hn h2
          simp only [Mem.cap, Mem.isNull] at hc hn h2
          cases s with
          | data b =>
            simp only [UB.len] at h2
            refine ⟨?_, hn, h.ub, ?_⟩
            · simp only [Mem.cap]
              rw [Enc.insertMem_length (by omega) (by omega)]; exact hc
            · simp only; omega
          | null n =>
            have : n = 0 := by
              rcases hs with hs | hs
              · rw [hs] at hn; cases hn
              · simpa [UB.wf, UB.len, UB.bytes] using hs
            simp only [this, if_true]
            exact h

theorem bump (h : Safe cap nul e) : Safe cap nul e.bump := by
  unfold Enc.bump
  split
  · exact h
  · split <;> exact h.of_eq rfl rfl rfl

theorem addItem (h : Safe cap nul e) (head : Bytes) {s : UB} (hs : SrcOk nul s) :
    Safe cap nul (e.addItem head s) := by
  unfold Enc.addItem
  split
  · exact h
  · split
    · exact h.of_eq rfl rfl rfl
    · exact ((h.insert (.data _ _) _).insert hs _).bump

theorem addTag (h : Safe cap nul e) (t : Nat) : Safe cap nul (e.addTag t) := by
  unfold Enc.addTag
  split
  · exact h
  · split
    · exact h.of_eq rfl rfl rfl
    · exact h.insert (.data _ _) _

theorem openLevel (h : Safe cap nul e) (k : NKind) : Safe cap nul (e.openLevel k) := by
  unfold Enc.openLevel
  split
  · exact h
  · split
    · exact h.of_eq rfl rfl rfl
    · simp only []
      have := h.bump
      repeat' split
      all_goals first | exact this | exact this.of_eq rfl rfl rfl

theorem closeLevel (h : Safe cap nul e) (k : NKind) (f : Nest → Bytes) :
    Safe cap nul (e.closeLevel k f) := by
  unfold Enc.closeLevel
  split
  · exact h
  · split
    · exact h.of_eq rfl rfl rfl
    · split
      · exact h.of_eq rfl rfl rfl
      · exact (h.insert (.data _ _) _).of_eq rfl rfl rfl

theorem writePlace (h : Safe cap nul e) {s : Bytes} (hs : s.length ≤ cap - e.len) :
    Safe cap nul (e.writePlace s) := by
  unfold Enc.writePlace
  have hc := h.cap_eq
  have hn := h.nul_eq
  have hl := h.le
  cases hm : e.mem with
  | null c => exact h
  | buf m =>
    rw [hm] at hc hn
    simp only [Mem.cap] at hc
    simp only []
    rw [if_neg (by omega)]
    refine ⟨?_, hn, h.ub, hl⟩
    simp only [Mem.cap, List.length_append, List.length_take, List.length_drop]
    omega

theorem advance (h : Safe cap nul e) (n : Nat) : Safe cap nul (e.advance n) := by
  unfold Enc.advance
  have hc := h.cap_eq
  have hl := h.le
  split
  · exact h
  · split
    · exact h.of_eq rfl rfl rfl
    · exact ⟨h.cap_eq, h.nul_eq, h.ub, by simp only; omega⟩

theorem closeBytes (h : Safe cap nul e) (n : Nat) : Safe cap nul (e.closeBytes n) := by
  unfold Enc.closeBytes
  simp only []
  split
  · exact h.advance n
  · exact (h.advance n).closeLevel _ _

theorem init (m : Mem) : Safe m.cap m.isNull (Enc.init m) := ⟨rfl, rfl, rfl, Nat.zero_le _⟩

/-- A reference held into the output is readable. -/
theorem deref_ok (h : Safe cap nul e) {pp : PRef} (hp : nul = true ∨ ∀ n, pp = .null n → n = 0) :
    nul = true ∨ (e.deref pp).wf := by
  cases nul with
  | true => exact .inl rfl
  | false =>
    right
    have hn := h.nul_eq
    unfold Enc.deref
    cases pp with
    | null n =>
      rcases hp with hp | hp
      · cases hp
      · rw [hp n rfl]; exact rfl
    | «at» o n =>
      cases hm : e.mem with
      | null c => rw [hm] at hn; cases hn
      | buf m => exact rfl

theorem outTail_ok (h : Safe cap nul e) (s : Nat) :
    nul = true ∨ ∀ n, e.outTail s = .null n → n = 0 := by
  cases nul with
  | true => exact .inl rfl
  | false =>
    right
    intro n hn
    have hnu := h.nul_eq
    unfold Enc.outTail at hn
    split at hn
    · injection hn with hn; exact hn.symm
    · split at hn
      · injection hn with hn; exact hn.symm
      · cases hm : e.mem with
        | null c => rw [hm] at hnu; cases hnu
        | buf m => rw [hm] at hn; cases hn

theorem encodeProtected (h : Safe cap nul e) (alg : Int) :
    Safe cap nul (TCose.encodeProtected alg e).1 ∧
      (nul = true ∨ ∀ n, (TCose.encodeProtected alg e).2 = .null n → n = 0) := by
  have h1 : Safe cap nul (((((e.bstrWrap).openMap).addInt 1).addInt alg).closeMap) :=
    ((((h.openLevel _).openLevel _).addItem _ (.nil _)).addItem _ (.nil _)).closeLevel _ _
  have h2 := h1.closeLevel .bstr fun n => encodeHead 2
    ((((((e.bstrWrap).openMap).addInt 1).addInt alg).closeMap).len - n.start)
  exact ⟨h2, h2.outTail_ok _⟩

theorem addUnprotected (h : Safe cap nul e) (cfg : Config) (me : SignCtx) (kid : UB) :
    Safe cap nul (TCose.addUnprotected cfg me kid e).2 := by
  unfold TCose.addUnprotected
  have h0 : Safe cap nul (if kid.isNullOrEmpty then e.openMap else (e.openMap.addInt 4).addBytes kid) := by
    split
    · exact h.openLevel _
    · rename_i hk
      refine ((h.openLevel _).addItem _ (.nil _)).addItem _ ?_
      cases kid with
      | data b => exact .data _ _
      | null n => simp [UB.isNullOrEmpty] at hk
  simp only []
  generalize (if kid.isNullOrEmpty then e.openMap else (e.openMap.addInt 4).addBytes kid) = e1 at h0 ⊢
  split
  · exact h0.closeLevel _ _
  · split
    · exact h0
    · have h1 : Safe cap nul (if me.contentTypeUint ≠ emptyContentType then
          (e1.addInt 3).addUInt me.contentTypeUint else e1) := by
        split
        · exact (h0.addItem _ (.nil _)).addItem _ (.nil _)
        · exact h0
      generalize (if me.contentTypeUint ≠ emptyContentType then
          (e1.addInt 3).addUInt me.contentTypeUint else e1) = e2 at h1 ⊢
      cases me.contentTypeTstr with
      | none => exact h1.closeLevel _ _
      | some t => exact ((h1.addItem _ (.nil _)).addItem _ (.data _ _)).closeLevel _ _

theorem params (h : Safe cap nul e) (cfg : Config) (me : SignCtx) (det : Bool) :
    Safe cap nul (encodeParametersInternal cfg me det e).2.2 ∧
    ((encodeParametersInternal cfg me det e).1 = .ok () →
      ∃ pp, (encodeParametersInternal cfg me det e).2.1 = { me with protectedParams := pp } ∧
      (nul = true ∨ ∀ n, pp = .null n → n = 0)) := by
  unfold encodeParametersInternal
  split
  · exact ⟨h, fun hh => by cases hh⟩
  · simp only []
    have h0 : Safe cap nul (if hasFlag me.flags optOmitTag then e else e.addTag 18) := by
      split
      · exact h
      · exact h.addTag _
    generalize (if hasFlag me.flags optOmitTag then e else e.addTag 18) = e0 at h0 ⊢
    obtain ⟨h1, h2⟩ := (h0.openLevel .arr).encodeProtected me.alg
    change Safe cap nul (TCose.encodeProtected me.alg e0.openArray).1 at h1
    change nul = true ∨ ∀ n, (TCose.encodeProtected me.alg e0.openArray).2 = .null n → n = 0 at h2
    generalize TCose.encodeProtected me.alg e0.openArray = q at h1 h2 ⊢
    obtain ⟨e1, pp⟩ := q
    simp only [] at h1 h2 ⊢
    split
    · exact ⟨h1, fun hh => by cases hh⟩
    · have h3 := fun me' kid => h1.addUnprotected cfg me' kid
      specialize h3 { me with protectedParams := pp }
        (if hasFlag me.flags optShortCircuit = true ∧ me.kid.isNullOrEmpty = true then
          UB.data shortCircuitKid else me.kid)
      generalize TCose.addUnprotected cfg { me with protectedParams := pp }
        (if hasFlag me.flags optShortCircuit = true ∧ me.kid.isNullOrEmpty = true then
          UB.data shortCircuitKid else me.kid) e1 = q at h3 ⊢
      obtain ⟨r, e2⟩ := q
      cases r with
      | error x => exact ⟨h3, fun hh => by cases hh⟩
      | ok u =>
        simp only [] at h3 ⊢
        refine ⟨?_, fun _ => ⟨pp, rfl, h2⟩⟩
        split
        · exact h3
        · exact h3.openLevel _

end Safe

theorem signDispatch_fits {cfg : Config} {C : Crypto} (hfit : Spec.SignFits C) {me me' : SignCtx}
    {p a w : UB} {n : Nat} {s : Bytes} {ub : Bool}
    (h : signDispatch cfg C me p a w (.room n) = (.ok (.data s), me', ub)) : s.length ≤ n := by
  unfold signDispatch at h
  split at h
  · simp only [Prod.mk.injEq] at h
    have h := h.1
    unfold signShortCircuit at h
    split at h
    · cases h
    · simp only [] at h
      rename_i hash _
      cases hq : scSign me.alg hash n with
      | error x => rw [hq] at h; cases h
      | ok s2 =>
        rw [hq] at h
        simp only [Except.map, Except.ok.injEq, UB.data.injEq] at h
        subst h; exact scSign_fits hq
  · split at h
    · unfold signEddsa at h
      split at h
      · simp at h
      · simp at h
      · simp only [] at h
        split at h
        · simp at h
        · simp only [Prod.mk.injEq] at h
          have h := h.1
          rename_i tbs _ _ _ _
          cases hq : C.signEddsa me.key tbs.bytes n with
          | error x => rw [hq] at h; cases h
          | ok s2 =>
            rw [hq] at h
            simp only [Except.map, Except.ok.injEq, UB.data.injEq] at h
            subst h; exact hfit.eddsa _ _ _ _ hq
    · simp only [Prod.mk.injEq] at h
      have h := h.1
      unfold signDefault at h
      split at h
      · cases h
      · simp only [] at h
        rename_i hash _
        cases hq : C.sign me.alg me.key hash n with
        | error x => rw [hq] at h; cases h
        | ok s2 =>
          rw [hq] at h
          simp only [Except.map, Except.ok.injEq, UB.data.injEq] at h
          subst h; exact hfit.sign _ _ _ _ _ hq

/-- EdDSA is the procedure that runs, and it has a real auxiliary buffer. -/
def EddsaCopies (me : SignCtx) : Prop :=
  me.alg = algEDDSA ∧ Spec.Opt.shortCircuit me.flags = false ∧ me.aux.isNull = false

theorem signDispatch_ub' {cfg : Config} {C : Crypto} {me : SignCtx} {p a w : UB}
    (hsc : ¬ (hasFlag me.flags optShortCircuit = true ∧ cfg.disableShortCircuit = true))
    (h : EddsaCopies me → p.wf ∧ a.wf ∧ w.wf) (place : Place) :
    (signDispatch cfg C me p a w place).2.2 = false := by
  by_cases hc : EddsaCopies me
  · obtain ⟨h1, h2, h3⟩ := h hc
    exact signDispatch_ub (UB.wf_src h1 _) (UB.wf_src h2 _) (UB.wf_src h3 _) place
  · by_cases hn : me.aux.isNull = true
    · have : ∀ u : UB, ∃ b, Src me.aux.isNull u b := fun u => by
        rw [hn]; exact SrcOk.src (.inl rfl)
      obtain ⟨b1, h1⟩ := this p
      obtain ⟨b2, h2⟩ := this a
      obtain ⟨b3, h3⟩ := this w
      exact signDispatch_ub h1 h2 h3 place
    · have hn : me.aux.isNull = false := by simpa using hn
      unfold signDispatch
      split
      · rfl
      · rename_i hs
        split
        · rename_i he
          simp only [Bool.and_eq_true, Bool.not_eq_eq_eq_not, Bool.not_true, beq_iff_eq] at he hs
          exfalso
          apply hc
          refine ⟨he.2, ?_, hn⟩
          rw [opt_shortCircuit]
          cases hf : hasFlag me.flags optShortCircuit with
          | false => rfl
          | true =>
            cases hd : cfg.disableShortCircuit with
            | true => exact absurd ⟨hf, hd⟩ hsc
            | false => exact absurd ⟨hd, hf⟩ hs
        · rfl

/-- Signing never leaves its storage: every outcome. -/
theorem encSig_safe {cap : Nat} {nul : Bool} {e : Enc} {cfg : Config} {C : Crypto} {me : SignCtx}
    {aad dp : UB} (h : Safe cap nul e) (hfit : Spec.SignFits C)
    (hsc : ¬ (hasFlag me.flags optShortCircuit = true ∧ cfg.disableShortCircuit = true))
    (hpp : nul = true ∨ ∀ n, me.protectedParams = .null n → n = 0)
    (hdis : EddsaCopies me → nul = false ∧ aad.wf) :
    Safe cap nul (encodeSignatureInternal cfg C me aad dp e).2.2 := by
  unfold encodeSignatureInternal
  have h1 : Safe cap nul (closePayload dp e).1 := by
    unfold closePayload
    split
    · exact h.closeLevel _ _
    · exact h
  have h2 : nul = true ∨ (closePayload dp e).2.wf := by
    unfold closePayload
    cases dp with
    | data b => exact .inr rfl
    | null n =>
      have hc : Safe cap nul e.closeBstrWrap2.1 := h.closeLevel _ _
      exact hc.deref_ok (hc.outTail_ok _)
  generalize closePayload dp e = q at h1 h2 ⊢
  obtain ⟨e1, pay⟩ := q
  simp only [] at h1 h2 ⊢
  cases e1.errState with
  | tooSmall => exact h1
  | other x => exact h1
  | ok =>
    simp only []
    have h3 : Safe cap nul e1.openBytes.1 := h1.openLevel _
    have hplace : e1.openBytes.2 = e1.outPlace := rfl
    have hlen : e1.openBytes.1.len = e1.len := by
      change (e1.openLevel .openB).len = _
      have hb : e1.bump.len = e1.len := by
        unfold Enc.bump; repeat' split
        all_goals rfl
      unfold Enc.openLevel; simp only []; repeat' split
      all_goals first | rfl | exact hb
    have h4 := h3.deref_ok hpp
    generalize e1.openBytes = q at h3 hplace hlen h4 ⊢
    obtain ⟨e2, place⟩ := q
    simp only [] at h3 hplace hlen h4 ⊢
    have hub := signDispatch_ub' (cfg := cfg) (C := C) (me := me)
      (p := e2.deref me.protectedParams) (a := aad) (w := pay) hsc
      (fun hc => by
        obtain ⟨x1, x2⟩ := hdis hc
        rcases h4 with h4 | h4
        · rw [x1] at h4; cases h4
        · rcases h2 with h2 | h2
          · rw [x1] at h2; cases h2
          · exact ⟨h4, x2, h2⟩) place
    have hsh := fun sig me' ub =>
      @signDispatch_shape cfg C me me' (e2.deref me.protectedParams) aad pay place sig ub
    have hfits := fun s me' ub n =>
      @signDispatch_fits cfg C hfit me me' (e2.deref me.protectedParams) aad pay n s ub
    generalize hq : signDispatch cfg C me (e2.deref me.protectedParams) aad pay place = q at hub hsh
    obtain ⟨r, me', ub⟩ := q
    simp only [] at hub
    subst hub
    have h5 : Safe cap nul { e2 with ub := e2.ub || false } := h3.of_eq rfl rfl (by simp)
    cases r with
    | error x => exact h5
    | ok sig =>
      simp only []
      refine Safe.closeLevel (Safe.closeBytes ?_ _) _ _
      cases sig with
      | null n => exact h5
      | data s =>
        refine h5.writePlace ?_
        have hs := hsh _ _ _ rfl
        simp only [hlen]
        unfold SigShape at hs
        cases hpl : place with
        | null => rw [hpl] at hs; simp at hs
        | room n =>
          rw [hpl] at hq hplace
          have := hfits s me' false n hq
          unfold Enc.outPlace at hplace
          have hc := h1.cap_eq
          cases hm : e1.mem with
          | null c => rw [hm] at hplace; cases hplace
          | buf m =>
            rw [hm] at hplace hc
            simp only [Mem.cap] at hc
            simp only [] at hplace
            split at hplace
            · injection hplace with hpl2
              omega
            · cases hplace

theorem sign_safe {cfg : Config} {C : Crypto} {me : SignCtx} {det : Bool} {payload aad : UB}
    {out : Mem} (hfit : Spec.SignFits C)
    (hpay : out.isNull = true ∨ payload.wf)
    (hdis : EddsaCopies me → out.isNull = false ∧ aad.wf) :
    Safe out.cap out.isNull (signAadInternal cfg C me det payload aad out).2.2 := by
  unfold signAadInternal
  obtain ⟨h1, h2⟩ := (Safe.init out).params cfg me det
  have hsc : (encodeParametersInternal cfg me det (Enc.init out)).1 = .ok () →
      ¬ (hasFlag me.flags optShortCircuit = true ∧ cfg.disableShortCircuit = true) :=
    fun hh => (params_ok_pre hh).sc
  generalize encodeParametersInternal cfg me det (Enc.init out) = q at h1 h2 hsc ⊢
  obtain ⟨r, me1, e1⟩ := q
  simp only [] at h1 h2 hsc
  cases r with
  | error x => exact h1
  | ok u =>
    simp only []
    obtain ⟨pp, hme, hpp⟩ := h2 rfl
    subst hme
    have h3 : Safe out.cap out.isNull (if det then e1.addNull else e1.addEncoded payload) := by
      split
      · exact h1.addItem _ (.nil _)
      · exact h1.addItem _ hpay
    have h4 := encSig_safe (cfg := cfg) (C := C) (me := { me with protectedParams := pp })
      (aad := aad) (dp := if det then payload else .nil) h3 hfit (hsc rfl) hpp hdis
    generalize encodeSignatureInternal cfg C { me with protectedParams := pp } aad
      (if det then payload else .nil) (if det then e1.addNull else e1.addEncoded payload) = q at h4 ⊢
    obtain ⟨r, me2, e2⟩ := q
    simp only [] at h4
    cases r with
    | error x => exact h4
    | ok u =>
      simp only []
      cases e2.errState with
      | tooSmall => exact h4
      | other x => exact h4
      | ok =>
        simp only []
        cases e2.finish with
        | ok r => exact h4
        | error x => exact h4

end TCose
