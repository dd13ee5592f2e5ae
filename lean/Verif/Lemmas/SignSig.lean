import Verif.Lemmas.SignParams

/-! Helper lemmas: `encodeSignatureInternal` against the ideal encoder. -/

namespace TCose
open Enc (PRef Place maxStart)

/-- Place handed to the signing procedure. -/
def placeOf (cap : Nat) (nul : Bool) (len : Nat) : Place :=
  if nul then .null else if cap - len > 0 then .room (cap - len) else .null

/-- The octets `b` as the code sees them: only a length in size mode. -/
def seen (nul : Bool) (b : Bytes) : UB := if nul then .null b.length else .data b

theorem Rel.outPlace_eq {cap : Nat} {nul : Bool} {e : Enc} {a : Ideal} (h : Rel cap nul e a) :
    e.outPlace = placeOf cap nul e.len := by
  have h1 := h.cap_eq
  have h2 := h.nul_eq
  unfold Enc.outPlace placeOf
  cases hm : e.mem with
  | null c => rw [hm] at h2; simp only [Mem.isNull] at h2; subst h2; simp
  | buf m =>
    rw [hm] at h1 h2
    simp only [Mem.isNull, Mem.cap] at h1 h2
    subst h2; subst h1; simp

/-- Shape of what a signing procedure returns: a size iff it got no place. -/
def SigShape (place : Place) (sig : UB) : Prop :=
  match place with
  | .null => ∃ n, sig = .null n
  | .room _ => ∃ s, sig = .data s

theorem signDispatch_shape {cfg : Config} {C : Crypto} {me me' : SignCtx} {prot aad pay : UB}
    {place : Place} {sig : UB} {ub : Bool}
    (h : signDispatch cfg C me prot aad pay place = (.ok sig, me', ub)) :
    SigShape place sig := by
  have hmapN : ∀ (x : Except Err Nat), x.map UB.null = .ok sig → ∃ n, sig = .null n := by
    intro x hx; cases x <;> simp [Except.map] at hx; exact ⟨_, hx.symm⟩
  have hmapD : ∀ (x : Except Err Bytes), x.map UB.data = .ok sig → ∃ n, sig = .data n := by
    intro x hx; cases x <;> simp [Except.map] at hx; exact ⟨_, hx.symm⟩
  unfold signDispatch at h
  split at h
  · simp only [Prod.mk.injEq] at h
    have h := h.1
    unfold signShortCircuit at h
    split at h
    · cases h
    · cases place with
      | null => exact hmapN _ h
      | room n => exact hmapD _ h
  · split at h
    · unfold signEddsa at h
      split at h
      · simp at h
      · simp at h
      · cases place with
        | null => simp only [Prod.mk.injEq] at h; exact hmapN _ h.1
        | room n =>
          simp only [] at h
          split at h
          · simp at h
          · simp only [Prod.mk.injEq] at h; exact hmapD _ h.1
    · simp only [Prod.mk.injEq] at h
      have h := h.1
      unfold signDefault at h
      split at h
      · cases h
      · cases place with
        | null => exact hmapN _ h
        | room n => exact hmapD _ h

/-- The signing procedures touch only `auxSize`. -/
theorem signDispatch_ctx {cfg : Config} {C : Crypto} {me : SignCtx} {prot aad pay : UB}
    {place : Place} :
    (signDispatch cfg C me prot aad pay place).2.1
      = { me with auxSize := (signDispatch cfg C me prot aad pay place).2.1.auxSize } := by
  unfold signDispatch
  split
  · rfl
  · split
    · unfold signEddsa
      split
      · rfl
      · rfl
      · cases place with
        | null => rfl
        | room n => simp only []; split <;> rfl
    · rfl

/-- State of the ideal encoder when the payload element is complete. -/
def readyNest (p : Nat) (ns : List Nest) : List Nest := ⟨.arr, p, 3⟩ :: ns

theorem encSig_tooSmall {cfg : Config} {C : Crypto} {me : SignCtx} {aad dp : UB} {e : Enc}
    (h : (closePayload dp e).1.small = true) :
    encodeSignatureInternal cfg C me aad dp e = (.error .tooSmall, me, (closePayload dp e).1) := by
  unfold encodeSignatureInternal
  simp only [Enc.errState, h, if_true]

theorem encSig_other {cfg : Config} {C : Crypto} {me : SignCtx} {aad dp : UB} {e : Enc} {x : EncErr}
    (h : (closePayload dp e).1.small = false) (hx : (closePayload dp e).1.err = some x) :
    encodeSignatureInternal cfg C me aad dp e
      = (.error .cborFormatting, me, (closePayload dp e).1) := by
  unfold encodeSignatureInternal
  simp only [Enc.errState, h, hx, Bool.false_eq_true, if_false]

/-- Final ideal state of a complete message at nesting `ns`. -/
def finalIdeal (o1 body sig : Bytes) (ns : List Nest) : Ideal :=
  ⟨o1 ++ encodeHead 4 4 ++ (body ++ bstrBytes sig), none, ns⟩

theorem deref_prot {cap : Nat} {nul : Bool} {e : Enc} {a : Ideal} (h : Rel cap nul e a)
    (hs : e.small = false) {o1 pm rest : Bytes} (hl : (encodeHead 2 pm.length).length = 1)
    (ho : a.out = o1 ++ (bstrBytes pm ++ rest)) :
    e.deref (if nul then .null pm.length else .at (o1.length + 1) pm.length) = seen nul pm := by
  cases nul with
  | true => simp [Enc.deref, seen]
  | false =>
    simp only [Bool.false_eq_true, if_false, seen]
    have hlen : a.out.length = o1.length + (1 + pm.length + rest.length) := by
      rw [ho]; simp only [List.length_append, bstrBytes, hl]
    rw [h.deref_slice hs rfl (by omega), ho]
    congr 1
    have : o1 ++ (bstrBytes pm ++ rest) = (o1 ++ encodeHead 2 pm.length) ++ (pm ++ rest) := by
      simp [bstrBytes]
    rw [this, List.drop_append, List.drop_of_length_le (by simp [hl])]
    simp [hl]

theorem encSig_run {cap : Nat} {nul : Bool} {e : Enc} {o1 body pm rest : Bytes} {ns : List Nest}
    (cfg : Config) (C : Crypto) (me : SignCtx) (aad dp pay : UB)
    (hc : (closePayload dp e).2 = pay)
    (h : Rel cap nul (closePayload dp e).1 ⟨o1 ++ body, none, ⟨.arr, o1.length, 3⟩ :: ns⟩)
    (hs : (closePayload dp e).1.small = false) (hd : ns.length ≤ 12)
    (hbody : body = bstrBytes pm ++ rest) (hl : (encodeHead 2 pm.length).length = 1)
    (hpp : me.protectedParams = if nul then .null pm.length else .at (o1.length + 1) pm.length) :
    match signDispatch cfg C me (seen nul pm) aad pay (placeOf cap nul (o1 ++ body).length) with
    | (.error x, me', _) => ∃ e', encodeSignatureInternal cfg C me aad dp e = (.error x, me', e')
    | (.ok sig, me', ub) => ∃ e', encodeSignatureInternal cfg C me aad dp e = (.ok (), me', e') ∧
        ∀ s, Rel.SigSrc cap nul (o1 ++ body).length sig s → ub = false →
          ((o1 ++ body).length < maxStart → Rel cap nul e' (finalIdeal o1 body s ns)) ∧
          (maxStart ≤ (o1 ++ body).length → ∃ a, Rel cap nul e' a ∧ a.err.isSome) := by
  have hlo : LvlOk (⟨.arr, o1.length, 3⟩ :: ns) := ⟨by simp, by simp⟩
  obtain ⟨g1, g2, g3, g4⟩ := h.good hs
  have herr : (closePayload dp e).1.errState = .ok := by
    simp [Enc.errState, hs, g2]
  unfold encodeSignatureInternal
  rw [← hc]
  generalize closePayload dp e = q at h hs hc g1 g2 g3 g4 herr ⊢
  obtain ⟨e1, p1⟩ := q
  simp only [] at h hs hc g1 g2 g3 g4 herr ⊢
  rw [herr]
  simp only [Enc.openBytes]
  have hop := h.openLevel_rel .openB
  have hops : (e1.openLevel .openB).small = false := by rw [Enc.openLevel_small]; exact hs
  have hopl : (e1.openLevel .openB).len = e1.len := by
    rw [(hop.good hops).1, Ideal.openLevel_out, g1]
  have hder : (e1.openLevel .openB).deref me.protectedParams = seen nul pm := by
    rw [hpp]
    exact deref_prot hop hops hl (rest := rest) (by rw [Ideal.openLevel_out, hbody])
  rw [hder, h.outPlace_eq, g1]
  generalize signDispatch cfg C me (seen nul pm) aad p1 (placeOf cap nul (o1 ++ body).length) = r
  obtain ⟨r, me', ub⟩ := r
  cases r with
  | error x => exact ⟨_, rfl⟩
  | ok sig =>
    refine ⟨_, rfl, ?_⟩
    intro s hss hub
    subst hub
    have hubf : (e1.openLevel .openB).ub = false := hop.ub
    have hee : ({ e1.openLevel .openB with ub := (e1.openLevel .openB).ub || false } : Enc)
        = e1.openLevel .openB := by simp
    rw [hee]
    have hput : Rel cap nul (Rel.putSig (e1.openLevel .openB) sig) _ :=
      hop.putSig_rel hops (sig := sig) (s := s) (by rw [hopl, g1]; exact hss)
    have hfin := hput.closeArray_rel
    change (_ → Rel cap nul (Rel.putSig (e1.openLevel .openB) sig).closeArray _) ∧
      (_ → ∃ a, Rel cap nul (Rel.putSig (e1.openLevel .openB) sig).closeArray a ∧ _)
    constructor
    · intro hp
      rw [Ideal.openLevel_ok _ hlo (by simp; omega) hp] at hfin
      have hb : bumpN (⟨.arr, o1.length, 3⟩ :: ns) = ⟨.arr, o1.length, 4⟩ :: ns := rfl
      rw [hb, Ideal.closeBytes] at hfin
      simp only [] at hfin
      rw [Ideal.closeLevel_ok] at hfin
      rw [Ideal.closeArray, List.append_assoc, List.append_assoc, Ideal.closeLevel_ok] at hfin
      simpa [finalIdeal, bstrBytes] using hfin
    · intro hp
      refine ⟨_, hfin, ?_⟩
      have he : ((⟨o1 ++ body, none, ⟨.arr, o1.length, 3⟩ :: ns⟩ : Ideal).openLevel .openB).err
          = some .bufferTooLarge := Ideal.openLevel_big _ hlo hp
      have he2 : (((⟨o1 ++ body, none, ⟨.arr, o1.length, 3⟩ :: ns⟩ : Ideal).openLevel .openB).closeBytes s).err
          = some .bufferTooLarge := by
        rw [Ideal.closeBytes_err (by rw [he]; rfl), he]
      rw [Ideal.closeArray, Ideal.closeLevel_err (by rw [he2]; rfl), he2]
      rfl

end TCose
