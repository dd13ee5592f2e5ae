import Verif.Props.TwoStep
import Verif.Crypto.ToyMsg

/-!
# C54: levels the caller leaves open are noticed

The caller of the two-step API writes the payload with any sequence of encoder
calls.
-/

namespace TCose.Props
open TCose Spec

/-- How a call changes the number of open levels. -/
def EncOp.delta : EncOp → Int
  | .openArray | .openMap | .openWrap => 1
  | .closeArray | .closeMap | .closeWrap => -1
  | _ => 0

/-- Levels opened minus levels closed. -/
def netOpen : List EncOp → Int
  | [] => 0
  | o :: os => o.delta + netOpen os

/-- `e'` came from `e` without an error, with `k` more levels open. -/
def Delta (k : Int) (e e' : Enc) : Prop :=
  e'.err = none → e.err = none ∧ (e'.nest.length : Int) = e.nest.length + k

theorem Delta.trans {j k : Int} {a b c : Enc} (h1 : Delta j a b) (h2 : Delta k b c) :
    Delta (j + k) a c := by
  intro h
  obtain ⟨hb, h3⟩ := h2 h
  obtain ⟨ha, h4⟩ := h1 hb
  exact ⟨ha, by omega⟩

theorem insert_keeps (e : Enc) (s : UB) (p : Nat) :
    (e.insert s p).err = e.err ∧ (e.insert s p).nest = e.nest ∧
    (e.small = true → (e.insert s p).small = true) := by
  unfold Enc.insert
  split
  · exact ⟨rfl, rfl, id⟩
  · split
    · exact ⟨rfl, rfl, fun _ => rfl⟩
    · split
      · exact ⟨rfl, rfl, fun _ => rfl⟩
      · split
        · exact ⟨rfl, rfl, id⟩
        · exact ⟨rfl, rfl, id⟩
        · split <;> exact ⟨rfl, rfl, id⟩

theorem bump_delta (e : Enc) (he : e.err = none) : Delta 0 e e.bump := by
  intro h
  unfold Enc.bump at h ⊢
  split
  · exact ⟨he, by simp⟩
  · rename_i n ns hn
    rw [hn] at h
    simp only at h
    split at h
    · cases h
    · rename_i hc
      rw [if_neg hc]
      exact ⟨he, by simp [hn]⟩

theorem append_keeps (e : Enc) (s : UB) :
    (e.append s).err = e.err ∧ (e.append s).nest = e.nest :=
  ⟨(insert_keeps e s _).1, (insert_keeps e s _).2.1⟩

theorem addItem_delta (e : Enc) (head : Bytes) (c : UB) : Delta 0 e (e.addItem head c) := by
  intro h
  unfold Enc.addItem at h ⊢
  by_cases h1 : e.err.isSome = true
  · rw [if_pos h1] at h; rw [h] at h1; cases h1
  · rw [if_neg h1] at h ⊢
    by_cases h2 : e.inOpenB = true
    · rw [if_pos h2] at h; cases h
    · rw [if_neg h2] at h ⊢
      have ha := append_keeps e (.data head)
      have hb := append_keeps (e.append (.data head)) c
      have he : e.err = none := by simpa using h1
      have := bump_delta ((e.append (.data head)).append c) (by rw [hb.1, ha.1, he]) h
      refine ⟨he, ?_⟩
      rw [this.2, hb.2, ha.2]

theorem addTag_delta (e : Enc) (t : Nat) : Delta 0 e (e.addTag t) := by
  intro h
  unfold Enc.addTag at h ⊢
  by_cases h1 : e.err.isSome = true
  · rw [if_pos h1] at h; rw [h] at h1; cases h1
  · rw [if_neg h1] at h ⊢
    by_cases h2 : e.inOpenB = true
    · rw [if_pos h2] at h; cases h
    · rw [if_neg h2] at h ⊢
      have ha := append_keeps e (.data (encodeHead 6 t))
      exact ⟨by rw [← ha.1]; exact h, by rw [ha.2]; omega⟩

theorem openLevel_delta (e : Enc) (k : NKind) : Delta 1 e (e.openLevel k) := by
  intro h
  unfold Enc.openLevel at h ⊢
  by_cases h1 : e.err.isSome = true
  · rw [if_pos h1] at h; rw [h] at h1; cases h1
  · rw [if_neg h1] at h ⊢
    have he : e.err = none := by simpa using h1
    by_cases h2 : e.inOpenB = true
    · rw [if_pos h2] at h; cases h
    · rw [if_neg h2] at h ⊢
      simp only at h ⊢
      by_cases h3 : e.bump.err.isSome = true
      · rw [if_pos h3] at h; rw [h] at h3; cases h3
      · rw [if_neg h3] at h ⊢
        by_cases h4 : e.bump.len ≥ Enc.maxStart
        · rw [if_pos h4] at h; cases h
        · rw [if_neg h4] at h ⊢
          by_cases h5 : e.bump.nest.length ≥ Enc.maxNesting
          · rw [if_pos h5] at h; cases h
          · rw [if_neg h5] at h ⊢
            have := bump_delta e he (by simpa using h3)
            refine ⟨he, ?_⟩
            simp only [List.length_cons, Int.natCast_add, this.2]
            omega

theorem closeLevel_delta (e : Enc) (k : NKind) (f : Nest → Bytes) :
    Delta (-1) e (e.closeLevel k f) := by
  intro h
  unfold Enc.closeLevel at h ⊢
  by_cases h1 : e.err.isSome = true
  · rw [if_pos h1] at h; rw [h] at h1; cases h1
  · rw [if_neg h1] at h ⊢
    have he : e.err = none := by simpa using h1
    refine ⟨he, ?_⟩
    cases hn : e.nest with
    | nil => rw [hn] at h; cases h
    | cons n ns =>
      rw [hn] at h
      simp only at h ⊢
      by_cases h2 : n.kind ≠ k
      · rw [if_pos h2] at h; cases h
      · rw [if_neg h2]
        simp only [List.length_cons, Int.natCast_add]
        omega

theorem closeLevel_small (e : Enc) (k : NKind) (f : Nest → Bytes) (h : e.small = true) :
    (e.closeLevel k f).small = true := by
  unfold Enc.closeLevel
  split
  · exact h
  · split
    · exact h
    · split
      · exact h
      · exact (insert_keeps e _ _).2.2 h

theorem op_delta (o : EncOp) (e : Enc) : Delta o.delta e (o.run e) := by
  cases o with
  | int i => exact addItem_delta _ _ _
  | uint n => exact addItem_delta _ _ _
  | bytes b => exact addItem_delta _ _ _
  | text b => exact addItem_delta _ _ _
  | raw b => exact addItem_delta _ _ _
  | null => exact addItem_delta _ _ _
  | tag t => exact addTag_delta _ _
  | openArray => exact openLevel_delta _ _
  | closeArray => exact closeLevel_delta _ _ _
  | openMap => exact openLevel_delta _ _
  | closeMap => exact closeLevel_delta _ _ _
  | openWrap => exact openLevel_delta _ _
  | closeWrap => exact closeLevel_delta _ _ _

theorem ops_delta : ∀ (os : List EncOp) (e : Enc), Delta (netOpen os) e (runOps os e)
  | [], e => fun h => ⟨h, by simp [netOpen, runOps]⟩
  | o :: os, e => (op_delta o e).trans (ops_delta os (o.run e))

theorem encodeParameters_delta {cfg : Config} {me me1 : SignCtx} {det : Bool} {e e1 : Enc}
    (h : encodeParametersInternal cfg me det e = (.ok (), me1, e1)) :
    Delta (if det then 1 else 2) e e1 := by
  unfold encodeParametersInternal at h
  split at h
  · cases h
  · simp only at h
    split at h
    · cases h
    · generalize hk : (if hasFlag me.flags optShortCircuit = true ∧ me.kid.isNullOrEmpty = true then
          UB.data shortCircuitKid else me.kid) = kid at h
      generalize he0 : (if hasFlag me.flags optOmitTag = true then e else e.addTag 18) = e0 at h
      have d0 : Delta 0 e e0 := by
        rw [← he0]
        split
        · exact fun h => ⟨h, by simp⟩
        · exact addTag_delta _ _
      have d1 := d0.trans (openLevel_delta e0 .arr)
      have d2 : Delta 0 e0.openArray (encodeProtected me.alg e0.openArray).1 := by
        have a1 := openLevel_delta e0.openArray .bstr
        have a2 := a1.trans (openLevel_delta _ .map)
        have a3 := a2.trans (addItem_delta _ (Enc.intHead 1) .nil)
        have a4 := a3.trans (addItem_delta _ (Enc.intHead me.alg) .nil)
        have a5 := a4.trans (closeLevel_delta _ .map fun n => encodeHead 5 (n.count / 2))
        exact a5.trans (closeLevel_delta _ .bstr _)
      have d3 := d1.trans d2
      generalize hu : addUnprotected cfg { me with
        protectedParams := (encodeProtected me.alg e0.openArray).2 } kid
          (encodeProtected me.alg e0.openArray).1 = y at h
      obtain ⟨r, e2⟩ := y
      cases r with
      | error x => cases h
      | ok u =>
        have d4 : Delta 0 (encodeProtected me.alg e0.openArray).1 e2 := by
          generalize (encodeProtected me.alg e0.openArray).1 = e3 at hu
          unfold addUnprotected at hu
          simp only at hu
          generalize he4 : (if kid.isNullOrEmpty = true then e3.openMap
            else (e3.openMap.addInt 4).addBytes kid) = e4 at hu
          have c1 : Delta 1 e3 e4 := by
            rw [← he4]
            split
            · exact openLevel_delta _ _
            · exact ((openLevel_delta e3 .map).trans (addItem_delta _ (Enc.intHead 4) .nil)).trans
                (addItem_delta _ _ _)
          have cl : ∀ f : Enc, Delta (-1) f f.closeMap := fun f => closeLevel_delta f _ _
          split at hu
          · simp only [Prod.mk.injEq, true_and] at hu
            subst hu
            exact c1.trans (cl _)
          · split at hu
            · cases hu
            · simp only [Prod.mk.injEq, true_and] at hu
              subst hu
              have c2 : Delta 1 e3 (if me.contentTypeUint ≠ emptyContentType then
                  (e4.addInt 3).addUInt me.contentTypeUint else e4) := by
                split
                · exact (c1.trans (addItem_delta _ (Enc.intHead 3) .nil)).trans (addItem_delta _ _ _)
                · exact c1
              refine Delta.trans (j := 1) ?_ (cl _)
              cases me.contentTypeTstr with
              | none => exact c2
              | some t =>
                exact (c2.trans (addItem_delta _ (Enc.intHead 3) .nil)).trans (addItem_delta _ _ _)
        simp only [Prod.mk.injEq, true_and] at h
        obtain ⟨-, rfl⟩ := h
        have d5 := d3.trans d4
        cases det with
        | true => exact d5
        | false => exact d5.trans (openLevel_delta _ .bstr)

theorem encodeSignature_delta {cfg : Config} {C : Crypto} {me me1 : SignCtx} {aad det : UB}
    {e e1 : Enc} (h : encodeSignatureInternal cfg C me aad det e = (.ok (), me1, e1))
    (hs : e1.small = false) : Delta (if det.isNull then -2 else -1) e e1 := by
  unfold encodeSignatureInternal at h
  simp only at h
  generalize hcp : closePayload det e = y at h
  obtain ⟨e0, pay⟩ := y
  have d0 : Delta (if det.isNull then -1 else 0) e e0 := by
    unfold closePayload at hcp
    split at hcp
    · rename_i hd
      simp only [Prod.mk.injEq] at hcp
      rw [if_pos hd, ← hcp.1]
      exact closeLevel_delta _ _ _
    · rename_i hd
      simp only [Prod.mk.injEq] at hcp
      rw [if_neg hd, ← hcp.1]
      exact fun h => ⟨h, by simp⟩
  simp only at h
  cases hes : e0.errState with
  | tooSmall => rw [hes] at h; cases h
  | other x => rw [hes] at h; cases h
  | ok =>
    rw [hes] at h
    simp only [Enc.openBytes] at h
    have d1 := d0.trans (openLevel_delta e0 .openB)
    generalize e0.openLevel .openB = e2 at h d1
    generalize signDispatch cfg C me (e2.deref me.protectedParams) aad pay e0.outPlace = z at h
    obtain ⟨r, me2, ub⟩ := z
    cases r with
    | error x => cases h
    | ok sig =>
      simp only [Prod.mk.injEq, true_and] at h
      obtain ⟨-, rfl⟩ := h
      have fin : ∀ e3 : Enc, e3.err = e2.err → e3.nest = e2.nest →
          ((e3.closeBytes sig.len).closeArray).small = false →
          Delta (if det.isNull then -2 else -1) e (e3.closeBytes sig.len).closeArray := by
        intro e3 h3e h3n hs
        have d3 : Delta (if det.isNull then 0 else 1) e e3 := by
          intro h
          rw [h3e] at h
          obtain ⟨h1, h2⟩ := d1 h
          refine ⟨h1, ?_⟩
          rw [h3n, h2]
          split <;> omega
        have had : (e3.advance sig.len).err = e3.err ∧ (e3.advance sig.len).nest = e3.nest := by
          unfold Enc.advance
          split
          · exact ⟨rfl, rfl⟩
          · split <;> exact ⟨rfl, rfl⟩
        have d4 : Delta (if det.isNull then 0 else 1) e (e3.advance sig.len) := by
          intro h
          rw [had.1] at h
          rw [had.2]
          exact d3 h
        unfold Enc.closeBytes at hs ⊢
        simp only at hs ⊢
        by_cases hsm : (e3.advance sig.len).small = true
        · rw [if_pos hsm] at hs
          have := closeLevel_small (e3.advance sig.len) .arr (fun n => encodeHead 4 n.count) hsm
          rw [Enc.closeArray, this] at hs
          cases hs
        · rw [if_neg hsm]
          have d5 := d4.trans (closeLevel_delta (e3.advance sig.len) .openB
            fun _ => encodeHead 2 sig.len)
          have d6 := d5.trans (closeLevel_delta _ .arr fun n => encodeHead 4 n.count)
          intro h
          obtain ⟨h1, h2⟩ := d6 h
          refine ⟨h1, ?_⟩
          rw [Enc.closeArray, h2]
          split <;> omega
      cases sig with
      | null n => exact fin _ rfl rfl hs
      | data s =>
        have hw : (({ e2 with ub := e2.ub || ub } : Enc).writePlace s).err = e2.err ∧
            (({ e2 with ub := e2.ub || ub } : Enc).writePlace s).nest = e2.nest := by
          unfold Enc.writePlace
          split
          · exact ⟨rfl, rfl⟩
          · split <;> exact ⟨rfl, rfl⟩
        exact fin _ hw.1 hw.2 hs

/-- The documented calling sequence with any encoder calls for the payload. -/
def twoStepOps (cfg : Config) (C : Crypto) (me : SignCtx) (aad : UB) (os : List EncOp)
    (out : Mem) : Except Err UB :=
  match sign1EncodeParameters cfg me (Enc.init out) with
  | (.error x, _, _) => .error x
  | (.ok (), me, e) =>
    match sign1EncodeSignatureAad cfg C me aad (runOps os e) with
    | (.error x, _, _) => .error x
    | (.ok (), _, e) => callerFinish e

/-- **C54.** If the two-step sequence succeeds, then the caller's calls for the
payload closed exactly as many levels as they opened: an array, map or wrapping left
open, or one closed too many, is always reported as an error, for every adapter,
context, payload and output buffer (real or for size calculation). -/
theorem C54_levels_balanced (cfg : Config) (C : Crypto) (me : SignCtx) (aad : UB)
    (os : List EncOp) (out : Mem) (r : UB) (h : twoStepOps cfg C me aad os out = .ok r) :
    netOpen os = 0 := by
  unfold twoStepOps at h
  cases hp : sign1EncodeParameters cfg me (Enc.init out) with
  | mk r1 y =>
    obtain ⟨me1, e1⟩ := y
    rw [hp] at h
    cases r1 with
    | error x => cases h
    | ok u =>
      simp only at h
      cases hsg : sign1EncodeSignatureAad cfg C me1 aad (runOps os e1) with
      | mk r2 y =>
        obtain ⟨me2, e2⟩ := y
        rw [hsg] at h
        cases r2 with
        | error x => cases h
        | ok u =>
          simp only at h
          have hst : e2.small = false ∧ e2.err = none ∧ e2.nest = [] := by
            unfold callerFinish at h
            cases hes : e2.errState with
            | tooSmall => rw [hes] at h; cases h
            | other x => rw [hes] at h; cases h
            | ok =>
              rw [hes] at h
              simp only [Enc.finish, hes] at h
              have hse : e2.small = false ∧ e2.err = none := by
                unfold Enc.errState at hes
                split at hes
                · cases hes
                · rename_i hsm
                  refine ⟨by simpa using hsm, ?_⟩
                  cases he : e2.err with
                  | none => rfl
                  | some x => rw [he] at hes; cases hes
              refine ⟨hse.1, hse.2, ?_⟩
              by_cases hn : e2.nest.isEmpty = true
              · simpa using hn
              · rw [if_neg hn] at h; cases h
          have d1 := encodeParameters_delta hp
          have d3 := encodeSignature_delta hsg hst.1
          have := ((d1.trans (ops_delta os e1)).trans d3) hst.2.1
          rw [hst.2.2] at this
          simp [Enc.init, UB.isNull] at this
          omega

example :
    netOpen [.openMap, .int 1, .openArray, .null, .closeArray, .closeMap] = 0 ∧
    (twoStepOps Config.full toyCrypto (SignCtx.init 0 algES256) .nil
      [.openMap, .int 1, .openArray, .null, .closeArray, .closeMap]
      (.buf (List.replicate 200 0))).toBool = true ∧
    twoStepOps Config.full toyCrypto (SignCtx.init 0 algES256) .nil
      [.openMap, .int 1, .openArray, .null, .closeArray] (.buf (List.replicate 200 0))
        = .error .cborFormatting ∧
    twoStepOps Config.full toyCrypto (SignCtx.init 0 algES256) .nil
      [.openWrap, .int 1] (.buf (List.replicate 200 0)) = .error .cborFormatting := by
  decide +kernel

/-- The limit of that check: a caller that closes the wrapping t_cose opened, and
opens another, is told nothing.  The output is an array of six, with another payload
than the one signed, and verification refuses it. -/
theorem C54_limit : ∃ os m, netOpen os = 0 ∧
    twoStepOps Config.full toyCrypto (SignCtx.init 0 algES256) .nil os
      (.buf (List.replicate 200 0)) = .ok (.data m) ∧
    m.take 2 = [0xd2, 0x86] ∧ (toyVerify 0 m).res = .error .sign1Format := by
  refine ⟨[.int 7, .closeWrap, .int 1, .openWrap], [0xd2, 0x86, 0x43, 0xa1, 0x01, 0x26, 0xa0,
    0x41, 0x07, 0x01, 0x40, 0x58, 0x40] ++ List.replicate 32 234 ++ List.replicate 32 90, ?_⟩
  decide +kernel

end TCose.Props
