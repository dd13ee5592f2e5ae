import Verif.TestCode.MakeMessages
import Verif.Lemmas.SignMain

/-! Helper lemmas: the test suite's signer against the ideal encoder. -/

namespace TCose
open Enc (PRef Place maxStart)

namespace Ideal

def addHead (a : Ideal) (h : Bytes) : Ideal :=
  if a.err.isSome then a
  else if a.inOpenB then { a with err := some .openByteString }
  else { a with out := a.out ++ h }

def closeIndef (a : Ideal) (k : NKind) : Ideal :=
  if a.err.isSome then a
  else
    match a.nest with
    | [] => { a with err := some .tooManyCloses }
    | n :: ns =>
      if n.kind ≠ k then { a with err := some .closeMismatch }
      else { a with out := a.out ++ [0xff], nest := ns }

def openArrayIndef (a : Ideal) : Ideal := (a.addHead [0x9f]).openLevel .arrI
def openMapIndef (a : Ideal) : Ideal := (a.addHead [0xbf]).openLevel .mapI
def closeArrayIndef (a : Ideal) : Ideal := a.closeIndef .arrI
def closeMapIndef (a : Ideal) : Ideal := a.closeIndef .mapI
def addBool (a : Ideal) (b : Bool) : Ideal := a.addItem [if b then 0xf5 else 0xf4] []

theorem addHead_len (a : Ideal) (t : Bytes) : a.out.length ≤ (a.addHead t).out.length := by
  unfold addHead; repeat' split
  all_goals simp

theorem addHead_inv {a : Ideal} (h : a.Inv) (t : Bytes) : (a.addHead t).Inv := by
  unfold addHead; repeat' split
  · exact h
  · exact h
  · exact Sorted.mono h (by simp)

theorem closeIndef_len (a : Ideal) (k : NKind) : a.out.length ≤ (a.closeIndef k).out.length := by
  unfold closeIndef; repeat' split
  all_goals simp

theorem closeIndef_inv {a : Ideal} (h : a.Inv) (k : NKind) : (a.closeIndef k).Inv := by
  unfold closeIndef; repeat' split
  · exact h
  · exact h
  · exact h
  · rename_i n ns hn _
    unfold Inv at h ⊢
    rw [hn] at h
    exact Sorted.mono h.2 (by simp; have := h.1; omega)

end Ideal

namespace Rel
open Enc
variable {cap : Nat} {nul : Bool} {e : Enc} {a : Ideal}

theorem addHead_rel (h : Rel cap nul e a) (t : Bytes) :
    Rel cap nul (e.addHead t) (a.addHead t) := by
  have hi := Ideal.addHead_inv h.inv t
  have hl := Ideal.addHead_len a t
  by_cases hsm : e.small = true
  · refine of_small h hsm ?_ ?_ ?_ ?_ hi hl
    all_goals unfold Enc.addHead
    all_goals rw [append_small_mono e _ hsm]
    all_goals repeat' split
    all_goals first | rfl | exact hsm
  · have hsm : e.small = false := by simpa using hsm
    unfold Enc.addHead Ideal.addHead
    rw [inOpenB_eq h hsm, (h.good hsm).2.1]
    split
    · exact h
    · split
      · obtain ⟨g1, g2, g3, g4⟩ := h.good hsm
        exact of_good h hsm rfl rfl hsm rfl h.inv rfl rfl g3
      · exact append_rel h (Src.data nul _)

theorem closeIndef_rel (h : Rel cap nul e a) (k : NKind) :
    Rel cap nul (e.closeIndef k) (a.closeIndef k) := by
  have hi := Ideal.closeIndef_inv h.inv k
  have hl := Ideal.closeIndef_len a k
  by_cases hsm : e.small = true
  · refine of_small h hsm ?_ ?_ ?_ ?_ hi hl
    all_goals unfold Enc.closeIndef
    all_goals repeat' split
    all_goals first | rfl | exact hsm | simp only [append_small_mono e _ hsm, hsm]
  · have hsm : e.small = false := by simpa using hsm
    obtain ⟨g1, g2, g3, g4⟩ := h.good hsm
    unfold Enc.closeIndef Ideal.closeIndef
    rw [g2]
    split
    · exact h
    · rw [g3]
      cases hn : a.nest with
      | nil =>
        simp only []
        exact of_good h hsm rfl rfl hsm rfl trivial rfl rfl rfl
      | cons n ns =>
        simp only []
        split
        · exact of_good h hsm rfl rfl hsm rfl (hn ▸ h.inv) rfl rfl rfl
        · have hinv := h.inv
          unfold Ideal.Inv at hinv
          rw [hn] at hinv
          have hr := append_rel h (Src.data nul [0xff])
          refine ⟨hr.cap_eq, hr.nul_eq, hr.ub, hr.le, ?_, hr.small, ?_⟩
          · exact Ideal.Sorted.mono hinv.2 (by simp; have := hinv.1; omega)
          · intro hs
            obtain ⟨r1, r2, r3, r4⟩ := hr.good hs
            exact ⟨r1, by rw [← g2]; exact r2.trans g2.symm, rfl, r4⟩

theorem addBool_rel (h : Rel cap nul e a) (b : Bool) :
    Rel cap nul (e.addBool b) (a.addBool b) := addItem_rel h _ (Src.nil nul)

end Rel

namespace TestMsg

/-- The calls on the ideal encoder. -/
def Call.runI (a : Ideal) : Call → Ideal
  | .int i => a.addInt i
  | .uint n => a.addUInt n
  | .bytes b => a.addBytes b
  | .text b => a.addText b
  | .bool b => a.addBool b
  | .raw b => a.addEncoded b
  | .openArr => a.openArray
  | .closeArr => a.closeArray
  | .openMap => a.openMap
  | .closeMap => a.closeMap
  | .openArrI => a.openArrayIndef
  | .closeArrI => a.closeArrayIndef
  | .openMapI => a.openMapIndef
  | .closeMapI => a.closeMapIndef

def runCallsI (a : Ideal) (cs : List Call) : Ideal := cs.foldl Call.runI a

theorem Call.run_rel {cap : Nat} {nul : Bool} {e : Enc} {a : Ideal} (h : Rel cap nul e a)
    (c : Call) : Rel cap nul (Call.run e c) (Call.runI a c) := by
  cases c with
  | int i => exact h.addInt_rel i
  | uint n => exact h.addUInt_rel n
  | bytes b => exact h.addBytes_rel (Src.data nul b)
  | text b => exact h.addText_rel b
  | bool b => exact h.addBool_rel b
  | raw b => exact h.addEncoded_rel (Src.data nul b)
  | openArr => exact h.openArray_rel
  | closeArr => exact h.closeArray_rel
  | openMap => exact h.openMap_rel
  | closeMap => exact h.closeMap_rel
  | openArrI => exact (h.addHead_rel _).openLevel_rel _
  | closeArrI => exact h.closeIndef_rel _
  | openMapI => exact (h.addHead_rel _).openLevel_rel _
  | closeMapI => exact h.closeIndef_rel _

theorem runCalls_rel {cap : Nat} {nul : Bool} : ∀ (cs : List Call) {e : Enc} {a : Ideal},
    Rel cap nul e a → Rel cap nul (runCalls e cs) (runCallsI a cs)
  | [], _, _, h => h
  | c :: cs, _, _, h => runCalls_rel cs (Call.run_rel h c)

/-- The kid the test code puts in the header. -/
def kidOf (me : SignCtx) : Bytes :=
  if hasFlag me.flags optShortCircuit then shortCircuitKid else me.kid.bytes

/-- Ideal encoder after the header parameters. -/
def hdrI (me : SignCtx) (prot : Bytes) (opts : Nat) : Ideal :=
  let a : Ideal := if hasFlag me.flags optOmitTag then .init else Ideal.init.addTag 18
  let a := if hasFlag opts indefinite then a.openArrayIndef else a.openArray
  let a := if hasFlag opts noProtected then a else a.addBytes prot
  if hasFlag opts noUnprotected then a else runCallsI a (unprotCalls opts (kidOf me))

theorem encodeProtected_src (opts : Nat) (alg : Int) :
    Src false (encodeProtected opts alg) (encodeProtected opts alg).bytes := by
  have hfin : ∀ e : Enc, ∀ r, e.mem.isNull = false → e.finish = .ok r → ∃ b, r = .data b := by
    intro e r hn hf
    unfold Enc.finish at hf
    cases hm : e.mem with
    | null c => rw [hm] at hn; cases hn
    | buf m =>
      rw [hm] at hf
      repeat' split at hf
      all_goals simp_all
      exact ⟨_, hf.symm⟩
  have hr := runCalls_rel (protCalls opts alg) (Rel.init_rel (.buf (List.replicate 40 0)))
  unfold encodeProtected
  split
  · exact Src.data _ _
  · split
    · exact Src.data _ _
    · split
      · rename_i r hf
        obtain ⟨b, rfl⟩ := hfin _ _ hr.nul_eq hf
        exact Src.data _ _
      · exact Src.nil _

theorem params_run {cfg : Config} {me : SignCtx} {prot0 : UB} {opts : Nat} {m : Bytes}
    (hh : hashAlgOfSigAlg cfg me.alg ≠ algNone)
    (hsc : ¬ (hasFlag me.flags optShortCircuit = true ∧ cfg.disableShortCircuit = true)) :
    ∃ prot e, encodeParameters cfg me prot0 opts (Enc.init (.buf m)) = (.ok prot, e) ∧
      prot = (if hasFlag opts noProtected then prot0 else encodeProtected opts me.alg) ∧
      Rel m.length false e (hdrI me prot.bytes opts).bstrWrap := by
  unfold encodeParameters
  rw [if_neg hh]
  simp only []
  rw [if_neg hsc]
  refine ⟨_, _, rfl, rfl, ?_⟩
  refine Rel.bstrWrap_rel ?_
  unfold hdrI
  simp only []
  have h0 : Rel m.length false
      (if hasFlag me.flags optOmitTag then Enc.init (.buf m) else (Enc.init (.buf m)).addTag 18)
      (if hasFlag me.flags optOmitTag then .init else Ideal.init.addTag 18) := by
    split
    · exact Rel.init_rel (.buf m)
    · exact (Rel.init_rel (.buf m)).addTag_rel 18
  generalize (if hasFlag me.flags optOmitTag then Enc.init (.buf m)
    else (Enc.init (.buf m)).addTag 18) = e0 at h0 ⊢
  generalize (if hasFlag me.flags optOmitTag then Ideal.init else Ideal.init.addTag 18) = a0
    at h0 ⊢
  have h1 : Rel m.length false
      (if hasFlag opts indefinite then e0.openArrayIndef else e0.openArray)
      (if hasFlag opts indefinite then a0.openArrayIndef else a0.openArray) := by
    split
    · exact (h0.addHead_rel _).openLevel_rel _
    · exact h0.openArray_rel
  generalize (if hasFlag opts indefinite then e0.openArrayIndef else e0.openArray) = e1 at h1 ⊢
  generalize (if hasFlag opts indefinite then a0.openArrayIndef else a0.openArray) = a1 at h1 ⊢
  by_cases hp : hasFlag opts noProtected = true
  · simp only [hp, if_true]
    split
    · exact h1
    · exact runCalls_rel _ h1
  · simp only [hp, if_false, Bool.false_eq_true]
    have h2 := h1.addBytes_rel (encodeProtected_src opts me.alg)
    split
    · exact h2
    · exact runCalls_rel _ h2

/-- The complete message, from the ideal state after the headers. -/
def fin (opts : Nat) (H : Bytes) (p c : Nat) (w s : Bytes) : Bytes :=
  if hasFlag opts indefinite then H ++ bstrBytes w ++ bstrBytes s ++ [0xff]
  else H.take p ++ encodeHead 4 (c + 2) ++ (H.drop p ++ (bstrBytes w ++ bstrBytes s))

theorem scSign_le {alg : Int} {hash s : Bytes} {n : Nat} (h : scSign alg hash n = .ok s) :
    s.length ≤ n := by
  unfold scSign at h
  simp only [] at h
  generalize (if alg = algES256 then 64 else if alg = algES384 then 96
    else if alg = algES512 then 132 else 0) = k at h
  split at h
  · cases h
  · split at h
    · cases h
    · split at h
      · simp only [Except.ok.injEq] at h
        rw [← h]; simp only [List.length_take]; omega
      · cases h

theorem signature_fits {cfg : Config} {C : Crypto} (hfit : Spec.SignFits C) {me : SignCtx}
    {hash s : Bytes} {n : Nat} (h : signature cfg C me hash n = .ok s) : s.length ≤ n := by
  unfold signature at h
  split at h
  · exact hfit.sign _ _ _ _ _ h
  · split at h
    · cases h
    · exact scSign_le h

/-- Success of the test signer, exactly. -/
theorem sign_iff {cfg : Config} {C : Crypto} {me : SignCtx}
    (hfit : ∀ hash s n, signature cfg C me hash n = .ok s → s.length ≤ n) {prot0 : UB}
    {opts : Nat} {payload : UB} {w : Bytes} (hpay : Src false payload w) {m : Bytes}
    (hh : hashAlgOfSigAlg cfg me.alg ≠ algNone)
    (hsc : ¬ (hasFlag me.flags optShortCircuit = true ∧ cfg.disableShortCircuit = true))
    {prot : UB} (hprot : prot = if hasFlag opts noProtected then prot0 else encodeProtected opts me.alg)
    {H : Bytes} {p c : Nat}
    (ha : hdrI me prot.bytes opts
      = ⟨H, none, [⟨if hasFlag opts indefinite then .arrI else .arr, p, c⟩]⟩)
    (hc : c < 65000) (hH : H.length < maxStart) (r : UB) :
    (sign cfg C me prot0 opts payload m).1 = .ok r ↔
      ∃ hash s, createTbsHash cfg C me.alg prot .nil (.data w) (maxHashSize cfg) = .ok hash ∧
        (H ++ bstrBytes w).length < maxStart ∧
        signature cfg C me hash (m.length - (H ++ bstrBytes w).length) = .ok s ∧
        (fin opts H p c w s).length ≤ m.length ∧ r = .data (fin opts H p c w s) := by
  obtain ⟨prot', e, he, hp', hrel⟩ := params_run (cfg := cfg) (me := me) (prot0 := prot0)
    (opts := opts) (m := m) hh hsc
  rw [← hprot] at hp'
  subst hp'
  unfold sign
  rw [he]
  simp only []
  have hko : (if hasFlag opts indefinite then NKind.arrI else NKind.arr) ≠ .openB := by
    split <;> decide
  rw [ha, Ideal.bstrWrap, Ideal.openLevel_cons _ hko (by omega) (by simp) hH] at hrel
  have h2 := hrel.addEncoded_rel hpay
  rw [Ideal.addEncoded, Ideal.addItem_cons (by decide) (by decide)] at h2
  simp only [List.append_nil] at h2
  have h3 := closePayload_inline h2
  have hinv : p ≤ H.length := by
    have := hrel.inv
    exact this.2.1
  generalize e.addEncoded payload = e1 at h3 ⊢
  have hcp : closePayload .nil e1
      = (e1.closeBstrWrap2.1, e1.closeBstrWrap2.1.deref e1.closeBstrWrap2.2) := rfl
  rw [hcp] at h3
  simp only [] at h3
  obtain ⟨h4, h5⟩ := h3
  unfold outputSignature
  simp only []
  generalize e1.closeBstrWrap2.1.deref e1.closeBstrWrap2.2 = pay at h5 ⊢
  generalize e1.closeBstrWrap2.1 = e2 at h4 h5 ⊢
  have hfinlen : ∀ s, (H ++ bstrBytes w).length < (fin opts H p c w s).length := by
    intro s
    have h1 := encodeHead_length_pos 2 s.length
    have h2 := encodeHead_length_pos 4 (c + 2)
    unfold fin
    split
    · simp only [List.length_append, bstrBytes]; omega
    · simp only [List.length_append, bstrBytes, List.length_take, List.length_drop]; omega
  by_cases hsm : e2.small = true
  · have hst : e2.errState = .tooSmall := by simp [Enc.errState, hsm]
    rw [hst]
    simp only []
    constructor
    · intro h; cases h
    · rintro ⟨hash, s, _, _, _, hl, _⟩
      have := h4.small hsm
      have := hfinlen s
      simp only [] at *
      omega
  · have hsm : e2.small = false := by simpa using hsm
    obtain ⟨g1, g2, g3, g4⟩ := h4.good hsm
    have hst : e2.errState = .ok := by simp [Enc.errState, hsm, g2]
    rw [hst, h5 hsm]
    simp only [seen, Bool.false_eq_true, if_false]
    cases hhash : createTbsHash cfg C me.alg prot' .nil (.data w) (maxHashSize cfg) with
    | error x => simp
    | ok hash =>
      simp only [Enc.openBytes]
      have hroom : roomOf e2.outPlace = m.length - (H ++ bstrBytes w).length := by
        rw [h4.outPlace_eq, g1]
        simp only [placeOf, Bool.false_eq_true, if_false]
        split
        · rfl
        · simp only [roomOf]; omega
      rw [hroom]
      cases hsig : signature cfg C me hash (m.length - (H ++ bstrBytes w).length) with
      | error x =>
        simp only []
        constructor
        · intro h; cases h
        · rintro ⟨hash', s, h1, _, h2, _⟩
          cases h1; rw [hsig] at h2; cases h2
      | ok s =>
        simp only []
        have hslen := hfit _ _ _ hsig
        have hop := h4.openLevel_rel .openB
        have hops : (e2.openLevel .openB).small = false := by rw [Enc.openLevel_small]; exact hsm
        have hopl : (e2.openLevel .openB).len = e2.len := by
          rw [(hop.good hops).1, Ideal.openLevel_out, g1]
        have hput : Rel m.length false (Rel.putSig (e2.openLevel .openB) (.data s)) _ :=
          hop.putSig_rel hops (sig := .data s) (s := s) (.inl ⟨rfl, rfl, by rw [hopl, g1]; exact hslen⟩)
        have hpd : Rel.putSig (e2.openLevel .openB) (.data s)
            = ((e2.openLevel .openB).writePlace s).closeBytes s.length := rfl
        rw [hpd] at hput
        have hclose : Rel m.length false
            (if hasFlag opts indefinite then
              (((e2.openLevel .openB).writePlace s).closeBytes s.length).closeArrayIndef
             else (((e2.openLevel .openB).writePlace s).closeBytes s.length).closeArray)
            (if hasFlag opts indefinite then
              (Ideal.closeBytes (Ideal.openLevel ⟨H ++ bstrBytes w, none,
                [⟨if hasFlag opts indefinite then .arrI else .arr, p, c + 1⟩]⟩ .openB) s).closeArrayIndef
             else (Ideal.closeBytes (Ideal.openLevel ⟨H ++ bstrBytes w, none,
                [⟨if hasFlag opts indefinite then .arrI else .arr, p, c + 1⟩]⟩ .openB) s).closeArray) := by
          by_cases hi : hasFlag opts indefinite = true
          · simp only [hi, if_true] at hput ⊢
            exact hput.closeIndef_rel _
          · simp only [hi, if_false, Bool.false_eq_true] at hput ⊢
            exact hput.closeArray_rel
        generalize (if hasFlag opts indefinite then
              (((e2.openLevel .openB).writePlace s).closeBytes s.length).closeArrayIndef
             else (((e2.openLevel .openB).writePlace s).closeBytes s.length).closeArray) = e3
          at hclose ⊢
        rcases Nat.lt_or_ge (H ++ bstrBytes w).length maxStart with hlt | hge
        · -- below the offset limit: the final state
          have hI : (if hasFlag opts indefinite then
              (Ideal.closeBytes (Ideal.openLevel ⟨H ++ bstrBytes w, none,
                [⟨if hasFlag opts indefinite then .arrI else .arr, p, c + 1⟩]⟩ .openB) s).closeArrayIndef
             else (Ideal.closeBytes (Ideal.openLevel ⟨H ++ bstrBytes w, none,
                [⟨if hasFlag opts indefinite then .arrI else .arr, p, c + 1⟩]⟩ .openB) s).closeArray)
              = ⟨fin opts H p c w s, none, []⟩ := by
            rw [Ideal.openLevel_cons _ hko (by omega) (by simp) hlt, Ideal.closeBytes]
            simp only []
            rw [Ideal.closeLevel_ok]
            unfold fin
            by_cases hi : hasFlag opts indefinite = true
            · simp [hi, Ideal.closeArrayIndef, Ideal.closeIndef, bstrBytes]
            · simp only [hi, if_false, Bool.false_eq_true]
              have hsplit : H ++ bstrBytes w ++ encodeHead 2 s.length ++ s
                  = H.take p ++ (H.drop p ++ (bstrBytes w ++ bstrBytes s)) := by
                rw [← List.append_assoc (H.take p), List.take_append_drop]
                simp [bstrBytes]
              rw [hsplit]
              have hpl : p = (H.take p).length := by simp; omega
              rw [Ideal.closeArray]
              conv => lhs; rw [show (⟨NKind.arr, p, c + 1 + 1⟩ : Nest) = ⟨.arr, (H.take p).length, c + 2⟩ by
                rw [← hpl]]
              rw [Ideal.closeLevel_ok]
          rw [hI] at hclose
          by_cases h3s : e3.small = true
          · have hst3 : e3.finish = .error .tooSmall := by simp [Enc.finish, Enc.errState, h3s]
            rw [hst3]
            simp only []
            constructor
            · intro h; cases h
            · rintro ⟨hash', s', h1', _, h2', hl, _⟩
              cases h1'; rw [hsig] at h2'; cases h2'
              have := hclose.small h3s
              simp only [] at this
              omega
          · have h3s : e3.small = false := by simpa using h3s
            obtain ⟨k1, k2, k3, k4⟩ := hclose.good h3s
            have hn3 := hclose.nul_eq
            cases hm3 : e3.mem with
            | null x => rw [hm3] at hn3; cases hn3
            | buf mm =>
              have hfinish : e3.finish = .ok (.data (fin opts H p c w s)) := by
                have := k4 mm hm3
                simp [Enc.finish, Enc.errState, h3s, k2, k3, hm3, this]
              rw [hfinish]
              simp only [Except.ok.injEq]
              have hle := hclose.le
              simp only [] at k1
              constructor
              · intro h
                exact ⟨hash, s, rfl, hlt, hsig, by omega, h.symm⟩
              · rintro ⟨hash', s', h1', _, h2', _, hr⟩
                subst h1'; rw [hsig] at h2'; cases h2'
                exact hr.symm
        · -- beyond it: an error
          have herr : (Ideal.openLevel ⟨H ++ bstrBytes w, none,
                [⟨if hasFlag opts indefinite then .arrI else .arr, p, c + 1⟩]⟩ .openB).err
              = some .bufferTooLarge := Ideal.openLevel_big _ ⟨hko, by show c + 1 < 65534; omega⟩ hge
          have herr2 := Ideal.closeBytes_err (a := Ideal.openLevel ⟨H ++ bstrBytes w, none,
                [⟨if hasFlag opts indefinite then .arrI else .arr, p, c + 1⟩]⟩ .openB)
                (by rw [herr]; rfl) s
          rw [herr] at herr2
          have hsome : (if hasFlag opts indefinite then
              (Ideal.closeBytes (Ideal.openLevel ⟨H ++ bstrBytes w, none,
                [⟨if hasFlag opts indefinite then .arrI else .arr, p, c + 1⟩]⟩ .openB) s).closeArrayIndef
             else (Ideal.closeBytes (Ideal.openLevel ⟨H ++ bstrBytes w, none,
                [⟨if hasFlag opts indefinite then .arrI else .arr, p, c + 1⟩]⟩ .openB) s).closeArray).err.isSome := by
            by_cases hi : hasFlag opts indefinite = true
            all_goals simp only [hi, if_true, if_false, Bool.false_eq_true] at herr2 ⊢
            · rw [Ideal.closeArrayIndef, Ideal.closeIndef, if_pos (by rw [herr2]; rfl), herr2]; rfl
            · rw [Ideal.closeArray, Ideal.closeLevel_err (by rw [herr2]; rfl), herr2]; rfl
          have hne := hclose.errState_ne_ok hsome
          have hfe : ∃ x, e3.finish = .error x := by
            unfold Enc.finish
            cases hs3 : e3.errState with
            | ok => exact absurd hs3 hne
            | tooSmall => exact ⟨_, rfl⟩
            | other x => exact ⟨_, rfl⟩
          obtain ⟨x, hx⟩ := hfe
          rw [hx]
          simp only []
          constructor
          · intro h; cases h
          · rintro ⟨_, _, _, h, _⟩
            omega

end TestMsg
end TCose
