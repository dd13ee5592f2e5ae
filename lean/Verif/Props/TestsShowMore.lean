import Verif.Props.TestsShow

/-!
# C82 (continued): the tests of test/t_cose_test.c and the whole program

Nothing is assumed about the adapter, the hash function or the memory.
-/

namespace TCose.Props
open TCose Spec TestMsg SuiteTest RunTests SignVerifyTest

variable {cfg : Config} {P : QParams} {C : Crypto} {junk : Junk}

attribute [-simp] Option.map_eq_some_iff Option.map_bind

theorem head_prefix {a r : Bytes} (ha : a ≠ []) : bufHead r a.length = a ↔ a <+: r := by
  unfold bufHead
  constructor
  · intro h
    split at h
    · exact absurd h.symm ha
    · rw [← h]; exact List.take_prefix _ _
  · intro h
    obtain ⟨t, rfl⟩ := h
    rw [if_neg (by simp), List.take_left]

/-! ## Tables of header parameters -/

theorem tableLoop_iff (run : Row → Except Err Unit) : ∀ (rows : List Row) (k : Nat),
    (tableLoop run (k + 1) rows = 0 ↔ ∀ t ∈ rows, run t = t.result) ∧
    tableLoop run (k + 1) rows ≤ k + rows.length
  | [], k => by simp [tableLoop]
  | t :: r, k => by
    have ih := tableLoop_iff run r (k + 1)
    unfold tableLoop
    split
    next h => simp [h]
    next h =>
      have h := Decidable.not_not.mp h
      refine ⟨?_, ?_⟩
      · rw [ih.1]; simp [h]
      · have := ih.2
        simp only [List.length_cons]
        omega

/-- **C82 (header parameters).** `bad_parameters_test` and `crit_parameters_test` return 0 exactly if
making and verifying a message gave the expected result in every row of the table. -/
theorem C82_tables (payload : Bytes) (m : Row → Bytes) :
    (badParametersTest cfg P C junk payload m = 0 ↔
      ∀ t ∈ badTable cfg, signAndVerify cfg P C junk payload (m t) t.opts t.vopts = t.result) ∧
    (critParametersTest cfg P C junk payload m = 0 ↔
      ∀ t ∈ critTable, signAndVerify cfg P C junk payload (m t) t.opts t.vopts = t.result) :=
  ⟨(tableLoop_iff _ _ 0).1, (tableLoop_iff _ _ 0).1⟩

/-- **C82 (indefinite lengths).** `indef_array_and_map_test` returns 0 exactly if messages with
indefinite lengths are accepted, also with all parameters, and an unknown critical
parameter is refused in them. -/
theorem C82_indef (payload m1 m2 m3 : Bytes) :
    indefTest cfg P C junk payload m1 m2 m3 = 0 ↔
      signAndVerify cfg P C junk payload m1 (2 ^ indefinite) 0 = .ok () ∧
      signAndVerify cfg P C junk payload m2 (2 ^ indefinite ||| 2 ^ unknownCritUint) 0 =
        .error .unknownCriticalParameter ∧
      signAndVerify cfg P C junk payload m3 (2 ^ indefinite ||| 2 ^ allParameters) 0 = .ok () := by
  unfold indefTest
  split
  next h => simp [h]
  next h1 =>
    split
    next h => simp [h]
    next h2 =>
      split
      next h => simp [h]
      next h3 =>
        simp [Decidable.not_not.mp h1, Decidable.not_not.mp h2, Decidable.not_not.mp h3]

/-- **C82 (all parameters).** `all_header_parameters_test` returns 0 exactly if a message with all
parameters was made and the parameters that the verification gives back are those. It says
nothing about whether the verification succeeded. -/
theorem C82_all_parameters (payload m : Bytes) :
    allHeaderParametersTest cfg P C junk payload m = 0 ↔
      ∃ r p, (TestMsg.sign cfg C ((SignCtx.init 1 (-7)).setKey Key.null (.data "11".toUTF8.toList)) .nil
          (2 ^ allParameters) (.data payload) m).1 = .ok r ∧
        (sign1Verify cfg P C junk (VerifyCtx.init 1) r.bytes true true).params = some p ∧
        p.kid.map (·.bytes) = some shortCircuitKid ∧ p.alg = -7 ∧
        (cfg.disableContentType = false → p.ctUint = 1) ∧
        p.iv.map (·.bytes) = some sIv ∧ p.partialIv.map (·.bytes) = some sPartialIv := by
  rw [show "11".toUTF8.toList = [0x31, 0x31] by decide +kernel]
  unfold allHeaderParametersTest
  dsimp only
  constructor
  · intro h
    split at h
    · cases h
    next r hr =>
    split at h
    · cases h
    next p hp =>
    split at h
    · cases h
    next g1 =>
    split at h
    · cases h
    next g2 =>
    split at h
    · cases h
    next g3 =>
    split at h
    · cases h
    next g4 =>
    split at h
    · cases h
    next g5 =>
    refine ⟨r, p, hr, hp, Decidable.not_not.mp g1, Decidable.not_not.mp g2, fun h => ?_,
      Decidable.not_not.mp g4, Decidable.not_not.mp g5⟩
    exact Decidable.not_not.mp fun h' => g3 ⟨h, h'⟩
  · rintro ⟨r, p, hr, hp, g1, g2, g3, g4, g5⟩
    rw [show (TestMsg.sign cfg C ((SignCtx.init shortCircuitFlag algES256).setKey Key.null (.data [0x31, 0x31]))
      .nil (2 ^ allParameters) (.data payload) m).1 = .ok r from hr]
    simp only
    rw [show (sign1Verify cfg P C junk (VerifyCtx.init shortCircuitFlag) r.bytes true true).params = some p from hp]
    simp only
    rw [if_neg (fun h => h g1), if_neg (fun h => h g2), if_neg (fun h => h.2 (g3 h.1)), if_neg (fun h => h g4),
      if_neg (fun h => h g5)]

/-! ## Short-circuit signatures -/

/-- The verification of `r` succeeds and gives back `w`. -/
def Gives (v : VRes) (w : Bytes) : Prop := v.res = .ok () ∧ v.payload.map (·.ub.bytes) = some w

theorem selfTestAad_iff (f : SignCtx → UB → UB → Mem → Except Err UB) (m : Bytes) :
    Small (selfTestAad cfg P C junk f m) ∧
    (selfTestAad cfg P C junk f m = 0 ↔
      ∃ r, f signer (.data content) (.data someAad) (.buf m) = .ok r ∧
        Gives (sign1VerifyAad cfg P C junk verifier r.bytes (.data someAad) true false) content) := by
  unfold selfTestAad Gives
  split
  next x hx => exact ⟨small_no (by decide) _, by simp [hx, no_ne (b := 1000) (by decide) x]⟩
  next r hr =>
    dsimp only
    split
    next x hx => exact ⟨small_no (by decide) _, by simp [hr, hx, no_ne (b := 2000) (by decide) x]⟩
    next hx =>
      split
      next h => exact ⟨by decide, by simp [hr, hx, h]⟩
      next h => exact ⟨by decide, by simp [hr, hx, Decidable.not_not.mp h]⟩

/-- The last 32 octets of the message. -/
theorem tail32_iff (r : Bytes) : hashOfTbs = bufTail r (r.length - 32) ↔ hashOfTbs <:+ r := by
  have hl : hashOfTbs.length = 32 := by decide
  unfold bufTail
  rw [if_neg (by omega)]
  constructor
  · intro h; rw [h]; exact List.drop_suffix _ _
  · rintro ⟨t, rfl⟩
    rw [List.length_append, hl, Nat.add_sub_cancel, List.drop_left]

/-- **C82 (self test).** `short_circuit_self_test` returns 0 exactly if what is signed with
short-circuit signatures is verified and comes back, without and with additional data, and
the first message ends with the hash written in the test. -/
theorem C82_self (m1 m2 : Bytes) :
    selfTest cfg P C junk m1 m2 = 0 ↔
      (∃ r, (sign1Sign cfg C signer (.data content) (.buf m1)).1 = .ok r ∧
        Gives (sign1Verify cfg P C junk verifier r.bytes true false) content ∧ hashOfTbs <:+ r.bytes) ∧
      (∃ r, (sign1SignAad cfg C signer (.data content) (.data someAad) (.buf m2)).1 = .ok r ∧
        Gives (sign1VerifyAad cfg P C junk verifier r.bytes (.data someAad) true false) content) := by
  rw [← (selfTestAad_iff (fun me a b out => (sign1SignAad cfg C me a b out).1) m2).2]
  unfold selfTest Gives
  split
  next x hx => simp [hx, no_ne (b := 1000) (by decide) x]
  next r hr =>
    dsimp only
    split
    next x hx => simp [hr, hx, no_ne (b := 2000) (by decide) x]
    next hx =>
      split
      next h => simp [hr, hx, h]
      next h =>
        have h := Decidable.not_not.mp h
        split
        next h' =>
          have h' : ¬ hashOfTbs <:+ r.bytes := fun g => h' ((tail32_iff _).mpr g)
          simp [hr, h']
        next h' =>
          have h' := (tail32_iff _).mp (Decidable.not_not.mp h')
          simp [hr, hx, h, h']

/-- **C82 (detached content).** -/
theorem C82_detached (m : Bytes) :
    detachedTest cfg P C junk m = 0 ↔
      ∃ r, (sign1SignDetached cfg C signer .nil (.data content) (.buf m)).1 = .ok r ∧
        (sign1VerifyDetached cfg P C junk verifier r.bytes .nil (.data content) false).res = .ok () ∧
        hashOfTbs <:+ r.bytes := by
  unfold detachedTest
  split
  next x hx => simp [hx, no_ne (b := 1000) (by decide) x]
  next r hr =>
    dsimp only
    split
    next x hx => simp [hr, hx, no_ne (b := 2000) (by decide) x]
    next hx =>
      split
      next h' =>
        have h' : ¬ hashOfTbs <:+ r.bytes := fun g => h' ((tail32_iff _).mpr g)
        simp [hr, h']
      next h' =>
        have h' := (tail32_iff _).mp (Decidable.not_not.mp h')
        simp [hr, hx, h']

/-- **C82 (verify fail).** `short_circuit_verify_fail_test` returns 0 exactly if a message whose payload
was changed in one octet, and one with other additional data, are refused for their
signature. -/
theorem C82_verify_fail (m1 m2 : Bytes) :
    verifyFailTest cfg P C junk m1 m2 = 0 ↔
      (∃ r p, (sign1Sign cfg C signer (.data content) (.buf m1)).1 = .ok r ∧
        findBytes r.bytes content = some p ∧
        (sign1Verify cfg P C junk verifier (r.bytes.set p 0x68) true false).res = .error .sigVerify) ∧
      (∃ r, (sign1SignAad cfg C signer (.data content) (.data someAad) (.buf m2)).1 = .ok r ∧
        (sign1VerifyAad cfg P C junk verifier r.bytes (.data homeAad) true false).res = .error .sigVerify) := by
  unfold verifyFailTest
  split
  next x hx => simp [hx, no_ne (b := 1000) (by decide) x]
  next r hr =>
    split
    next hp => simp [hr, hp]
    next p hp =>
      dsimp only
      split
      next h => simp [hr, hp, h, res_ne (b := 4000) (by decide)]
      next h =>
        have h := Decidable.not_not.mp h
        split
        next x hx => simp [hx, no_ne (b := 1000) (by decide) x]
        next r' hr' =>
          split
          next h' => simp [hr', h', res_ne (b := 4000) (by decide)]
          next h' => simp [hr, hp, h, hr', Decidable.not_not.mp h']

/-- **C82 (signing errors).** -/
theorem C82_signing_errors (m1 m2 m3 m4 : Bytes) :
    signingErrorsTest cfg C m1 m2 m3 m4 = 0 ↔
      (sign1Sign cfg C (SignCtx.init 1 0) (.data content) (.buf m1)).1 = .error .unsupportedSigningAlg ∧
      (sign1Sign cfg C (SignCtx.init 1 (-4444444)) (.data content) (.buf m2)).1 =
        .error .unsupportedSigningAlg ∧
      (sign1EncodeSignature cfg C (sign1EncodeParameters cfg signer (Enc.init (.buf m3))).2.1
        (((sign1EncodeParameters cfg signer (Enc.init (.buf m3))).2.2.addText payloadText).closeMap)).1 =
        .error .cborFormatting ∧
      (sign1Sign cfg C signer (.data content) (.buf m4)).1 = .error .tooSmall := by
  unfold signingErrorsTest
  rw [show shortCircuitFlag = 1 from rfl]
  split
  next h => simp [h]
  next h1 =>
    split
    next h => simp [h]
    next h2 =>
      dsimp only
      split
      next h => simp [h]
      next h3 =>
        split
        next h => simp [h]
        next h4 =>
          simp [Decidable.not_not.mp h1, Decidable.not_not.mp h2, Decidable.not_not.mp h3, Decidable.not_not.mp h4]

theorem compareCwt_iff {first r : Bytes} (hf : first ≠ []) :
    (compareCwt first r = none ↔ first <+: r ∧ rfc8392 <+: r.drop (first.length + 36)) ∧
    (∀ n, compareCwt first r = some n → n = -1 ∨ n = -2) := by
  unfold compareCwt
  split
  next h =>
    have : ¬ first <+: r := fun g => h ((head_prefix hf).mpr g)
    exact ⟨by simp [this], by rintro n h; cases h; exact .inl rfl⟩
  next h =>
    have h := (head_prefix hf).mp (Decidable.not_not.mp h)
    have htail : bufHead (bufTail r (first.length + 36)) rfc8392.length = rfc8392 ↔
        rfc8392 <+: r.drop (first.length + 36) := by
      rw [head_prefix (by decide)]
      unfold bufTail
      split
      · rw [List.drop_of_length_le (by omega)]
      · rfl
    split
    next h' =>
      have : ¬ rfc8392 <+: r.drop (first.length + 36) := fun g => h' (htail.mpr g)
      exact ⟨by simp [this], by rintro n h; cases h; exact .inr rfl⟩
    next h' => exact ⟨by simp [h, htail.mp (Decidable.not_not.mp h')], by rintro n h; cases h⟩

/-- **C82 (CWT, short circuit).** `short_circuit_make_cwt_test` returns 0 exactly if a message was made
that begins as it should and, behind the key id of 36 octets, goes on as in RFC 8392, and
the verification succeeds and gives back the claims. -/
theorem C82_make_cwt (m : Bytes) :
    makeCwtTest cfg P C junk m = 0 ↔
      ∃ r, makeTwoStep cfg C signer [] claims m = .ok r ∧ cwtFirst <+: r ∧ rfc8392 <+: r.drop 42 ∧
        Gives (sign1Verify cfg P C junk verifier r true false) (rfc8392.drop 2) := by
  unfold makeCwtTest Gives
  rw [show bufTail rfc8392 2 = rfc8392.drop 2 from rfl]
  split
  next n hn =>
    have := makeTwoStep_error hn
    simp only [hn, reduceCtorEq, false_and, exists_false, iff_false]
    omega
  next r hr =>
    have hc := compareCwt_iff (first := cwtFirst) (r := r) (by decide)
    split
    next n hn =>
      have : n ≠ 0 := by rcases hc.2 n hn with h | h <;> rw [h] <;> decide
      have hno : ¬ (cwtFirst <+: r ∧ rfc8392 <+: r.drop 42) := fun g => by
        rw [hc.1.mpr g] at hn; cases hn
      simp only [hr, Except.ok.injEq, exists_eq_left', this, false_iff]
      exact fun h => hno ⟨h.1, h.2.1⟩
    next hn =>
      have hp := hc.1.mp hn
      have hp2 : rfc8392 <+: r.drop 42 := hp.2
      dsimp only
      split
      next x hx => simp [hr, hx, no_ne (b := 4000) (by decide) x]
      next hx =>
        split
        next h => simp [hr, hx, h]
        next h => simp [hr, hx, hp.1, hp2, Decidable.not_not.mp h]

/-- `expected_payload_buffer` (test/t_cose_test.c:621-627). -/
theorem finish_payload (m2 : Bytes) (h2 : m2.length = 10) :
    ((Enc.init (.buf m2)).addText payloadText).finish = .ok (.data (0x67 :: payloadText)) := by
  have hr := (Rel.init_rel (.buf m2)).addText_rel payloadText
  have ha : Ideal.init.addText payloadText = ⟨0x67 :: payloadText, none, []⟩ := by decide +kernel
  rw [ha, show (Mem.buf m2).cap = 10 from h2, show (Mem.buf m2).isNull = false from rfl] at hr
  have hsm : ((Enc.init (.buf m2)).addText payloadText).small = false := by
    cases hq : ((Enc.init (.buf m2)).addText payloadText).small with
    | false => rfl
    | true => exact absurd (hr.small hq) (by decide)
  obtain ⟨-, g2, g3, -⟩ := hr.good hsm
  have hw := written_eq hr hsm
  have hst : ((Enc.init (.buf m2)).addText payloadText).errState = .ok := by
    simp only [Enc.errState, hsm, g2]
    rfl
  unfold Enc.finish
  simp only [hst, g3, List.isEmpty_nil, if_true]
  unfold written at hw
  have hn := hr.nul_eq
  cases hm : ((Enc.init (.buf m2)).addText payloadText).mem with
  | null c => rw [hm] at hn; cases hn
  | buf mm => rw [hm] at hw; simp only at hw ⊢; rw [hw]

/-- **C82 (decode only).** `short_circuit_decode_only_test` returns 0 exactly if a message was made and,
after a change of the octet 64 before its end, decoding it without verification succeeds
and gives back the text string "payload". -/
theorem C82_decode_only (m1 m2 : Bytes) (h2 : m2.length = 10) :
    decodeOnlyTest cfg P C junk m1 m2 = 0 ↔
      ∃ r, makeTwoStep cfg C signer [] [.text payloadText] m1 = .ok r ∧
        Gives (sign1Verify cfg P C junk (VerifyCtx.init (2 ^ optDecodeOnly))
          (r.set (r.length - 64) (r.getD (r.length - 64) 0 + 1)) true false) (0x67 :: payloadText) := by
  have hf : ∃ w, ((Enc.init (.buf m2)).addText payloadText).finish = .ok w ∧ w.bytes = 0x67 :: payloadText :=
    ⟨_, finish_payload m2 h2, rfl⟩
  obtain ⟨w, hw, hwb⟩ := hf
  unfold decodeOnlyTest Gives
  split
  next n hn =>
    have := makeTwoStep_error hn
    simp only [hn, reduceCtorEq, false_and, exists_false, iff_false]
    omega
  next r hr =>
    dsimp only
    generalize hq : sign1Verify cfg P C junk (VerifyCtx.init (2 ^ optDecodeOnly))
      (r.set (r.length - 64) (r.getD (r.length - 64) 0 + 1)) true false = v
    simp only [hr, Except.ok.injEq, exists_eq_left', hq, hw, hwb]
    split
    next x hx => simp [hx, no_ne (b := 4000) (by decide) x]
    next hx =>
      split
      next h => simp [h]
      next h => simp [hx, Decidable.not_not.mp h]

/-- **C82 (example).** -/
theorem C82_example (m : Bytes) :
    coseExampleTest cfg C m = 0 ↔
      ∃ r, (sign1Sign cfg C (signer.setKey Key.null (.data "11".toUTF8.toList)) (.data content) (.buf m)).1 = .ok r ∧
        example21 <+: r.bytes := by
  rw [show "11".toUTF8.toList = [0x31, 0x31] by decide +kernel]
  unfold coseExampleTest
  split
  next x hx =>
    have : (x.no : Int) ≠ 0 := by cases x <;> decide
    simp only [hx, this, reduceCtorEq, false_and, exists_false]
  next r hr =>
    have hh := head_prefix (a := example21) (r := r.bytes) (by decide)
    rw [show example21.length = 32 by decide] at hh
    split
    next h =>
      have h : ¬ example21 <+: r.bytes := fun g => h (hh.mpr g)
      simp [hr, h]
    next h => simp [hr, hh.mp (Decidable.not_not.mp h)]

/-- **C82 (content type).** -/
theorem C82_content_type (m1 m2 m3 : Bytes) :
    contentTypeTest cfg P C junk m1 m2 m3 = 0 ↔
      (∃ r, (sign1Sign cfg C (signer.setContentTypeUint 42) (.data content) (.buf m1)).1 = .ok r ∧
        (sign1Verify cfg P C junk verifier r.bytes true true).res = .ok () ∧
        (sign1Verify cfg P C junk verifier r.bytes true true).params.map (·.ctUint) = some 42) ∧
      (∃ r, (sign1Sign cfg C (signer.setContentTypeTstr (some textPlain)) (.data content) (.buf m2)).1 = .ok r ∧
        (sign1Verify cfg P C junk verifier r.bytes true true).res = .ok () ∧
        ((sign1Verify cfg P C junk verifier r.bytes true true).params.bind (·.ctTstr)).map (·.bytes) =
          some textPlain) ∧
      (sign1Sign cfg C ((signer.setContentTypeTstr (some textPlain)).setContentTypeUint 42)
        (.data payloadText) (.buf m3)).1 = .error .duplicateParameter := by
  unfold contentTypeTest
  split
  next x hx => simp [hx]
  next r hr =>
    dsimp only
    split
    next h => simp [hr, h]
    next h1 =>
      split
      next h => simp [hr, h]
      next h2 =>
        split
        next x hx => simp [hx]
        next r' hr' =>
          split
          next h => simp [hr', h]
          next h3 =>
            split
            next h => simp [hr', h]
            next h4 =>
              split
              next h => simp [h]
              next h5 =>
                simp [hr, hr', Decidable.not_not.mp h1, Decidable.not_not.mp h2, Decidable.not_not.mp h3,
                  Decidable.not_not.mp h4, Decidable.not_not.mp h5]

theorem sampleLoop_iff : ∀ (l : List (Bytes × Except Err Unit)) (i : Nat),
    (sampleLoop cfg P C junk i l = 0 ↔ ∀ s ∈ l,
      (sign1Verify cfg P C junk (VerifyCtx.init (2 ^ optDecodeOnly)) s.1 true false).res = s.2) ∧
    0 ≤ sampleLoop cfg P C junk i l ∧ sampleLoop cfg P C junk i l ≤ (i + l.length) * 100 + 1001
  | [], i => by simp [sampleLoop]; omega
  | s :: r, i => by
    have ih := sampleLoop_iff r (i + 1)
    unfold sampleLoop
    dsimp only
    split
    next h =>
      have := res_ne (b := ((i : Int) + 1) * 100) (by omega)
        (sign1Verify cfg P C junk (VerifyCtx.init (2 ^ optDecodeOnly)) s.1 true false).res
      have hb : 0 ≤ resNo (sign1Verify cfg P C junk (VerifyCtx.init (2 ^ optDecodeOnly)) s.1 true false).res ∧
          resNo (sign1Verify cfg P C junk (VerifyCtx.init (2 ^ optDecodeOnly)) s.1 true false).res ≤ 1001 := by
        match (sign1Verify cfg P C junk (VerifyCtx.init (2 ^ optDecodeOnly)) s.1 true false).res with
        | .ok () => decide
        | .error x => have := Err.no_le x; show (0 : Int) ≤ x.no ∧ (x.no : Int) ≤ 1001; omega
      refine ⟨by simp [this, h], ?_, ?_⟩
      · omega
      · simp only [List.length_cons]; omega
    next h =>
      have h := Decidable.not_not.mp h
      refine ⟨by rw [ih.1]; simp [h], ih.2.1, ?_⟩
      have := ih.2.2
      simp only [List.length_cons]
      omega

/-- **C82 (structure).** -/
theorem C82_structure : structureTest cfg P C junk = 0 ↔ ∀ s ∈ samples,
    (sign1Verify cfg P C junk (VerifyCtx.init (2 ^ optDecodeOnly)) s.1 true false).res = s.2 :=
  (sampleLoop_iff _ _).1

/-- **C82 (hash failures).** -/
theorem C82_hash_fail (A : Nat → Crypto) (m1 m2 : Bytes) :
    hashFailTest cfg A m1 m2 = 0 ↔
      (sign1Sign cfg (A 1) signer (.data content) (.buf m1)).1 = .error .hashGeneralFail ∧
      (sign1Sign cfg (A 2) signer (.data content) (.buf m2)).1 = .error .hashGeneralFail := by
  unfold hashFailTest
  dsimp only
  split
  next h => simp [h, res_ne (b := 2000) (by decide)]
  next h =>
    split
    next h' => simp [h', res_ne (b := 2000) (by decide)]
    next h' => simp [Decidable.not_not.mp h, Decidable.not_not.mp h']

/-! ## Tags -/

theorem tagsTest1_iff (m : Bytes) :
    tagsTest1 cfg P C junk m = 0 ↔
      ∃ r, makeTwoStep cfg C signer [900, 901] claims m = .ok r ∧
        cwtFirstTagged <+: r ∧ rfc8392 <+: r.drop 48 ∧
        Gives (sign1Verify cfg P C junk verifier r true false) (rfc8392.drop 2) ∧
        (sign1Verify cfg P C junk verifier r true false).ctx.getNthTag 0 = some 901 ∧
        (sign1Verify cfg P C junk verifier r true false).ctx.getNthTag 1 = some 900 ∧
        (sign1Verify cfg P C junk verifier r true false).ctx.getNthTag 2 = some tagInvalid ∧
        (sign1Verify cfg P C junk (VerifyCtx.init (shortCircuitFlag ||| 2 ^ optTagRequired)) r true false).res =
          .ok () ∧
        (sign1Verify cfg P C junk (VerifyCtx.init (shortCircuitFlag ||| 2 ^ optTagProhibited)) r true false).res =
          .error .incorrectlyTagged := by
  unfold tagsTest1 Gives
  rw [show bufTail rfc8392 2 = rfc8392.drop 2 from rfl]
  split
  next n hn =>
    have := makeTwoStep_error hn
    simp only [hn, reduceCtorEq, false_and, exists_false, iff_false]
    omega
  next r hr =>
    have hc := compareCwt_iff (first := cwtFirstTagged) (r := r) (by decide)
    simp only [hr, Except.ok.injEq, exists_eq_left']
    split
    next n hn =>
      have : n ≠ 0 := by rcases hc.2 n hn with h | h <;> rw [h] <;> decide
      have hno : ¬ (cwtFirstTagged <+: r ∧ rfc8392 <+: r.drop 48) := fun g => by
        rw [hc.1.mpr g] at hn; cases hn
      simp only [this, false_iff]
      exact fun h => hno ⟨h.1, h.2.1⟩
    next hn =>
      have hp := hc.1.mp hn
      have hp2 : rfc8392 <+: r.drop 48 := hp.2
      simp only [hp.1, hp2, true_and]
      generalize sign1Verify cfg P C junk verifier r true false = v
      generalize sign1Verify cfg P C junk (VerifyCtx.init (shortCircuitFlag ||| 2 ^ optTagRequired)) r true false = v2
      generalize sign1Verify cfg P C junk (VerifyCtx.init (shortCircuitFlag ||| 2 ^ optTagProhibited)) r true false = v3
      split
      next x hx => simp [hx, no_ne (b := 4000) (by decide) x]
      next hx =>
        split
        next h => simp [h]
        next h0 =>
          split
          next h => simp [h]
          next h1 =>
            split
            next h => simp [h]
            next h2 =>
              split
              next h => simp [h]
              next h3 =>
                split
                next h => simp [h, res_ne (b := 4000) (by decide)]
                next h4 =>
                  split
                  next h => simp [h, res_ne (b := 4000) (by decide)]
                  next h5 =>
                    simp [hx, Decidable.not_not.mp h0, Decidable.not_not.mp h1, Decidable.not_not.mp h2,
                      Decidable.not_not.mp h3, Decidable.not_not.mp h4, Decidable.not_not.mp h5]

theorem tagsTest2_iff (m : Bytes) :
    tagsTest2 cfg P C junk m = 0 ↔
      ∃ r, makeTwoStep cfg C signer [900, 901, 902, 903, 904] shortClaims m = .ok r ∧
        (sign1Verify cfg P C junk verifier r true false).res = .error .tooManyTags := by
  unfold tagsTest2
  split
  next n hn =>
    have := makeTwoStep_error hn
    simp only [hn, reduceCtorEq, false_and, exists_false, iff_false]
    omega
  next r hr =>
    dsimp only
    split
    next h => simp [hr, h, res_ne (b := 4000) (by decide)]
    next h => simp [hr, Decidable.not_not.mp h]

theorem tagsTest3_iff (m : Bytes) :
    tagsTest3 cfg P C junk m = 0 ↔
      ∃ r, makeTwoStep cfg C (SignCtx.init (shortCircuitFlag ||| 2 ^ optOmitTag) algES256) [900, 901] claims m =
          .ok r ∧
        cwtFirstOmitted <+: r ∧
        (sign1Verify cfg P C junk (VerifyCtx.init (shortCircuitFlag ||| 2 ^ optTagRequired)) r true false).res =
          .error .incorrectlyTagged ∧
        (sign1Verify cfg P C junk (VerifyCtx.init (shortCircuitFlag ||| 2 ^ optTagProhibited)) r true false).res =
          .ok () := by
  unfold tagsTest3
  split
  next n hn =>
    have := makeTwoStep_error hn
    simp only [hn, reduceCtorEq, false_and, exists_false, iff_false]
    omega
  next r hr =>
    have hh := head_prefix (a := cwtFirstOmitted) (r := r) (by decide)
    split
    next h =>
      have h : ¬ cwtFirstOmitted <+: r := fun g => h (hh.mpr g)
      simp [hr, h]
    next h =>
      have h := hh.mp (Decidable.not_not.mp h)
      dsimp only
      split
      next h => simp [hr, h, res_ne (b := 4000) (by decide)]
      next h1 =>
        split
        next h => simp [hr, h, res_ne (b := 4000) (by decide)]
        next h2 => simp [hr, h, Decidable.not_not.mp h1, Decidable.not_not.mp h2]

/-- **C82 (tags).** `tags_test` returns 0 exactly if the tags in front of a message come back, innermost
first and then the invalid tag; one with six tags is refused; and the options that
require and prohibit the tag of COSE_Sign1 accept and refuse as they should. -/
theorem C82_tags (m1 m2 m3 : Bytes) :
    tagsTest cfg P C junk m1 m2 m3 = 0 ↔
      (∃ r, makeTwoStep cfg C signer [900, 901] claims m1 = .ok r ∧
        cwtFirstTagged <+: r ∧ rfc8392 <+: r.drop 48 ∧
        Gives (sign1Verify cfg P C junk verifier r true false) (rfc8392.drop 2) ∧
        (sign1Verify cfg P C junk verifier r true false).ctx.getNthTag 0 = some 901 ∧
        (sign1Verify cfg P C junk verifier r true false).ctx.getNthTag 1 = some 900 ∧
        (sign1Verify cfg P C junk verifier r true false).ctx.getNthTag 2 = some tagInvalid ∧
        (sign1Verify cfg P C junk (VerifyCtx.init (shortCircuitFlag ||| 2 ^ optTagRequired)) r true false).res =
          .ok () ∧
        (sign1Verify cfg P C junk (VerifyCtx.init (shortCircuitFlag ||| 2 ^ optTagProhibited)) r true false).res =
          .error .incorrectlyTagged) ∧
      (∃ r, makeTwoStep cfg C signer [900, 901, 902, 903, 904] shortClaims m2 = .ok r ∧
        (sign1Verify cfg P C junk verifier r true false).res = .error .tooManyTags) ∧
      (∃ r, makeTwoStep cfg C (SignCtx.init (shortCircuitFlag ||| 2 ^ optOmitTag) algES256) [900, 901] claims m3 =
          .ok r ∧
        cwtFirstOmitted <+: r ∧
        (sign1Verify cfg P C junk (VerifyCtx.init (shortCircuitFlag ||| 2 ^ optTagRequired)) r true false).res =
          .error .incorrectlyTagged ∧
        (sign1Verify cfg P C junk (VerifyCtx.init (shortCircuitFlag ||| 2 ^ optTagProhibited)) r true false).res =
          .ok ()) := by
  rw [← tagsTest1_iff, ← tagsTest2_iff, ← tagsTest3_iff]
  unfold tagsTest
  split
  next h => simp [h]
  next h =>
    split
    next h' => simp [h']
    next h' => simp [Decidable.not_not.mp h, Decidable.not_not.mp h']

/-! ## Sizes -/

/-- **C82 (sizes, short circuit).** -/
theorem C82_get_size (cap : Nat) (m1 m2 : Bytes) :
    getSizeTest cfg C cap m1 m2 = 0 ↔
      ∃ me e me' e' size me2 e2 me3 e3 r r',
        sign1EncodeParameters cfg signer (Enc.init (.null cap)) = (.ok (), me, e) ∧
        sign1EncodeSignature cfg C me (e.addEncoded (.data payloadText)) = (.ok (), me', e') ∧
        e'.finish = .ok size ∧
        103 ≤ size.len ∧ size.len ≤ 133 ∧
        sign1EncodeParameters cfg signer (Enc.init (.buf m1)) = (.ok (), me2, e2) ∧
        sign1EncodeSignature cfg C me2 (e2.addEncoded (.data payloadText)) = (.ok (), me3, e3) ∧
        e3.finish = .ok r ∧ r.len = size.len ∧
        (sign1Sign cfg C signer (.data payloadText) (.buf m2)).1 = .ok r' ∧ r'.len = size.len := by
  have hl : payloadText.length = 7 := rfl
  unfold getSizeTest
  constructor
  · intro h
    split at h
    next x _ _ _ => exact absurd h (no_ne (by decide) x)
    next me e h2 =>
    split at h
    next x _ _ _ => exact absurd h (no_ne (by decide) x)
    next me' e' h3 =>
    split at h
    · cases h
    next size h4 =>
    split at h
    · cases h
    next g1 =>
    split at h
    next x _ _ _ => exact absurd h (no_ne (by decide) x)
    next me2 e2 h5 =>
    split at h
    next x _ _ _ => exact absurd h (no_ne (by decide) x)
    next me3 e3 h6 =>
    split at h
    · cases h
    next r h7 =>
    split at h
    · cases h
    next g4 =>
    split at h
    next x _ => exact absurd h (no_ne (by decide) x)
    next r' h8 =>
    split at h
    · cases h
    next g5 =>
    exact ⟨me, e, me', e', size, me2, e2, me3, e3, r, r', h2, h3, h4, by omega, by omega, h5, h6, h7, by omega, h8,
      by omega⟩
  · rintro ⟨me, e, me', e', size, me2, e2, me3, e3, r, r', h2, h3, h4, g1, g1', h5, h6, h7, g4, h8, g5⟩
    rw [h2]
    simp only
    rw [h3]
    simp only
    rw [h4]
    simp only
    rw [if_neg (by omega), h5]
    simp only
    rw [h6]
    simp only
    rw [h7]
    simp only
    rw [if_neg (by omega), h8]
    simp only
    rw [if_neg (by omega)]

end TCose.Props
