import Verif.Props.Examples

/-!
# C78, C79: the example programs, whatever the libraries do
-/

namespace TCose.Props
open TCose Spec ExampleCode SignVerifyTest SuiteTest Spec.Examples

variable (cfg : Config) (P : QParams) (C : Crypto) (junk : Junk)

theorem Err.no_ne (x : Err) : (x.no : Int) ≠ 0 := by cases x <;> decide

/-- The two ways the second half of an example can go. -/
theorem verifyPart_cases (hP : P.maxTags ≤ 4) (a : List Act) (objs after : List Obj) (vm : VerifyCtx)
    (msg : Bytes) :
    (∃ x, verifyPart cfg P C junk a objs after vm msg =
      ⟨(x : Err).no, a ++ objs.map .used ++ [.used .key] ++
        [.says "Verification complete:" x.no x.no]⟩) ∨
    (∃ b, (sign1Verify cfg P C junk vm msg true false).res = .ok () ∧
      (sign1Verify cfg P C junk vm msg true false).payload.map (·.ub.bytes) = some b ∧
      verifyPart cfg P C junk a objs after vm msg =
      ⟨0, a ++ objs.map .used ++ [.used .key] ++ [.says "Verification complete:" 0 0] ++
        objs.map .used ++ [.dump "Signed payload:" b] ++ after.map .freed ++
        [.prints "Freeing key pair\n\n", .freed .key]⟩) := by
  unfold verifyPart stop
  dsimp only
  cases hr : (sign1Verify cfg P C junk vm msg true false).res with
  | error x => exact .inl ⟨x, rfl⟩
  | ok u =>
    obtain ⟨v, x, me', ub, -, heq⟩ := verify_ok hP hr
    have hp : (sign1Verify cfg P C junk vm msg true false).payload = some x.payload := by
      rw [show sign1Verify cfg P C junk vm msg true false = _ from heq]
      rfl
    refine .inr ⟨x.payload.ub.bytes, rfl, by rw [hp]; rfl, ?_⟩
    rw [hp]

/-- The payload `b` is printed as verified. -/
def Shown (acts : List Act) (b : Bytes) : Prop := ("Signed payload:", b) ∈ dumps acts

/-- `b` is the payload of a message that was printed, and that `t_cose_sign1_verify` accepts
without options and with the key. -/
def Vouched (key : Key) (acts : List Act) (b : Bytes) : Prop :=
  ∃ msg vm, ("Completed COSE_Sign1 message:", msg) ∈ dumps acts ∧ vm.key = key ∧ vm.flags = 0 ∧
    (sign1Verify cfg P C junk vm msg true false).res = .ok () ∧
    (sign1Verify cfg P C junk vm msg true false).payload.map (·.ub.bytes) = some b

theorem dumps_used (l : List Obj) : dumps (l.map .used) = [] := by
  induction l with
  | nil => rfl
  | cons a l ih => exact ih

theorem dumps_freed (l : List Obj) : dumps (l.map .freed) = [] := by
  induction l with
  | nil => rfl
  | cons a l ih => exact ih

/-- The second half, for C78. -/
theorem verifyPart_shown (hP : P.maxTags ≤ 4) {a : List Act} {objs after : List Obj} {vm : VerifyCtx}
    {msg : Bytes} (ha : dumps a = [("Completed COSE_Sign1 message:", msg)]) (hf : vm.flags = 0) :
    ((verifyPart cfg P C junk a objs after vm msg).code = 0 ↔
      ∃ b, Shown (verifyPart cfg P C junk a objs after vm msg).acts b) ∧
    ∀ b, Shown (verifyPart cfg P C junk a objs after vm msg).acts b →
      Vouched cfg P C junk vm.key (verifyPart cfg P C junk a objs after vm msg).acts b := by
  rcases verifyPart_cases cfg P C junk hP a objs after vm msg with ⟨x, h⟩ | ⟨b, h1, h2, h⟩
  · have hd : dumps (verifyPart cfg P C junk a objs after vm msg).acts =
        [("Completed COSE_Sign1 message:", msg)] := by
      rw [h]
      simp only [dumps_append, dumps_used, ha, dumps, List.append_nil]
    have hno : ∀ b, ¬ Shown (verifyPart cfg P C junk a objs after vm msg).acts b := by
      intro b hb
      unfold Shown at hb
      rw [hd] at hb
      simp at hb
    refine ⟨⟨fun hc => ?_, fun ⟨b, hb⟩ => absurd hb (hno b)⟩, fun b hb => absurd hb (hno b)⟩
    rw [h] at hc
    exact absurd hc (Err.no_ne x)
  · have hd : dumps (verifyPart cfg P C junk a objs after vm msg).acts =
        [("Completed COSE_Sign1 message:", msg), ("Signed payload:", b)] := by
      rw [h]
      simp only [dumps_append, dumps_used, dumps_freed, ha, dumps, List.append_nil, List.cons_append,
        List.nil_append]
    refine ⟨⟨fun _ => ⟨b, by unfold Shown; rw [hd]; simp⟩, fun _ => by rw [h]⟩, fun b' hb => ?_⟩
    unfold Shown at hb
    rw [hd] at hb
    have : b' = b := by simpa using hb
    subst this
    exact ⟨msg, vm, by rw [hd]; simp, rfl, hf, h1, h2⟩

theorem stop_shown {a : List Act} {what : String} {x : Err}
    (ha : ∀ b, ("Signed payload:", b) ∉ dumps a) :
    ((stop a what x).code = 0 ↔ ∃ b, Shown (stop a what x).acts b) ∧
    ∀ b, ¬ Shown (stop a what x).acts b := by
  have hno : ∀ b, ¬ Shown (stop a what x).acts b := by
    intro b hb
    unfold Shown stop at hb
    simp only [dumps_append, dumps, List.append_nil] at hb
    exact ha b hb
  exact ⟨⟨fun h => absurd h (Err.no_ne x), fun ⟨b, hb⟩ => absurd hb (hno b)⟩, hno⟩

variable {K : Int → Except Err Key × List Act}

/-- **C78 (one step).** `one_step_sign_example` returns 0 exactly if it printed the payload, and
the payload it prints is that of the message it printed, which was verified with the key. -/
theorem C78_one_step (hP : P.maxTags ≤ 4) (hK : silent (K (-7)).2) (m1 m2 : Bytes) :
    ((oneStep cfg P C junk K m1 m2).code = 0 ↔ ∃ b, Shown (oneStep cfg P C junk K m1 m2).acts b) ∧
    ∀ b, Shown (oneStep cfg P C junk K m1 m2).acts b → ∃ key, (K (-7)).1 = .ok key ∧
      Vouched cfg P C junk key (oneStep cfg P C junk K m1 m2).acts b := by
  obtain ⟨q1, -, -⟩ := hK
  have q1 : dumps (K algES256).2 = [] := q1
  unfold oneStep
  cases (runAll being (Enc.init (.buf m1))).finish with
  | error _ => exact ⟨⟨fun h => absurd (show (1:Int) = 0 from h) (by decide), fun ⟨b, h⟩ => by cases h⟩, fun b h => by cases h⟩
  | ok w =>
    dsimp only
    cases hk : (K algES256).1 with
    | error x =>
      obtain ⟨h1, h2⟩ := stop_shown (a := [.size "Encoded payload size" w.len,
        .says "Encoded payload:" 0 0] ++ (K algES256).2)
        (what := "Made EC key with curve prime256v1:") (x := x)
        (by simp [dumps, q1])
      exact ⟨h1, fun b hb => absurd hb (h2 b)⟩
    | ok key =>
      dsimp only
      cases (sign1Sign cfg C ((SignCtx.init 0 algES256).setKey key .nil) w (.buf m2)).1 with
      | error x =>
        obtain ⟨h1, h2⟩ := stop_shown (a := [.size "Encoded payload size" w.len,
          .says "Encoded payload:" 0 0] ++ (K algES256).2 ++
          [.says "Made EC key with curve prime256v1:" 0 0,
            .prints "Initialized t_cose and configured signing key", .used .key])
          (what := "Finished signing:") (x := x)
          (by simp [dumps, dumps_append, q1])
        exact ⟨h1, fun b hb => absurd hb (h2 b)⟩
      | ok r =>
        dsimp only
        obtain ⟨h1, h2⟩ := verifyPart_shown cfg P C junk hP (objs := []) (after := [])
          (vm := (VerifyCtx.init 0).setKey key) (msg := r.bytes)
          (a := [.size "Encoded payload size" w.len,
          .says "Encoded payload:" 0 0] ++ (K algES256).2 ++
          [.says "Made EC key with curve prime256v1:" 0 0,
            .prints "Initialized t_cose and configured signing key", .used .key] ++
          [.says "Finished signing:" 0 0] ++ between r.bytes)
          (by simp [dumps, dumps_append, q1, between]) rfl
        exact ⟨h1, fun b hb => ⟨key, hk, h2 b hb⟩⟩

/-- **C78 (two steps), partial.** `two_step_sign_example` returns 0 if it printed the payload,
which is then that of the message it printed, verified with the key. If it returns 0 without
printing the payload, `QCBOREncode_Finish` had failed, and that was printed as a success.
Missing: that it returns 0 only if it printed the payload, see `C78_claim_false`. -/
theorem C78_two_step_partial (hP : P.maxTags ≤ 4) (hK : silent (K (-7)).2) (m : Bytes) :
    ((∃ b, Shown (twoStep cfg P C junk K m).acts b) → (twoStep cfg P C junk K m).code = 0) ∧
    ((twoStep cfg P C junk K m).code = 0 → (∃ b, Shown (twoStep cfg P C junk K m).acts b) ∨
      Act.says "Finished CBOR encoding:" 1 0 ∈ (twoStep cfg P C junk K m).acts) ∧
    ∀ b, Shown (twoStep cfg P C junk K m).acts b → ∃ key, (K (-7)).1 = .ok key ∧
      Vouched cfg P C junk key (twoStep cfg P C junk K m).acts b := by
  obtain ⟨q1, -, -⟩ := hK
  have q1 : dumps (K algES256).2 = [] := q1
  unfold twoStep
  cases hk : (K algES256).1 with
  | error x =>
    obtain ⟨h1, h2⟩ := stop_shown (a := (K algES256).2)
      (what := "Made EC key with curve prime256v1:") (x := x) (by simp [q1])
    exact ⟨h1.mpr, fun h => .inl (h1.mp h), fun b hb => absurd hb (h2 b)⟩
  | ok key =>
    dsimp only
    cases sign1EncodeParameters cfg ((SignCtx.init 0 algES256).setKey key .nil) (Enc.init (.buf m)) with
    | mk r1 t1 =>
      obtain ⟨me1, e1⟩ := t1
      cases r1 with
      | error x =>
        obtain ⟨h1, h2⟩ := stop_shown (a := (K algES256).2 ++
          [.says "Made EC key with curve prime256v1:" 0 0,
          .prints "Initialized QCBOR, t_cose and configured signing key"])
          (what := "Encoded COSE headers:") (x := x) (by simp [dumps, dumps_append, q1])
        exact ⟨h1.mpr, fun h => .inl (h1.mp h), fun b hb => absurd hb (h2 b)⟩
      | ok u =>
        dsimp only
        cases sign1EncodeSignature cfg C me1 (runAll being e1) with
        | mk r2 t2 =>
          obtain ⟨me2, e2⟩ := t2
          cases r2 with
          | error x =>
            obtain ⟨h1, h2⟩ := stop_shown (a := (K algES256).2 ++
              [.says "Made EC key with curve prime256v1:" 0 0,
              .prints "Initialized QCBOR, t_cose and configured signing key"] ++
              [.says "Encoded COSE headers:" 0 0, .prints "Payload added", .used .key])
              (what := "Fnished signing:") (x := x) (by simp [dumps, dumps_append, q1])
            exact ⟨h1.mpr, fun h => .inl (h1.mp h), fun b hb => absurd hb (h2 b)⟩
          | ok u =>
            dsimp only
            cases e2.finish with
            | error x =>
              refine ⟨fun _ => rfl, fun _ => .inr (by simp), fun b hb => ?_⟩
              exfalso
              unfold Shown at hb
              simp [dumps, dumps_append, q1] at hb
            | ok r =>
              dsimp only
              obtain ⟨h1, h2⟩ := verifyPart_shown cfg P C junk hP (objs := []) (after := [])
                (vm := (VerifyCtx.init 0).setKey key) (msg := r.bytes)
                (a := (K algES256).2 ++ [.says "Made EC key with curve prime256v1:" 0 0,
                  .prints "Initialized QCBOR, t_cose and configured signing key"] ++
                  [.says "Encoded COSE headers:" 0 0, .prints "Payload added", .used .key] ++
                  [.says "Fnished signing:" 0 0] ++ [.says "Finished CBOR encoding:" 0 0] ++
                  between r.bytes)
                (by simp [dumps, dumps_append, q1, between]) rfl
              exact ⟨h1.mpr, fun h => .inl (h1.mp h), fun b hb => ⟨key, hk, h2 b hb⟩⟩

/-- **C78 (dynamic buffers).** `dynamic_buffer_example` returns 0 exactly if it printed the
payload, which is then that of the message it printed, verified with the key. -/
theorem C78_dynamic (hP : P.maxTags ≤ 4) (hK : silent (K (-8)).2) (H : Heap) (cap : Nat) :
    ((dynamic cfg P C junk H cap K).code = 0 ↔ ∃ b, Shown (dynamic cfg P C junk H cap K).acts b) ∧
    ∀ b, Shown (dynamic cfg P C junk H cap K).acts b → ∃ key, (K (-8)).1 = .ok key ∧
      Vouched cfg P C junk key (dynamic cfg P C junk H cap K).acts b := by
  obtain ⟨q1, -, -⟩ := hK
  have q1 : dumps (K algEDDSA).2 = [] := q1
  have hacts : ∀ i n o, dumps (H.acts i n o) = [] := by
    intro i n o
    unfold Heap.acts
    split <;> rfl
  have hmem : ∀ a : List Act, dumps (a ++ [.prints "Buffer allocation failed"]) = dumps a := by
    intro a; simp [dumps, dumps_append]
  have hmem2 : ∀ a : List Act, dumps (a ++ [.prints "Auxiliary buffer allocation failed"]) = dumps a := by
    intro a; simp [dumps, dumps_append]
  unfold dynamic
  dsimp only
  cases hk : (K algEDDSA).1 with
  | error x =>
    obtain ⟨h1, h2⟩ := stop_shown (a := [.size "Encoded payload size" payloadText.length] ++
      (K algEDDSA).2) (what := "Made EC key with curve ed25519:") (x := x)
      (by simp [dumps, q1])
    exact ⟨h1, fun b hb => absurd hb (h2 b)⟩
  | ok key =>
    dsimp only
    generalize sign1Sign cfg C ((SignCtx.init 0 algEDDSA).setKey key .nil) (.data payloadText)
      (.null cap) = Q
    cases Q.1 with
    | error x =>
      dsimp only
      refine ⟨(stop_shown ?_).1, fun b hb => absurd hb ((stop_shown ?_).2 b)⟩ <;>
        simp [dumps, dumps_append, q1]
    | ok r =>
      dsimp only
      split
      · refine ⟨⟨fun h => absurd h (Err.no_ne _), fun ⟨b, hb⟩ => ?_⟩, fun b hb => ?_⟩ <;>
        · exfalso
          unfold Shown at hb
          simp [dumps, dumps_append, q1, hacts] at hb
      · cases (sign1Sign cfg C _ (.data payloadText) (.buf (H.mem 0 r.len))).1 with
        | error x =>
          dsimp only
          refine ⟨(stop_shown ?_).1, fun b hb => absurd hb ((stop_shown ?_).2 b)⟩ <;>
            simp [dumps, dumps_append, q1, hacts]
        | ok s =>
          dsimp only
          unfold dynDecode
          dsimp only
          cases (sign1Verify cfg P C junk (VerifyCtx.init (2 ^ optDecodeOnly)) s.bytes false false).res with
          | error x =>
            dsimp only
            refine ⟨(stop_shown ?_).1, fun b hb => absurd hb ((stop_shown ?_).2 b)⟩ <;>
              simp [dumps, dumps_append, q1, hacts]
          | ok u =>
            dsimp only
            split
            · refine ⟨⟨fun h => absurd h (Err.no_ne _), fun ⟨b, hb⟩ => ?_⟩, fun b hb => ?_⟩ <;>
              · exfalso
                unfold Shown at hb
                simp [dumps, dumps_append, q1, hacts] at hb
            · unfold dynVerify
              refine ⟨(verifyPart_shown cfg P C junk hP ?_ ?_).1, fun b hb => ⟨key, hk, ?_⟩⟩
              · simp [dumps, dumps_append, q1, hacts]
              · exact verifyWith_flags (key := key) _
              · have := (verifyPart_shown cfg P C junk hP ?_ ?_).2 b hb
                · rw [show (((VerifyCtx.init 0).setKey key).setAux cfg _).key = key from
                    verifyWith_key _] at this
                  exact this
                · simp [dumps, dumps_append, q1, hacts]
                · exact verifyWith_flags (key := key) _

end TCose.Props
