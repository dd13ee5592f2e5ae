import Verif.Lemmas.Examples
import Verif.Lemmas.RealMain
import Verif.Spec.Examples

/-!
# C76-C80: the example programs

examples/t_cose_basic_example_ossl.c and examples/t_cose_basic_example_psa.c.
-/

namespace TCose.Props
open TCose Spec ExampleCode SignVerifyTest SuiteTest Spec.Examples

/-! ## Lemmas -/

theorem live_append : ∀ (a b : List Act) (l : List Obj),
    live l (a ++ b) = (live l a).bind fun l' => live l' b
  | [], b, l => rfl
  | x :: a, b, l => by
    have ih := live_append a b
    cases x <;> simp only [List.cons_append, live] <;> first
      | exact ih _
      | rfl
      | (split
         · first | exact ih _ | rfl
         · first | exact ih _ | rfl)

theorem dumps_append : ∀ (a b : List Act), dumps (a ++ b) = dumps a ++ dumps b
  | [], b => rfl
  | x :: a, b => by
    cases x <;> simp only [List.cons_append, dumps, dumps_append a b]

theorem sizes_append : ∀ (a b : List Act), sizes (a ++ b) = sizes a ++ sizes b
  | [], b => rfl
  | x :: a, b => by
    cases x <;> simp only [List.cons_append, sizes, sizes_append a b]

theorem allWell_append : ∀ (a b : List Act), allWell (a ++ b) = (allWell a && allWell b)
  | [], b => by simp [allWell]
  | x :: a, b => by
    cases x <;> simp only [List.cons_append, allWell, allWell_append a b, Bool.and_assoc,
      Bool.false_and]

/-- What happens with objects only. -/
def silent (a : List Act) : Prop := dumps a = [] ∧ sizes a = [] ∧ allWell a = true

theorem makeOsslKey_silent (L : EvpGen) (alg : Int) : silent (makeOsslKey L alg).2 := by
  unfold makeOsslKey keygenActs
  unfold silent
  dsimp only
  repeat' split
  all_goals exact ⟨rfl, rfl, rfl⟩

theorem makePsaKey_silent (init : Int) (imp) (alg : Int) : silent (makePsaKey init imp alg).2 := by
  unfold makePsaKey silent
  repeat' split
  all_goals exact ⟨rfl, rfl, rfl⟩

theorem being_enc : encAll being = beingItem.enc := by decide +kernel

theorem being_length : beingItem.enc.length = 97 := by decide +kernel

theorem being_encoded {m : Bytes} (h : 97 ≤ m.length) :
    (runAll being (Enc.init (.buf m))).finish = .ok (.data beingItem.enc) := by
  have he : (Content.map beingEntries).enc = beingItem.enc := by decide +kernel
  have hn : (encAll beingEntries).length = 96 := by decide +kernel
  have := map_alone beingEntries m (by decide +kernel) (by decide)
    (by rw [hn]; unfold Enc.maxStart; omega) (by rw [he, being_length]; exact h)
  rw [he] at this
  exact this

/-- The message of the first two examples, with the signature `s`. -/
def beingMessage (s : Bytes) : Bytes := (coseSign1 true (-7) none .none (some beingItem.enc) s).enc

theorem being_lead : (lead (-7) none beingItem.enc).length = 106 := by decide +kernel

variable (cfg : Config) (C : Crypto) (D : Int → Bytes → Bytes) (junk : Junk) {key : Key} {n : Nat}

/-- The second half of an example with a good message. -/
theorem verifyPart_good {alg : Int} (a : List Act) (objs after : List Obj) {vm : VerifyCtx} {w s : Bytes}
    (hk : KeyWorks cfg C D alg key n) (hw : w.length ≤ 1000) (hl : (lead alg none w).length ≤ 1000)
    (hs : s.length = n) (hf : vm.flags = 0) (hkey : vm.key = key)
    (hx : cfg.disableEDDSA = false → AuxFor alg vm.aux (sigStructure (protectedHeader alg) [] w).length)
    (hv : ∀ kid, adapterVerify cfg C D alg key kid (sigStructure (protectedHeader alg) [] w) s = .ok ()) :
    verifyPart cfg QParams.std C junk a objs after vm (coseSign1 true alg none .none (some w) s).enc =
      ⟨0, a ++ objs.map .used ++ [.used .key] ++ [.says "Verification complete:" 0 0] ++
        objs.map .used ++ [.dump "Signed payload:" w] ++ after.map .freed ++
        [.prints "Freeing key pair\n\n", .freed .key]⟩ := by
  have he := enabled_cases hk.enabled
  have hsm := hk.small
  have h1 := real_check junk hk.hashes he (.inl rfl) hw hl (by omega) hf hx false true (s := s)
  rw [hkey, hv] at h1
  obtain ⟨-, -, -, h2⟩ := real_verify junk hk.hashes he (.inl rfl) hw hl (s := s) (by omega) hf false true
  have h2 := h2 h1
  rw [← coseSign1_lead] at h1 h2
  unfold verifyPart
  have h1' : (sign1Verify cfg QParams.std C junk vm (coseSign1 true alg none .none (some w) s).enc true
    false).res = .ok () := h1
  have h2' : (sign1Verify cfg QParams.std C junk vm (coseSign1 true alg none .none (some w) s).enc true
    false).payload.map (·.ub.bytes) = some w := h2
  dsimp only
  rw [h1']
  dsimp only
  cases hp : (sign1Verify cfg QParams.std C junk vm (coseSign1 true alg none .none (some w) s).enc true
    false).payload with
  | none => rw [hp] at h2'; cases h2'
  | some b =>
    rw [hp] at h2'
    cases h2'
    rfl

/-! ## C76 -/

/-- **C76 (one step).** With a key that works for ES256 and buffers with room,
`one_step_sign_example` returns 0, says of every step that it succeeded, and prints the
COSE_Sign1 message of the map, with a signature that the adapter accepts, and then the map. -/
theorem C76_one_step (hfit : SignFits C) (hk : KeyWorks cfg C D (-7) key n)
    {K : Int → Except Err Key × List Act} (hK : (K (-7)).1 = .ok key) (hsil : silent (K (-7)).2)
    {m1 m2 : Bytes} (h1 : 97 ≤ m1.length) (h2 : 109 + n ≤ m2.length) :
    ∃ s, s.length = n ∧
      (∀ kid, adapterVerify cfg C D (-7) key kid
        (sigStructure (protectedHeader (-7)) [] beingItem.enc) s = .ok ()) ∧
      (oneStep cfg QParams.std C junk K m1 m2).code = 0 ∧
      allWell (oneStep cfg QParams.std C junk K m1 m2).acts = true ∧
      dumps (oneStep cfg QParams.std C junk K m1 m2).acts =
        [("Completed COSE_Sign1 message:", beingMessage s), ("Signed payload:", beingItem.enc)] ∧
      sizes (oneStep cfg QParams.std C junk K m1 m2).acts = [("Encoded payload size", 97)] := by
  have hset := setKey_setUp (-7) key .nil
  have hsk : specKid ((SignCtx.init 0 (-7)).setKey key .nil) = none := setUp_specKid hset
  obtain ⟨s, s1, s2, s3⟩ := real_sign hfit hset hk beingItem.enc (by rw [being_length]; omega)
    (fun h => absurd h (by decide)) m2 (by rw [hsk, being_lead]; omega) (by rw [hsk, being_lead]; omega)
  rw [hsk, ← coseSign1_lead] at s3
  have hv := verifyPart_good cfg C D junk (vm := (VerifyCtx.init 0).setKey key)
    (.size "Encoded payload size" 97 :: .says "Encoded payload:" 0 0 :: (K (-7)).2 ++
      [.says "Made EC key with curve prime256v1:" 0 0,
        .prints "Initialized t_cose and configured signing key", .used .key] ++
      [.says "Finished signing:" 0 0] ++ between (beingMessage s)) [] [] hk
    (by rw [being_length]; omega) (by rw [being_lead]; omega) s1 rfl rfl
    (fun _ h => absurd h (by decide)) s2
  have hrun := Eq.trans (a := oneStep cfg QParams.std C junk K m1 m2) (by
    unfold oneStep
    rw [being_encoded h1]
    dsimp only
    rw [show (K algES256).1 = .ok key from hK]
    dsimp only
    rw [show (sign1Sign cfg C ((SignCtx.init 0 algES256).setKey key .nil) (.data beingItem.enc)
      (.buf m2)).1 = _ from s3]
    dsimp only
    rw [show (UB.data beingItem.enc).len = 97 from being_length]
    rfl) hv
  obtain ⟨q1, q2, q3⟩ := hsil
  refine ⟨s, s1, s2, by rw [hrun], ?_, ?_, ?_⟩
  · rw [hrun]
    simp only [allWell_append, List.cons_append, allWell, q3, between, List.map_nil, List.append_nil]
    rfl
  · rw [hrun]
    simp only [dumps_append, List.cons_append, dumps, q1, between, List.map_nil, List.append_nil]
    rfl
  · rw [hrun]
    simp only [sizes_append, List.cons_append, sizes, q2, between, List.map_nil, List.append_nil]

/-- **C76 (two steps).** So does `two_step_sign_example`. -/
theorem C76_two_step (hfit : SignFits C) (hk : KeyWorks cfg C D (-7) key n)
    {K : Int → Except Err Key × List Act} (hK : (K (-7)).1 = .ok key) (hsil : silent (K (-7)).2)
    {m : Bytes} (h2 : 109 + n ≤ m.length) :
    ∃ s, s.length = n ∧
      (∀ kid, adapterVerify cfg C D (-7) key kid
        (sigStructure (protectedHeader (-7)) [] beingItem.enc) s = .ok ()) ∧
      (twoStep cfg QParams.std C junk K m).code = 0 ∧
      allWell (twoStep cfg QParams.std C junk K m).acts = true ∧
      dumps (twoStep cfg QParams.std C junk K m).acts =
        [("Completed COSE_Sign1 message:", beingMessage s), ("Signed payload:", beingItem.enc)] ∧
      sizes (twoStep cfg QParams.std C junk K m).acts = [] := by
  have hset := setKey_setUp (-7) key .nil
  have hsk : specKid ((SignCtx.init 0 (-7)).setKey key .nil) = none := setUp_specKid hset
  obtain ⟨s, me1, e1, me2, e2, s1, s2, s3, s4, s5⟩ := two_step_calls hfit hset hk being m
    (by decide +kernel) (by decide) (by rw [being_enc, being_length]; omega) (by decide)
    (fun h => absurd h (by decide)) (by rw [hsk, being_enc, being_lead]; omega)
  rw [being_enc] at s2
  rw [hsk, being_enc, ← coseSign1_lead] at s5
  have hv := verifyPart_good cfg C D junk (vm := (VerifyCtx.init 0).setKey key)
    ((K (-7)).2 ++ [.says "Made EC key with curve prime256v1:" 0 0,
        .prints "Initialized QCBOR, t_cose and configured signing key"] ++
      [.says "Encoded COSE headers:" 0 0, .prints "Payload added", .used .key] ++
      [.says "Fnished signing:" 0 0] ++ [.says "Finished CBOR encoding:" 0 0] ++
      between (beingMessage s)) [] [] hk
    (by rw [being_length]; omega) (by rw [being_lead]; omega) s1 rfl rfl
    (fun _ h => absurd h (by decide)) s2
  have hrun := Eq.trans (a := twoStep cfg QParams.std C junk K m) (by
    unfold twoStep
    rw [show (K algES256).1 = .ok key from hK]
    dsimp only
    rw [show sign1EncodeParameters cfg ((SignCtx.init 0 algES256).setKey key .nil) (Enc.init (.buf m)) =
      _ from s3]
    dsimp only
    rw [s4]
    dsimp only
    rw [s5]
    rfl) hv
  obtain ⟨q1, q2, q3⟩ := hsil
  refine ⟨s, s1, s2, by rw [hrun], ?_, ?_, ?_⟩
  · rw [hrun]
    simp only [allWell_append, allWell, q3, between, List.map_nil, List.append_nil]
    rfl
  · rw [hrun]
    simp only [dumps_append, dumps, q1, between, List.map_nil, List.append_nil]
    rfl
  · rw [hrun]
    simp only [sizes_append, sizes, q2, between, List.map_nil, List.append_nil]

/-! ## C77 -/

/-- The message of the third example. -/
def payloadMessage (s : Bytes) : Bytes := (coseSign1 true (-8) none .none (some payloadText) s).enc

theorem payload_lead : (lead (-8) none payloadText).length = 15 := by decide +kernel

theorem payload_tbs : (sigStructure (protectedHeader (-8)) [] payloadText).length = 25 := by
  decide +kernel

/-- **C77.** With a key that works for EdDSA and memory from `malloc`,
`dynamic_buffer_example` returns 0; the sizes it finds and allocates are the length of the
message and, twice, that of the Sig_structure, to the octet; and it prints the message and
the payload. -/
theorem C77_dynamic (hfit : SignFits C) (hk : KeyWorks cfg C D (-8) key n) {H : Heap} (hH : H.Sized)
    {cap : Nat} (hcap : 1000 ≤ cap) {K : Int → Except Err Key × List Act}
    (hK : (K (-8)).1 = .ok key) (hsil : silent (K (-8)).2)
    (h0 : ∀ n, H.addr 0 n ≠ 0) (h1 : H.addr 1 25 ≠ 0) (h2 : H.addr 2 25 ≠ 0) :
    ∃ s, s.length = n ∧
      (∀ kid, adapterVerify cfg C D (-8) key kid
        (sigStructure (protectedHeader (-8)) [] payloadText) s = .ok ()) ∧
      (dynamic cfg QParams.std C junk H cap K).code = 0 ∧
      allWell (dynamic cfg QParams.std C junk H cap K).acts = true ∧
      dumps (dynamic cfg QParams.std C junk H cap K).acts =
        [("Completed COSE_Sign1 message:", payloadMessage s), ("Signed payload:", payloadText)] ∧
      sizes (dynamic cfg QParams.std C junk H cap K).acts =
        [("Encoded payload size", 7), ("Output buffer size", (payloadMessage s).length),
          ("Auxiliary buffer size", (sigStructure (protectedHeader (-8)) [] payloadText).length),
          ("Auxiliary buffer size", (sigStructure (protectedHeader (-8)) [] payloadText).length)] := by
  have hE := enabled_eddsa hk.enabled rfl
  have hq := real_query hk cap hcap
  have hqa := query_aux hk cap hcap
  generalize hQ : sign1Sign cfg C ((SignCtx.init 0 (-8)).setKey key .nil) (.data payloadText)
    (.null cap) = Q at hq hqa
  have hset : SetUp (Q.2.1.setAux cfg (.buf (H.mem 1 25))) (-8) key .nil := by
    rw [← hQ]
    exact query_setUp (setKey_setUp (-8) key .nil) _ _ _
  have haux : (Q.2.1.setAux cfg (.buf (H.mem 1 25))).aux = .buf (H.mem 1 25) := by
    unfold SignCtx.setAux
    simp [hE]
  have hsk : specKid (Q.2.1.setAux cfg (.buf (H.mem 1 25))) = none := setUp_specKid hset
  have hhn := head_small hk.small
  have hsm := hk.small
  obtain ⟨s, s1, s2, s3⟩ := real_sign_exact hfit hset hk payloadText (by decide)
    (fun _ => by rw [haux, payload_tbs]; exact ⟨by simp [Mem.cap, hH 1 25], rfl⟩)
    (H.mem 0 ((lead (-8) none payloadText).length + (Spec.head 2 n).length + n))
    (by rw [hsk, hH]; exact Nat.le_refl _) (by rw [hsk, payload_lead]; omega)
  rw [hsk, ← coseSign1_lead] at s3
  have hlen : (payloadMessage s).length =
      (lead (-8) none payloadText).length + (Spec.head 2 n).length + n := by
    unfold payloadMessage
    rw [coseSign1_lead, List.length_append, bstr_len, s1]
    omega
  rw [← hlen] at s3 hq
  obtain ⟨d1, d2⟩ := real_decode junk hk.hashes hE (w := payloadText) (s := s) (by decide)
    (by rw [payload_lead]; omega) (by omega) false (by rw [payload_tbs]; omega)
  rw [payload_tbs] at d2
  rw [← coseSign1_lead] at d1 d2
  have hv := verifyPart_good cfg C D junk
    (vm := ((VerifyCtx.init 0).setKey key).setAux cfg (.buf (H.mem 2 25)))
    (.size "Encoded payload size" 7 :: (K (-8)).2 ++
      [.says "Made EC key with curve ed25519:" 0 0, .used .key] ++
      [.says "Computed signing size" 0 0, .size "Output buffer size" (payloadMessage s).length,
        .size "Auxiliary buffer size" 25, .got .message, .got .signAux] ++
      [.used .message, .used .signAux, .used .key] ++ [.says "Finished signing:" 0 0] ++
      [.used .message, .dump "Completed COSE_Sign1 message:" (payloadMessage s), .prints "",
        .freed .signAux, .prints "Initialized t_cose for decoding", .used .message] ++
      [.says "Decode-only complete:" 0 0, .size "Auxiliary buffer size" 25] ++ [.got .verifyAux] ++
      [.prints "Initialized t_cose for verification and set verification key"])
    [.message, .verifyAux] [.message, .verifyAux] hk (by decide) (by rw [payload_lead]; omega) s1
    (verifyWith_flags (key := key) (H.mem 2 25)) (verifyWith_key (H.mem 2 25))
    (fun _ _ => by
      rw [show (((VerifyCtx.init 0).setKey key).setAux cfg (.buf (H.mem 2 25))).aux = _ from
        verifyWith_aux (key := key) hE (H.mem 2 25), payload_tbs]
      exact ⟨by simp [Mem.cap, hH 2 25], rfl⟩) s2
  have hrun := Eq.trans (a := dynamic cfg QParams.std C junk H cap K) (by
    unfold dynamic
    rw [show (K algEDDSA).1 = .ok key from hK]
    dsimp only
    rw [show sign1Sign cfg C ((SignCtx.init 0 algEDDSA).setKey key .nil) (.data payloadText)
      (.null cap) = Q from hQ, hq]
    dsimp only
    rw [hqa, show (UB.null (payloadMessage s).length).len = (payloadMessage s).length from rfl,
      if_neg (by rintro (h | h); exact h0 _ h; exact h1 h), s3]
    dsimp only
    rw [data_bytes]
    unfold dynDecode
    dsimp only
    rw [show (sign1Verify cfg QParams.std C junk (VerifyCtx.init (2 ^ optDecodeOnly))
      (coseSign1 true (-8) none .none (some payloadText) s).enc false false).res = _ from d1]
    dsimp only
    rw [show (sign1Verify cfg QParams.std C junk (VerifyCtx.init (2 ^ optDecodeOnly))
      (coseSign1 true (-8) none .none (some payloadText) s).enc false false).ctx.auxiliaryBufferSize cfg =
        _ from d2, if_neg h2]
    unfold dynVerify Heap.acts
    rw [if_neg (h0 _), if_neg h1, if_neg h2]
    simp only [List.append_assoc, List.cons_append, List.nil_append]
    rfl) hv
  obtain ⟨q1, q2, q3⟩ := hsil
  refine ⟨s, s1, s2, by rw [hrun], ?_, ?_, ?_⟩
  · rw [hrun]
    simp only [allWell_append, List.cons_append, allWell, q3, List.map_nil, List.map_cons, List.append_nil]
    rfl
  · rw [hrun]
    simp only [dumps_append, List.cons_append, dumps, q1, List.map_nil, List.map_cons, List.append_nil]
    rfl
  · rw [hrun, payload_tbs]
    simp only [sizes_append, List.cons_append, sizes, q2, List.map_nil, List.map_cons, List.append_nil,
      List.nil_append]

end TCose.Props
