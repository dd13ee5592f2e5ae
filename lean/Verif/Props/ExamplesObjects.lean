import Verif.Props.ExamplesMain

/-!
# C78 (what is not so), C79: what the example programs do with objects
-/

namespace TCose.Props
open TCose Spec ExampleCode SignVerifyTest SuiteTest Spec.Examples

variable (cfg : Config) (P : QParams) (C : Crypto) (junk : Junk)

theorem live_stop {a : List Act} {l l' : List Obj} (h : live l a = some l') (what : String) (x : Err) :
    live l (stop a what x).acts = some l' := by
  unfold stop
  rw [live_append, h]
  rfl

theorem live_says {a : List Act} {l l' : List Obj} (h : live l a = some l') (what : String) (x y : Int) :
    live l (a ++ [.says what x y]) = some l' := by
  rw [live_append, h]
  rfl

/-- The objects after the second half without other objects. -/
theorem verifyPart_live (hP : P.maxTags ≤ 4) {a : List Act} {l : List Obj} (ha : live [] a = some l)
    (hk : .key ∈ l) (vm : VerifyCtx) (msg : Bytes) :
    ((verifyPart cfg P C junk a [] [] vm msg).code = 0 →
      live [] (verifyPart cfg P C junk a [] [] vm msg).acts = some (l.erase .key)) ∧
    ((verifyPart cfg P C junk a [] [] vm msg).code ≠ 0 →
      live [] (verifyPart cfg P C junk a [] [] vm msg).acts = some l) := by
  rcases verifyPart_cases cfg P C junk hP a [] [] vm msg with ⟨x, h⟩ | ⟨b, -, -, h⟩
  · rw [h]
    exact ⟨fun h => absurd h (Err.no_ne x), fun _ => by simp [live_append, ha, live, hk]⟩
  · rw [h]
    exact ⟨fun _ => by simp [live_append, ha, live, hk], fun h => absurd rfl h⟩

variable {K : Int → Except Err Key × List Act}

/-- **C79 (one step).** `one_step_sign_example` uses and frees nothing that is not there, and no
variable that was not set. If it returns 0 it has freed the key; if not, it has not, and whatever
the key maker left is left. -/
theorem C79_one_step (hP : P.maxTags ≤ 4) {l : List Obj} (hl : live [] (K (-7)).2 = some l)
    (hk : ∀ key, (K (-7)).1 = .ok key → .key ∈ l) {m1 : Bytes} (hm : 97 ≤ m1.length) (m2 : Bytes) :
    ((oneStep cfg P C junk K m1 m2).code = 0 →
      live [] (oneStep cfg P C junk K m1 m2).acts = some (l.erase .key)) ∧
    ((oneStep cfg P C junk K m1 m2).code ≠ 0 →
      live [] (oneStep cfg P C junk K m1 m2).acts = some l) := by
  have hl : live [] (K algES256).2 = some l := hl
  unfold oneStep
  rw [being_encoded hm]
  dsimp only
  cases hkk : (K algES256).1 with
  | error x =>
    dsimp only
    exact ⟨fun h => absurd h (Err.no_ne x), fun _ => live_stop (by simp [live, hl]) _ _⟩
  | ok key =>
    have hk := hk key hkk
    dsimp only
    have hpre : live [] ([.size "Encoded payload size" (UB.data beingItem.enc).len,
        .says "Encoded payload:" 0 0] ++ (K algES256).2 ++
        [.says "Made EC key with curve prime256v1:" 0 0,
          .prints "Initialized t_cose and configured signing key", .used .key]) = some l := by
      simp [live_append, live, hl, hk]
    cases (sign1Sign cfg C ((SignCtx.init 0 algES256).setKey key .nil) (.data beingItem.enc)
      (.buf m2)).1 with
    | error x =>
      dsimp only
      exact ⟨fun h => absurd h (Err.no_ne x), fun _ => live_stop hpre _ _⟩
    | ok r =>
      dsimp only
      refine verifyPart_live cfg P C junk hP ?_ hk _ _
      rw [live_append, live_append, hpre]
      rfl

/-- **C79 (two steps).** The same of `two_step_sign_example`, except that it can return 0 with
the key not freed: the key is freed if the payload was printed, and otherwise not. -/
theorem C79_two_step (hP : P.maxTags ≤ 4) (hK : silent (K (-7)).2) {l : List Obj}
    (hl : live [] (K (-7)).2 = some l)
    (hk : ∀ key, (K (-7)).1 = .ok key → .key ∈ l) (m : Bytes) :
    ((∃ b, Shown (twoStep cfg P C junk K m).acts b) →
      live [] (twoStep cfg P C junk K m).acts = some (l.erase .key)) ∧
    (¬ (∃ b, Shown (twoStep cfg P C junk K m).acts b) →
      live [] (twoStep cfg P C junk K m).acts = some l) := by
  obtain ⟨q1, -, -⟩ := hK
  have q1 : dumps (K algES256).2 = [] := q1
  have hl : live [] (K algES256).2 = some l := hl
  unfold twoStep
  cases hkk : (K algES256).1 with
  | error x =>
    dsimp only
    exact ⟨fun ⟨b, hb⟩ => absurd hb ((stop_shown (by simp [q1])).2 b), fun _ => live_stop hl _ _⟩
  | ok key =>
    have hk := hk key hkk
    dsimp only
    cases sign1EncodeParameters cfg ((SignCtx.init 0 algES256).setKey key .nil) (Enc.init (.buf m)) with
    | mk r1 t1 =>
      obtain ⟨me1, e1⟩ := t1
      cases r1 with
      | error x =>
        dsimp only
        exact ⟨fun ⟨b, hb⟩ => absurd hb ((stop_shown (by simp [dumps, dumps_append, q1])).2 b),
          fun _ => live_stop (by simp [live_append, live, hl]) _ _⟩
      | ok u =>
        dsimp only
        cases sign1EncodeSignature cfg C me1 (runAll being e1) with
        | mk r2 t2 =>
          obtain ⟨me2, e2⟩ := t2
          cases r2 with
          | error x =>
            dsimp only
            exact ⟨fun ⟨b, hb⟩ => absurd hb ((stop_shown (by simp [dumps, dumps_append, q1])).2 b),
              fun _ => live_stop (by simp [live_append, live, hl, hk]) _ _⟩
          | ok u =>
            dsimp only
            cases e2.finish with
            | error x =>
              dsimp only
              refine ⟨fun ⟨b, hb⟩ => ?_, fun _ => by simp [live_append, live, hl, hk]⟩
              exfalso
              unfold Shown at hb
              simp [dumps, dumps_append, q1] at hb
            | ok r =>
              dsimp only
              have h1 := fun vm => (verifyPart_shown cfg P C junk hP (objs := []) (after := [])
                (vm := vm) (msg := r.bytes)
                (a := (K algES256).2 ++ [.says "Made EC key with curve prime256v1:" 0 0,
                  .prints "Initialized QCBOR, t_cose and configured signing key"] ++
                  [.says "Encoded COSE headers:" 0 0, .prints "Payload added", .used .key] ++
                  [.says "Fnished signing:" 0 0] ++ [.says "Finished CBOR encoding:" 0 0] ++
                  between r.bytes)
                (by simp [dumps, dumps_append, q1, between]))
              have h2 := fun vm => verifyPart_live cfg P C junk hP (l := l)
                (a := (K algES256).2 ++ [.says "Made EC key with curve prime256v1:" 0 0,
                  .prints "Initialized QCBOR, t_cose and configured signing key"] ++
                  [.says "Encoded COSE headers:" 0 0, .prints "Payload added", .used .key] ++
                  [.says "Fnished signing:" 0 0] ++ [.says "Finished CBOR encoding:" 0 0] ++
                  between r.bytes) (by simp [live_append, live, hl, hk, between]) hk vm r.bytes
              refine ⟨fun hb => ?_, fun hb => ?_⟩
              · exact (h2 _).1 ((h1 _ rfl).1.mpr hb)
              · exact (h2 _).2 (fun hc => hb ((h1 _ rfl).1.mp hc))

/-- **C79 (dynamic buffers).** `dynamic_buffer_example` uses and frees nothing that is not there.
If it returns 0 it has freed the key and all buffers. If not, it has not freed the key, nor the
buffer for the message if it got one. -/
theorem C79_dynamic (hP : P.maxTags ≤ 4) {l : List Obj}
    (hl : live [] (K (-8)).2 = some l) (hk : ∀ key, (K (-8)).1 = .ok key → .key ∈ l)
    (ho : ∀ o ∈ l, o = .keyCtx ∨ o = .key) (hg : Act.got .message ∉ (K (-8)).2) (H : Heap) (cap : Nat) :
    ((dynamic cfg P C junk H cap K).code = 0 →
      live [] (dynamic cfg P C junk H cap K).acts = some (l.erase .key)) ∧
    ((dynamic cfg P C junk H cap K).code ≠ 0 → ∃ x,
      live [] (dynamic cfg P C junk H cap K).acts = some (x ++ l) ∧
      (∀ o ∈ x, o = .message ∨ o = .signAux ∨ o = .verifyAux) ∧
      (.got .message ∈ (dynamic cfg P C junk H cap K).acts → .message ∈ x)) := by
  have hl : live [] (K algEDDSA).2 = some l := hl
  have hg : Act.got .message ∉ (K algEDDSA).2 := hg
  have n1 : Obj.message ∉ l := fun h => by rcases ho _ h with h | h <;> cases h
  have n2 : Obj.signAux ∉ l := fun h => by rcases ho _ h with h | h <;> cases h
  have n3 : Obj.verifyAux ∉ l := fun h => by rcases ho _ h with h | h <;> cases h
  unfold dynamic
  dsimp only
  cases hkk : (K algEDDSA).1 with
  | error x =>
    dsimp only
    refine ⟨fun h => absurd h (Err.no_ne x), fun _ => ⟨[], live_stop (by simp [live, hl]) _ _, by simp, ?_⟩⟩
    simp [stop, hg]
  | ok key =>
    have hk := hk key hkk
    dsimp only
    generalize sign1Sign cfg C ((SignCtx.init 0 algEDDSA).setKey key .nil) (.data payloadText)
      (.null cap) = Q
    cases Q.1 with
    | error x =>
      dsimp only
      refine ⟨fun h => absurd h (Err.no_ne x), fun _ => ⟨[], live_stop (by simp [live_append, live, hl, hk]) _ _,
        by simp, ?_⟩⟩
      simp [stop, hg]
    | ok r =>
      dsimp only
      split
      · refine ⟨fun h => absurd h (Err.no_ne _), fun _ => ?_⟩
        unfold Heap.acts
        split <;> split
        · exact ⟨[], by simp [live_append, live, hl, hk], by simp, by simp [hg]⟩
        · exact ⟨[.signAux], by simp [live_append, live, hl, hk, n2], by simp, by simp [hg]⟩
        · exact ⟨[.message], by simp [live_append, live, hl, hk, n1], by simp, by simp⟩
        · exact ⟨[.signAux, .message], by simp [live_append, live, hl, hk, n1, n2], by simp, by simp⟩
      · rename_i hn
        have e1 : ¬ H.addr 0 r.len = 0 := fun h => hn (.inl h)
        have e2 : ¬ H.addr 1 (Q.2.1.auxiliaryBufferSize cfg) = 0 := fun h => hn (.inr h)
        cases (sign1Sign cfg C _ (.data payloadText) (.buf (H.mem 0 r.len))).1 with
        | error x =>
          dsimp only
          refine ⟨fun h => absurd h (Err.no_ne _), fun _ => ⟨[.signAux, .message],
            live_stop (by simp [live_append, live, hl, hk, n1, n2, Heap.acts, e1, e2]) _ _, by simp, by simp⟩⟩
        | ok s =>
          dsimp only
          unfold dynDecode
          dsimp only
          cases (sign1Verify cfg P C junk (VerifyCtx.init (2 ^ optDecodeOnly)) s.bytes false false).res with
          | error x =>
            dsimp only
            refine ⟨fun h => absurd h (Err.no_ne _), fun _ => ⟨[.message],
              live_stop (by simp [live_append, live, hl, hk, n1, n2, Heap.acts, e1, e2]) _ _,
                by simp, by simp⟩⟩
          | ok u =>
            dsimp only
            split
            · refine ⟨fun h => absurd h (Err.no_ne _), fun _ => ⟨[.message],
                by simp [live_append, live, hl, hk, n1, n2, Heap.acts, e1, e2],
                by simp, by simp⟩⟩
            · rename_i e3
              unfold dynVerify
              generalize hA : (_ : List Act) ++
                [Act.prints "Initialized t_cose for verification and set verification key"] = A
              have hA2 : live [] A = some (.verifyAux :: .message :: l) := by
                rw [← hA]
                simp [live_append, live, hl, hk, n1, n2, n3, Heap.acts, e1, e2, e3]
              rcases verifyPart_cases cfg P C junk hP A [.message, .verifyAux] [.message, .verifyAux]
                (((VerifyCtx.init 0).setKey key).setAux cfg (.buf _)) s.bytes with ⟨x, h⟩ | ⟨b, -, -, h⟩
              · rw [h]
                refine ⟨fun h => absurd h (Err.no_ne _), fun _ => ⟨[.verifyAux, .message], ?_,
                  by simp, by simp⟩⟩
                simp [live_append, hA2, live, hk]
              · rw [h]
                refine ⟨fun _ => ?_, fun h => absurd rfl h⟩
                simp [live_append, hA2, live, hk, n1, n3]

/-! ## With the key makers -/

/-- `make_ossl_key_pair` leaves the context, and the key if it made one. -/
theorem makeOsslKey_objs {G : EvpGen} (hG : ∀ c p, (G.keygen c p).1 = 1 → (G.keygen c p).2 ≠ 0) (alg : Int) :
    ∃ l, live [] (makeOsslKey G alg).2 = some l ∧
      (∀ key, (makeOsslKey G alg).1 = .ok key → .key ∈ l ∧ .keyCtx ∈ l) ∧
      (∀ o ∈ l, o = .keyCtx ∨ o = .key) ∧ Act.got .message ∉ (makeOsslKey G alg).2 := by
  unfold makeOsslKey
  cases genArgs alg with
  | none => exact ⟨[], rfl, by simp, by simp, by simp⟩
  | some q =>
    obtain ⟨ty, curve⟩ := q
    dsimp only
    by_cases h1 : G.ctxNew ty = 0
    · rw [if_pos h1]
      exact ⟨[], rfl, by simp, by simp, by simp⟩
    rw [if_neg h1]
    by_cases h2 : G.init (G.ctxNew ty) ≤ 0
    · rw [if_pos h2]
      exact ⟨[.keyCtx], by simp [live], by simp, by simp, by simp⟩
    rw [if_neg h2]
    by_cases h3 : ty = .ec ∧ G.curve (G.ctxNew ty) curve ≠ 1
    · rw [if_pos h3]
      exact ⟨[.keyCtx], by simp [live, h3.1], by simp, by simp, by simp [h3.1]⟩
    rw [if_neg h3]
    have h4 := hG (G.ctxNew ty) G.pkeyNew
    generalize G.keygen (G.ctxNew ty) G.pkeyNew = g at h4
    obtain ⟨st, k⟩ := g
    dsimp only at h4 ⊢
    unfold keygenActs
    by_cases ht : ty = .ec <;> by_cases h5 : G.pkeyNew = 0 <;> by_cases h6 : k = 0 <;>
      by_cases h7 : st = 1 <;> first
      | exact absurd h6 (h4 h7)
      | (refine ⟨[.keyCtx], ?_, ?_, ?_, ?_⟩ <;> simp [ht, h5, h6, h7, live]; done)
      | (refine ⟨[.key, .keyCtx], ?_, ?_, ?_, ?_⟩ <;> simp [ht, h5, h6, h7, live]; done)

/-- `make_psa_ecdsa_key_pair` leaves the key if it made one. -/
theorem makePsaKey_objs (init : Int) (imp) (alg : Int) :
    ((∃ key, (makePsaKey init imp alg).1 = .ok key) ∧ live [] (makePsaKey init imp alg).2 = some [.key]) ∨
    ((∃ x, (makePsaKey init imp alg).1 = .error x) ∧ live [] (makePsaKey init imp alg).2 = some []) := by
  unfold makePsaKey
  split
  · cases psaMakeKey init imp alg with
    | ok k => exact .inl ⟨⟨k, rfl⟩, rfl⟩
    | error x => exact .inr ⟨⟨x, rfl⟩, rfl⟩
  · exact .inr ⟨⟨_, rfl⟩, rfl⟩

/-- **C79 (OpenSSL), partial.** Whatever OpenSSL and `malloc` do, as long as a key is left where
`EVP_PKEY_keygen` says it made one, no example of the OpenSSL program uses or frees an object that
is not there, or makes one twice.
Missing: that everything is freed in the end, see `C79_openssl_leak`. -/
theorem C79_openssl_partial (hP : P.maxTags ≤ 4) {G : Nat → EvpGen}
    (hG : ∀ i c p, ((G i).keygen c p).1 = 1 → ((G i).keygen c p).2 ≠ 0) (H : Heap) (cap : Nat)
    {m : Nat → Bytes} (hm : 97 ≤ (m 0).length) :
    ∀ r ∈ (osslMain cfg P C junk G H cap m).2, ∃ l, live [] r.acts = some l := by
  obtain ⟨l0, a1, a2, a3, a4⟩ := makeOsslKey_objs (hG 0) (-7)
  obtain ⟨l1, b1, b2, b3, b4⟩ := makeOsslKey_objs (hG 1) (-7)
  obtain ⟨l2, c1, c2, c3, c4⟩ := makeOsslKey_objs (hG 2) (-8)
  have h0 := C79_one_step cfg P C junk hP a1 (fun k hk => (a2 k hk).1) hm (m 1)
  have h1 := C79_two_step cfg P C junk hP (makeOsslKey_silent _ _) b1 (fun k hk => (b2 k hk).1) (m 2)
  have h2 := C79_dynamic cfg P C junk hP c1 (fun k hk => (c2 k hk).1) c3 c4 H cap
  intro r hr
  simp only [osslMain, List.mem_cons, List.not_mem_nil, or_false] at hr
  rcases hr with rfl | rfl | rfl
  · by_cases hc : (oneStep cfg P C junk (makeOsslKey (G 0)) (m 0) (m 1)).code = 0
    · exact ⟨_, h0.1 hc⟩
    · exact ⟨_, h0.2 hc⟩
  · by_cases hc : ∃ b, Shown (twoStep cfg P C junk (makeOsslKey (G 1)) (m 2)).acts b
    · exact ⟨_, h1.1 hc⟩
    · exact ⟨_, h1.2 hc⟩
  · by_cases hc : (dynamic cfg P C junk H cap (makeOsslKey (G 2))).code = 0
    · exact ⟨_, h2.1 hc⟩
    · obtain ⟨x, hx, -⟩ := h2.2 hc
      exact ⟨_, hx⟩

/-- **C79 (OpenSSL), what is not so.** Every example of the OpenSSL program that returns 0 with the
payload printed leaves the context the key was made with (`EVP_PKEY_CTX`) behind. -/
theorem C79_openssl_leak (hP : P.maxTags ≤ 4) {G : Nat → EvpGen}
    (hG : ∀ i c p, ((G i).keygen c p).1 = 1 → ((G i).keygen c p).2 ≠ 0) (H : Heap) (cap : Nat)
    {m : Nat → Bytes} (hm : 97 ≤ (m 0).length) :
    ∀ r ∈ (osslMain cfg P C junk G H cap m).2, (∃ b, Shown r.acts b) →
      ∃ l, live [] r.acts = some l ∧ .keyCtx ∈ l := by
  obtain ⟨l0, a1, a2, a3, a4⟩ := makeOsslKey_objs (hG 0) (-7)
  obtain ⟨l1, b1, b2, b3, b4⟩ := makeOsslKey_objs (hG 1) (-7)
  obtain ⟨l2, c1, c2, c3, c4⟩ := makeOsslKey_objs (hG 2) (-8)
  intro r hr hs
  simp only [osslMain, List.mem_cons, List.not_mem_nil, or_false] at hr
  have hmem : ∀ {l : List Obj}, Obj.keyCtx ∈ l → Obj.keyCtx ∈ l.erase .key := fun h =>
    (List.mem_erase_of_ne (by decide)).mpr h
  rcases hr with rfl | rfl | rfl
  · have h := C78_one_step cfg P C junk hP (K := makeOsslKey (G 0)) (makeOsslKey_silent _ _) (m 0) (m 1)
    obtain ⟨b, hb⟩ := hs
    obtain ⟨key, hk, -⟩ := h.2 b hb
    exact ⟨_, (C79_one_step cfg P C junk hP a1 (fun k hk => (a2 k hk).1) hm (m 1)).1 (h.1.mpr ⟨b, hb⟩),
      hmem (a2 key hk).2⟩
  · have h := C78_two_step_partial cfg P C junk hP (K := makeOsslKey (G 1)) (makeOsslKey_silent _ _) (m 2)
    obtain ⟨b, hb⟩ := hs
    obtain ⟨key, hk, -⟩ := h.2.2 b hb
    exact ⟨_, (C79_two_step cfg P C junk hP (makeOsslKey_silent _ _) b1 (fun k hk => (b2 k hk).1)
      (m 2)).1 ⟨b, hb⟩, hmem (b2 key hk).2⟩
  · have h := C78_dynamic cfg P C junk hP (K := makeOsslKey (G 2)) (makeOsslKey_silent _ _) H cap
    obtain ⟨b, hb⟩ := hs
    obtain ⟨key, hk, -⟩ := h.2 b hb
    exact ⟨_, (C79_dynamic cfg P C junk hP c1 (fun k hk => (c2 k hk).1) c3 c4 H cap).1
      (h.1.mpr ⟨b, hb⟩), hmem (c2 key hk).2⟩

/-- Exactly what `make_ossl_key_pair` leaves. -/
theorem makeOsslKey_left (G : EvpGen) {alg : Int} {ty : EvpType} {curve : KeyData}
    (hg : genArgs alg = some (ty, curve)) :
    live [] (makeOsslKey G alg).2 = some (keyLeft G ty curve) := by
  unfold makeOsslKey
  rw [hg]
  dsimp only
  by_cases h1 : G.ctxNew ty = 0
  · rw [if_pos h1, show keyLeft G ty curve = [] from if_pos h1]
    rfl
  rw [if_neg h1]
  by_cases h2 : G.init (G.ctxNew ty) ≤ 0
  · rw [if_pos h2, show keyLeft G ty curve = [.keyCtx] from (if_neg h1).trans (if_neg (fun h => absurd h.1 (by omega)))]
    rfl
  rw [if_neg h2]
  by_cases h3 : ty = .ec ∧ G.curve (G.ctxNew ty) curve ≠ 1
  · rw [if_pos h3, show keyLeft G ty curve = [.keyCtx] from (if_neg h1).trans (if_neg (fun h => h3.2 (h.2.1 h3.1)))]
    simp [live, h3.1]
  rw [if_neg h3]
  have h3' : ty = .ec → G.curve (G.ctxNew ty) curve = 1 := fun h =>
    Decidable.byContradiction fun hn => h3 ⟨h, hn⟩
  have h2' : 0 < G.init (G.ctxNew ty) := by omega
  have e1 : (G.keygen (G.ctxNew ty) G.pkeyNew).2 = 0 → keyLeft G ty curve = [.keyCtx] := fun h =>
    (if_neg h1).trans (if_neg fun hh => hh.2.2 h)
  have e2 : (G.keygen (G.ctxNew ty) G.pkeyNew).2 ≠ 0 → keyLeft G ty curve = [.key, .keyCtx] := fun h =>
    (if_neg h1).trans (if_pos ⟨h2', h3', h⟩)
  generalize G.keygen (G.ctxNew ty) G.pkeyNew = g at e1 e2
  obtain ⟨st, k⟩ := g
  dsimp only at e1 e2 ⊢
  unfold keygenActs
  by_cases h6 : k = 0
  · rw [e1 h6]
    by_cases ht : ty = .ec <;> by_cases h5 : G.pkeyNew = 0 <;> by_cases h7 : st = 1 <;>
      simp [ht, h5, h6, h7, live]
  · rw [e2 h6]
    by_cases ht : ty = .ec <;> by_cases h5 : G.pkeyNew = 0 <;> by_cases h7 : st = 1 <;>
      simp [ht, h5, h6, h7, live]

/-- **C79 (OpenSSL), exactly what is left.** An example that went well leaves the context, and nothing
else. One that did not leaves the context if there is one and the key if there is one; the one with
dynamic buffers then also leaves the buffer for the message if it got one. -/
theorem C79_openssl_left (hP : P.maxTags ≤ 4) {G : EvpGen}
    (hG : ∀ c p, (G.keygen c p).1 = 1 → (G.keygen c p).2 ≠ 0) (H : Heap) (cap : Nat)
    {m1 m2 m : Bytes} (hm : 97 ≤ m1.length) :
    let r1 := oneStep cfg P C junk (makeOsslKey G) m1 m2
    let r2 := twoStep cfg P C junk (makeOsslKey G) m
    let r3 := dynamic cfg P C junk H cap (makeOsslKey G)
    ((r1.code = 0 → live [] r1.acts = some [.keyCtx]) ∧
      (r1.code ≠ 0 → live [] r1.acts = some (keyLeft G .ec .ec256))) ∧
    (((∃ b, Shown r2.acts b) → live [] r2.acts = some [.keyCtx]) ∧
      (¬ (∃ b, Shown r2.acts b) → live [] r2.acts = some (keyLeft G .ec .ec256))) ∧
    ((r3.code = 0 → live [] r3.acts = some [.keyCtx]) ∧
      (r3.code ≠ 0 → ∃ x, live [] r3.acts = some (x ++ keyLeft G .ed25519 .ed25519) ∧
        (∀ o ∈ x, o = .message ∨ o = .signAux ∨ o = .verifyAux) ∧
        (.got .message ∈ r3.acts → .message ∈ x))) := by
  have a1 := makeOsslKey_left G (alg := -7) rfl
  have c1 := makeOsslKey_left G (alg := -8) rfl
  obtain ⟨l0, a1', a2, a3, a4⟩ := makeOsslKey_objs hG (-7)
  obtain ⟨l2, c1', c2, c3, c4⟩ := makeOsslKey_objs hG (-8)
  rw [a1] at a1'
  rw [c1] at c1'
  cases a1'
  cases c1'
  have hE : ∀ ty cv, Obj.key ∈ keyLeft G ty cv → (keyLeft G ty cv).erase .key = [.keyCtx] := by
    intro ty cv h
    unfold keyLeft at h ⊢
    split
    · rename_i h1; rw [if_pos h1] at h; cases h
    · rename_i h1
      rw [if_neg h1] at h
      split
      · rfl
      · rename_i h2; rw [if_neg h2] at h; exact absurd h (by decide)
  have k1 := C78_one_step cfg P C junk hP (K := makeOsslKey G) (makeOsslKey_silent _ _) m1 m2
  have k2 := C78_two_step_partial cfg P C junk hP (K := makeOsslKey G) (makeOsslKey_silent _ _) m
  have k3 := C78_dynamic cfg P C junk hP (K := makeOsslKey G) (makeOsslKey_silent _ _) H cap
  have h0 := C79_one_step cfg P C junk hP a1 (fun k hk => (a2 k hk).1) hm m2
  have h1 := C79_two_step cfg P C junk hP (makeOsslKey_silent _ _) a1 (fun k hk => (a2 k hk).1) m
  have h2 := C79_dynamic cfg P C junk hP c1 (fun k hk => (c2 k hk).1) c3 c4 H cap
  intro r1 r2 r3
  refine ⟨⟨fun h => ?_, h0.2⟩, ⟨fun h => ?_, h1.2⟩, ⟨fun h => ?_, h2.2⟩⟩
  · obtain ⟨b, hb⟩ := k1.1.mp h
    obtain ⟨key, hk, -⟩ := k1.2 b hb
    rw [← hE _ _ (a2 key hk).1]
    exact h0.1 h
  · obtain ⟨b, hb⟩ := h
    obtain ⟨key, hk, -⟩ := k2.2.2 b hb
    rw [← hE _ _ (a2 key hk).1]
    exact h1.1 ⟨b, hb⟩
  · obtain ⟨b, hb⟩ := k3.1.mp h
    obtain ⟨key, hk, -⟩ := k3.2 b hb
    rw [← hE _ _ (c2 key hk).1]
    exact h2.1 h

/-- **C79 (PSA).** Whatever the library does, no example of the PSA program uses or frees an
object that is not there. If it printed the payload nothing is left; if not, nothing but the key
is left, and that only if it was made. -/
theorem C79_psa (hP : P.maxTags ≤ 4) (init : Nat → Int)
    (imp : Nat → PsaType → KeyData → Psa.SigAlg → Int × UInt32) {m : Nat → Bytes} (hm : 97 ≤ (m 0).length) :
    ∀ r ∈ (psaMain cfg P C junk init imp m).2,
      ((∃ b, Shown r.acts b) → live [] r.acts = some []) ∧
      (¬ (∃ b, Shown r.acts b) → live [] r.acts = some [] ∨ live [] r.acts = some [.key]) := by
  intro r hr
  simp only [psaMain, List.mem_cons, List.not_mem_nil, or_false] at hr
  rcases hr with rfl | rfl
  · have h := C78_one_step cfg P C junk hP (K := makePsaKey (init 0) (imp 0)) (makePsaKey_silent _ _ _) (m 0) (m 1)
    rcases makePsaKey_objs (init 0) (imp 0) (-7) with ⟨⟨k, hk⟩, hl⟩ | ⟨⟨x, hx⟩, hl⟩
    · have h9 := C79_one_step cfg P C junk hP hl (fun _ _ => List.mem_cons_self) hm (m 1)
      exact ⟨fun hs => h9.1 (h.1.mpr hs), fun hs => .inr (h9.2 fun hc => hs (h.1.mp hc))⟩
    · have h9 := C79_one_step cfg P C junk hP hl (fun k hk => by rw [hx] at hk; cases hk) hm (m 1)
      exact ⟨fun hs => h9.1 (h.1.mpr hs), fun hs => .inl (h9.2 fun hc => hs (h.1.mp hc))⟩
  · rcases makePsaKey_objs (init 1) (imp 1) (-7) with ⟨⟨k, hk⟩, hl⟩ | ⟨⟨x, hx⟩, hl⟩
    · have h9 := C79_two_step cfg P C junk hP (makePsaKey_silent _ _ _) hl (fun _ _ => List.mem_cons_self) (m 2)
      exact ⟨h9.1, fun hs => .inr (h9.2 hs)⟩
    · have h9 := C79_two_step cfg P C junk hP (makePsaKey_silent _ _ _) hl
        (fun k hk => by rw [hx] at hk; cases hk) (m 2)
      exact ⟨h9.1, fun hs => .inl (h9.2 hs)⟩

/-! ## What is not so -/

/-- An adapter with signatures of 194 octets. -/
def wideCrypto : Crypto :=
  { toyCrypto with
    sigSize := fun _ _ => .ok 194
    sign := fun _ _ h n => if n < 194 then .error .sigBufferSize else .ok (h ++ List.replicate 162 0) }

/-- **C78 is false of `two_step_sign_example`**: it returns 0, and says that it had success,
although the message did not fit and nothing was verified or printed. The key is left. -/
theorem C78_claim_false : ∃ C : Crypto, ∃ r, r = twoStep Config.full QParams.std C noJunk
      (fun _ => (.ok Key.null, [.got .key])) (List.replicate 300 0) ∧
    r.code = 0 ∧ dumps r.acts = [] ∧ live [] r.acts = some [.key] :=
  ⟨wideCrypto, _, rfl, by decide +kernel, by decide +kernel, by decide +kernel⟩

/-- **The exit status says nothing**: with a library that makes no key every example fails, and
the exit status of both programs is 0. -/
theorem C78_exit_status (m : Nat → Bytes) (hm : 97 ≤ (m 0).length) (H : Heap) (cap : Nat) :
    (∃ G, (osslMain cfg P C junk G H cap m).1 = 0 ∧
      ∀ r ∈ (osslMain cfg P C junk G H cap m).2, r.code ≠ 0) ∧
    (∃ init imp, (psaMain cfg P C junk init imp m).1 = 0 ∧
      ∀ r ∈ (psaMain cfg P C junk init imp m).2, r.code ≠ 0) := by
  refine ⟨⟨fun _ => ⟨fun _ => 0, fun _ => 0, fun _ _ => 0, 0, fun _ _ => (0, 0)⟩, rfl, fun r hr => ?_⟩,
    ⟨fun _ => -1, fun _ _ _ _ => (-1, 0), rfl, fun r hr => ?_⟩⟩
  · simp only [osslMain, List.mem_cons, List.not_mem_nil, or_false] at hr
    rcases hr with rfl | rfl | rfl
    · unfold oneStep
      rw [being_encoded hm]
      exact Err.no_ne .insufficientMemory
    · exact Err.no_ne .insufficientMemory
    · exact Err.no_ne .insufficientMemory
  · simp only [psaMain, List.mem_cons, List.not_mem_nil, or_false] at hr
    rcases hr with rfl | rfl
    · unfold oneStep
      rw [being_encoded hm]
      exact Err.no_ne .fail
    · exact Err.no_ne .fail

/-! ## Non-vacuity -/

/-- C78 and C79 with the toy adapter: all goes well, and with a key maker that works. -/
example : (oneStep Config.full QParams.std toyCrypto noJunk (makeOsslKey demoGen) (List.replicate 300 0)
      (List.replicate 300 0)).code = 0 ∧
    live [] (oneStep Config.full QParams.std toyCrypto noJunk (makeOsslKey demoGen) (List.replicate 300 0)
      (List.replicate 300 0)).acts = some [.keyCtx] := by decide +kernel

/-- `EVP_PKEY_keygen` fails and frees the key it was given, or leaves it. -/
example : live [] (makeOsslKey { demoGen with pkeyNew := 7, keygen := fun _ _ => (0, 0) } (-7)).2 =
      some [.keyCtx] ∧
    live [] (makeOsslKey { demoGen with pkeyNew := 7, keygen := fun _ p => (0, p) } (-7)).2 =
      some [.key, .keyCtx] := by decide +kernel

/-- A buffer that is too small: the key is left as well. -/
example : (oneStep Config.full QParams.std toyCrypto noJunk (makeOsslKey demoGen) (List.replicate 300 0)
      (List.replicate 100 0)).code ≠ 0 ∧
    live [] (oneStep Config.full QParams.std toyCrypto noJunk (makeOsslKey demoGen) (List.replicate 300 0)
      (List.replicate 100 0)).acts = some [.key, .keyCtx] := by decide +kernel

/-- Dynamic buffers: all goes well; the third `malloc` fails. -/
example : live [] (dynamic Config.full QParams.std toyCrypto noJunk demoHeap 1000 (makeOsslKey demoGen)).acts =
      some [.keyCtx] ∧
    live [] (dynamic Config.full QParams.std toyCrypto noJunk ⟨fun i _ => if i = 2 then 0 else i + 1,
      demoHeap.mem⟩ 1000 (makeOsslKey demoGen)).acts = some [.message, .key, .keyCtx] := by decide +kernel

example : live [] (twoStep Config.full QParams.std toyCrypto noJunk
      (makePsaKey 0 mainImport) (List.replicate 300 0)).acts = some [] := by decide +kernel

end TCose.Props
