import Verif.Props.RealMain

/-!
# C82: what a passing test shows

The other direction of C74 and C75: nothing is assumed about the adapter, the keys or the
memory. If a test returns 0, which facts about the library and the adapter hold? For each
test exactly those facts are listed; so what is not listed a passing test does not show.
-/

namespace TCose.Props
open TCose Spec TestMsg SuiteTest RunTests SignVerifyTest

variable {cfg : Config} {P : QParams} {C : Crypto} {junk : Junk} {sup : Int → Bool}

/-! ## Sizes of return values -/

/-- A value that the factor 10000 of the loops does not hide. -/
abbrev Small (z : Int) : Prop := -10000 < z ∧ z < 10000

theorem Err.no_le (x : Err) : x.no ≤ 1001 := by cases x <;> decide

theorem small_no {b : Int} (h : 0 ≤ b ∧ b ≤ 8000) (x : Err) : Small (b + x.no) := by
  have := Err.no_le x
  constructor <;> omega

theorem small_res {b : Int} (h : 0 ≤ b ∧ b ≤ 8000) (x : Except Err Unit) : Small (b + resNo x) := by
  match x with
  | .ok () => show Small (b + 0); constructor <;> omega
  | .error x => exact small_no h x

theorem res_ne {b : Int} (h : 0 < b) (x : Except Err Unit) : b + resNo x ≠ 0 := by
  match x with
  | .ok () => show b + 0 ≠ 0; omega
  | .error x => show b + (x.no : Int) ≠ 0; omega

theorem no_ne {b : Int} (h : 0 < b) (x : Err) : b + (x.no : Int) ≠ 0 := by omega

theorem makeTwoStep_error {me : SignCtx} {ts : List Nat} {cs : List Content} {m : Bytes} {n : Int}
    (h : makeTwoStep cfg C me ts cs m = .error n) : 1000 ≤ n ∧ n ≤ 3001 := by
  unfold makeTwoStep at h
  dsimp only at h
  split at h
  · rename_i x _ _ _
    have := Err.no_le x
    cases h; constructor <;> omega
  · split at h
    · rename_i x _ _ _
      have := Err.no_le x
      cases h; constructor <;> omega
    · split at h
      · cases h; decide
      · cases h

/-! ## Keys -/

theorem withKey_iff {r : Except Err Key} {base : Int} {body : Key → Int} (hb : 0 < base) :
    (withKey r base body).1 = 0 ↔ ∃ key, r = .ok key ∧ body key = 0 := by
  match r with
  | .error x =>
    have := no_ne hb x
    simp [withKey, this]
  | .ok key => simp [withKey]

theorem withKey_small {r : Except Err Key} {base : Int} {body : Key → Int} (hb : 0 ≤ base ∧ base ≤ 8000)
    (h : ∀ key, Small (body key)) : Small (withKey r base body).1 := by
  match r with
  | .error x => exact small_no hb x
  | .ok key => exact h key

theorem caseLoop_bound {sel : Int → Bool} {run : Nat → Int → Bytes → Int × List KeyEvent}
    (h : ∀ i a m, Small (run i a m).1) : ∀ (rows : List (Int × Bytes)) (i : Nat),
      0 ≤ (caseLoop sel run i rows).1 ∧ (caseLoop sel run i rows).1 < (i + rows.length + 1) * 10000
  | [], i => by
    show (0 : Int) ≤ 0 ∧ (0 : Int) < _
    simp only [List.length_nil]
    omega
  | c :: r, i => by
    have ih := caseLoop_bound (sel := sel) h r (i + 1)
    have hs := h i c.1 c.2
    unfold caseLoop
    simp only [List.length_cons]
    split
    · split
      · dsimp only; constructor <;> omega
      · dsimp only; constructor <;> omega
    · constructor <;> omega

/-! ## Signing and verifying -/

theorem basicBody_small (alg : Int) (m aux : Bytes) (key : Key) :
    Small (basicBody cfg P C junk alg m aux key) := by
  unfold basicBody
  split
  · exact small_no (by decide) _
  · dsimp only
    split
    · exact small_no (by decide) _
    · split <;> decide

theorem basicBody_iff (alg : Int) (m aux : Bytes) (key : Key) :
    basicBody cfg P C junk alg m aux key = 0 ↔
      ∃ r, (sign1Sign cfg C (signWith cfg alg key .nil aux) (.data payloadText) (.buf m)).1 = .ok r ∧
        (sign1Verify cfg P C junk (verifyWith cfg key aux) r.bytes true false).res = .ok () ∧
        (sign1Verify cfg P C junk (verifyWith cfg key aux) r.bytes true false).payload.map (·.ub.bytes) =
          some payloadText := by
  unfold basicBody
  split
  next x hx =>
    have := no_ne (b := 2000) (by decide) x
    simp [hx, this]
  next r hr =>
    dsimp only
    split
    next x hx =>
      have := no_ne (b := 5000) (by decide) x
      simp only [this, hr, false_iff]
      rintro ⟨r', h, h2, -⟩
      cases h
      rw [hx] at h2
      cases h2
    next hx =>
      constructor
      · intro h
        refine ⟨r, hr, hx, ?_⟩
        split at h
        · cases h
        · rename_i hn
          exact Decidable.not_not.mp hn
      · rintro ⟨r', h, h2, h3⟩
        rw [hr] at h
        cases h
        exact if_neg (fun hn => hn h3)

/-- **C82 (basic).** `sign_verify_basic_test` returns 0 exactly if for each algorithm supported
a key was made, signing "payload" in one call succeeded, and the verification of the
message with the same key succeeded and gave back "payload". -/
theorem C82_basic (m aux : Nat → Bytes) (K : Nat → Int → Except Err Key) :
    (basicTest cfg P C junk sup m aux K).1 = 0 ↔
      ∀ i alg msg, testCases[i]? = some (alg, msg) → sup alg = true →
        ∃ key r, K i alg = .ok key ∧
          (sign1Sign cfg C (signWith cfg alg key .nil (aux i)) (.data payloadText) (.buf (m i))).1 = .ok r ∧
          (sign1Verify cfg P C junk (verifyWith cfg key (aux i)) r.bytes true false).res = .ok () ∧
          (sign1Verify cfg P C junk (verifyWith cfg key (aux i)) r.bytes true false).payload.map
            (·.ub.bytes) = some payloadText := by
  unfold basicTest
  rw [C74_loop _ _ (fun i a _ => (withKey_small (by decide) (basicBody_small a (m i) (aux i))).1)]
  simp only [Nat.zero_add, withKey_iff (base := 1000) (by decide), basicBody_iff]
  constructor
  · intro h i alg msg h1 h2
    obtain ⟨key, a, r, b⟩ := h i (alg, msg) h1 h2
    exact ⟨key, r, a, b⟩
  · intro h i c h1 h2
    obtain ⟨key, r, a, b⟩ := h i c.1 c.2 h1 h2
    exact ⟨key, a, r, b⟩

/-! ## Tampering -/

theorem sigFailBody_iff (alg : Int) (m aux : Bytes) (key : Key) :
    Small (sigFailBody cfg P C junk false alg m aux key) ∧
    (sigFailBody cfg P C junk false alg m aux key = 0 ↔
      ∃ r p, makeTwoStep cfg C (signWith cfg alg key .nil aux) [] [.text payloadText] m = .ok r ∧
        findBytes r payloadText = some p) := by
  unfold sigFailBody
  split
  next n hn =>
    have hb := makeTwoStep_error hn
    refine ⟨⟨by omega, by omega⟩, ?_⟩
    simp only [hn, reduceCtorEq, false_and, exists_false, iff_false]
    omega
  next r hr =>
    split
    next hp => refine ⟨by decide, ?_⟩; simp [hr, hp]
    next p hp =>
      dsimp only
      simp [hr, hp]
      decide

/-- **C82 (tampering).** `sign_verify_sig_fail_test` returns 0 exactly if for each algorithm
supported a key was made, and a message was made in which "payload" is found. It says
nothing about what the verification of the changed message returned. -/
theorem C82_sig_fail (m aux : Nat → Bytes) (K : Nat → Int → Except Err Key) :
    (sigFailTest cfg P C junk sup false m aux K).1 = 0 ↔
      ∀ i alg msg, testCases[i]? = some (alg, msg) → sup alg = true →
        ∃ key r p, K i alg = .ok key ∧
          makeTwoStep cfg C (signWith cfg alg key .nil (aux i)) [] [.text payloadText] (m i) = .ok r ∧
          findBytes r payloadText = some p := by
  unfold sigFailTest
  rw [C74_loop _ _ (fun i a _ => (withKey_small (by decide)
    (fun key => (sigFailBody_iff a (m i) (aux i) key).1)).1)]
  simp only [Nat.zero_add, withKey_iff (base := 1000) (by decide), (sigFailBody_iff _ _ _ _).2]
  constructor
  · intro h i alg msg h1 h2
    obtain ⟨key, a, r, b⟩ := h i (alg, msg) h1 h2
    exact ⟨key, r, b.choose, a, b.choose_spec⟩
  · intro h i c h1 h2
    obtain ⟨key, r, p, a, b⟩ := h i c.1 c.2 h1 h2
    exact ⟨key, a, r, p, b⟩

/-! ## CWT -/

theorem cwtBody_iff (m : Bytes) (key : Key) :
    Small (cwtBody cfg P C junk false m key) ∧
    (cwtBody cfg P C junk false m key = 0 ↔
      ∃ r, makeTwoStep cfg C ((SignCtx.init 0 algES256).setKey key (.data cwtKid)) [] claims m = .ok r ∧
        rfc8392First <+: r ∧
        (sign1Verify cfg P C junk ((VerifyCtx.init 0).setKey key) r true false).res = .ok ()) := by
  have hpre : ∀ r : Bytes, bufHead r rfc8392First.length = rfc8392First ↔ rfc8392First <+: r := by
    intro r
    unfold bufHead
    constructor
    · intro h
      split at h
      · exact absurd h (by decide)
      · rw [← h]; exact List.take_prefix _ _
    · intro h
      obtain ⟨t, rfl⟩ := h
      rw [if_neg (by simp), List.take_left]
  unfold cwtBody
  split
  next n hn =>
    have hb := makeTwoStep_error hn
    refine ⟨⟨by omega, by omega⟩, ?_⟩
    simp only [hn, reduceCtorEq, false_and, exists_false, iff_false]
    omega
  next r hr =>
    split
    next hh =>
      refine ⟨by decide, ?_⟩
      have : ¬ rfc8392First <+: r := fun h => hh ((hpre r).mpr h)
      simp [hr, this]
    next hh =>
      have hh : rfc8392First <+: r := (hpre r).mp (Decidable.not_not.mp hh)
      dsimp only
      split
      next x hx =>
        refine ⟨small_no (by decide) _, ?_⟩
        have := no_ne (b := 5000) (by decide) x
        simp [hr, hx, this]
      next hx =>
        simp [hr, hx, hh]
        decide

/-- **C82 (CWT).** `sign_verify_make_cwt_test` returns 0 exactly if a key was made, the message
begins with the octets in RFC 8392 and its verification succeeded. It says nothing about
the payload that the verification gives back. -/
theorem C82_cwt (m : Bytes) (K : Int → Except Err Key) :
    (cwtTest cfg P C junk false m K).1 = 0 ↔
      ∃ key r, K algES256 = .ok key ∧
        makeTwoStep cfg C ((SignCtx.init 0 algES256).setKey key (.data cwtKid)) [] claims m = .ok r ∧
        rfc8392First <+: r ∧
        (sign1Verify cfg P C junk ((VerifyCtx.init 0).setKey key) r true false).res = .ok () := by
  unfold cwtTest
  simp only [withKey_iff (base := 1000) (by decide), (cwtBody_iff _ _).2]
  constructor
  · rintro ⟨key, a, r, b⟩; exact ⟨key, r, a, b⟩
  · rintro ⟨key, r, a, b⟩; exact ⟨key, a, r, b⟩

/-! ## Messages made by others -/

theorem knownGoodAlg_iff (alg : Int) (msg aux : Bytes) (K : Except Err Key) :
    Small (knownGoodAlg cfg P C junk alg msg aux K).1 ∧
    ((knownGoodAlg cfg P C junk alg msg aux K).1 = 0 ↔
      (sign1Verify cfg P C junk (VerifyCtx.init (2 ^ optDecodeOnly)) msg true true).res = .ok () ∧
      (sign1Verify cfg P C junk (VerifyCtx.init (2 ^ optDecodeOnly)) msg true true).params.map (·.alg) =
        some alg ∧
      (let n := (sign1Verify cfg P C junk (VerifyCtx.init (2 ^ optDecodeOnly)) msg true true).ctx.auxiliaryBufferSize cfg
       let k := ((sign1Verify cfg P C junk (VerifyCtx.init (2 ^ optDecodeOnly)) msg true true).payload.map
         (·.ub.len)).getD 0
       (alg = algEDDSA → k ≤ n ∧ n ≤ k + 30) ∧ (alg ≠ algEDDSA → n = 0)) ∧
      ∃ key, K = .ok key ∧
        (sign1Verify cfg P C junk (((VerifyCtx.init 0).setAux cfg (.buf aux)).setKey key) msg true true).res =
          .ok () ∧
        (sign1Verify cfg P C junk (((VerifyCtx.init 0).setAux cfg (.buf aux)).setKey key) msg true true).payload.map
          (·.ub.bytes) = some payloadText) := by
  unfold knownGoodAlg
  dsimp only
  split
  next x hx =>
    refine ⟨small_no (by decide) _, ?_⟩
    have := no_ne (b := 1000) (by decide) x
    simp only [this, hx, reduceCtorEq, false_and]
  next hx =>
    split
    next ha => exact ⟨by decide, by simp [ha]⟩
    next ha =>
      have ha := Decidable.not_not.mp ha
      refine ⟨withKey_small (by decide) fun key => ?_, ?_⟩
      · split
        · decide
        · split
          · decide
          · split
            · exact small_no (by decide) _
            · split <;> decide
      rw [withKey_iff (by decide)]
      simp only [hx, ha, true_and]
      generalize (sign1Verify cfg P C junk (VerifyCtx.init (2 ^ optDecodeOnly)) msg true true).ctx.auxiliaryBufferSize
        cfg = n
      generalize ((sign1Verify cfg P C junk (VerifyCtx.init (2 ^ optDecodeOnly)) msg true true).payload.map
         (·.ub.len)).getD 0 = k
      constructor
      · rintro ⟨key, h1, h2⟩
        split at h2
        · cases h2
        next g1 =>
          split at h2
          · cases h2
          next g2 =>
            refine ⟨⟨fun h => ?_, fun h => ?_⟩, key, h1, ?_⟩
            · omega
            · omega
            · split at h2
              next x hx => exact absurd h2 (no_ne (by decide) x)
              next hv =>
                refine ⟨hv, ?_⟩
                split at h2
                · cases h2
                next hn => exact Decidable.not_not.mp hn
      · rintro ⟨⟨g1, g2⟩, key, h1, h2, h3⟩
        refine ⟨key, h1, ?_⟩
        rw [if_neg (by rintro ⟨h, h'⟩; have := g1 h; omega), if_neg (by rintro ⟨h, h'⟩; exact h' (g2 h)), h2]
        exact if_neg (fun hn => hn h3)

/-- **C82 (known good).** `sign_verify_known_good_test` returns 0 exactly if for each algorithm
supported the message in the table is decoded, names the algorithm, needs an auxiliary
buffer between the size of the payload and 30 octets more (EdDSA) or none (the others),
a key was made, and the message is verified with it and holds "payload". -/
theorem C82_known_good (aux : Nat → Bytes) (K : Nat → Int → Except Err Key) :
    (knownGoodTest cfg P C junk sup aux K).1 = 0 ↔
      ∀ i alg msg, testCases[i]? = some (alg, msg) → sup alg = true →
        (sign1Verify cfg P C junk (VerifyCtx.init (2 ^ optDecodeOnly)) msg true true).res = .ok () ∧
        (sign1Verify cfg P C junk (VerifyCtx.init (2 ^ optDecodeOnly)) msg true true).params.map (·.alg) =
          some alg ∧
        (let n := (sign1Verify cfg P C junk (VerifyCtx.init (2 ^ optDecodeOnly)) msg true true).ctx.auxiliaryBufferSize cfg
         let k := ((sign1Verify cfg P C junk (VerifyCtx.init (2 ^ optDecodeOnly)) msg true true).payload.map
           (·.ub.len)).getD 0
         (alg = algEDDSA → k ≤ n ∧ n ≤ k + 30) ∧ (alg ≠ algEDDSA → n = 0)) ∧
        ∃ key, K i alg = .ok key ∧
          (sign1Verify cfg P C junk (((VerifyCtx.init 0).setAux cfg (.buf (aux i))).setKey key) msg true true).res =
            .ok () ∧
          (sign1Verify cfg P C junk (((VerifyCtx.init 0).setAux cfg (.buf (aux i))).setKey key) msg true true).payload.map
            (·.ub.bytes) = some payloadText := by
  unfold knownGoodTest
  rw [C74_loop _ _ (fun i a _ => (knownGoodAlg_iff ..).1.1)]
  simp only [Nat.zero_add, (knownGoodAlg_iff _ _ _ _).2]
  exact ⟨fun h i alg msg h1 h2 => h i (alg, msg) h1 h2, fun h i c h1 h2 => h i c.1 c.2 h1 h2⟩

/-! ## Unsupported algorithms and bad auxiliary buffers -/

theorem unsupportedBody_iff (msg aux : Bytes) (key : Key) :
    Small (unsupportedBody cfg P C junk msg aux key) ∧
    (unsupportedBody cfg P C junk msg aux key = 0 ↔
      (sign1Verify cfg P C junk (verifyWith cfg key aux) msg false false).res = .error .unsupportedSigningAlg) := by
  unfold unsupportedBody
  dsimp only
  split
  next h => exact ⟨small_res (by decide) _, by simp [res_ne (b := 2000) (by decide), h]⟩
  next h => exact ⟨by decide, by simpa using h⟩

/-- **C82 (unsupported).** `sign_verify_unsupported_test` returns 0 exactly if for each algorithm
that is not supported a key for ES256 was made and the message in the table was refused
for its algorithm. It says nothing about signing. -/
theorem C82_unsupported (aux : Nat → Bytes) (K : Nat → Int → Except Err Key) :
    (unsupportedTest cfg P C junk sup aux K).1 = 0 ↔
      ∀ i alg msg, testCases[i]? = some (alg, msg) → sup alg = false →
        ∃ key, K i algES256 = .ok key ∧
          (sign1Verify cfg P C junk (verifyWith cfg key (aux i)) msg false false).res =
            .error .unsupportedSigningAlg := by
  unfold unsupportedTest
  rw [C74_loop _ _ (fun i _ m => (withKey_small (by decide) fun key => (unsupportedBody_iff m (aux i) key).1).1)]
  simp only [Nat.zero_add, withKey_iff (base := 1000) (by decide), (unsupportedBody_iff _ _ _).2, Bool.not_eq_true']
  exact ⟨fun h i alg msg h1 h2 => h i (alg, msg) h1 h2, fun h i c h1 h2 => h i c.1 c.2 h1 h2⟩

theorem badAuxBody_iff (m1 m2 small : Bytes) (key : Key) :
    Small (badAuxBody cfg P C junk m1 m2 small key) ∧
    (badAuxBody cfg P C junk m1 m2 small key = 0 ↔
      (sign1Verify cfg P C junk ((VerifyCtx.init 0).setKey key) knownEddsa false false).res =
        .error .needAuxiliaryBuffer ∧
      (sign1Verify cfg P C junk (verifyWith cfg key small) knownEddsa false false).res =
        .error .auxiliaryBufferSize ∧
      (sign1Sign cfg C ((SignCtx.init 0 algEDDSA).setKey key .nil) (.data payloadText) (.buf m1)).1 =
        .error .needAuxiliaryBuffer ∧
      (sign1Sign cfg C (signWith cfg algEDDSA key .nil small) (.data payloadText) (.buf m2)).1 =
        .error .auxiliaryBufferSize) := by
  unfold badAuxBody
  dsimp only
  split
  next h => exact ⟨small_res (by decide) _, by simp [res_ne (b := 2000) (by decide), h]⟩
  next h1 =>
    have h1 := Decidable.not_not.mp h1
    split
    next h => exact ⟨small_res (by decide) _, by simp [res_ne (b := 3000) (by decide), h]⟩
    next h2 =>
      have h2 := Decidable.not_not.mp h2
      split
      next h => exact ⟨small_res (by decide) _, by simp [res_ne (b := 4000) (by decide), h]⟩
      next h3 =>
        have h3 := Decidable.not_not.mp h3
        split
        next h => exact ⟨small_res (by decide) _, by simp [res_ne (b := 5000) (by decide), h]⟩
        next h4 => exact ⟨by decide, by simp [h1, h2, h3, Decidable.not_not.mp h4]⟩

/-- **C82 (bad auxiliary buffer).** `sign_verify_bad_auxiliary_buffer` returns 0 exactly if EdDSA is
not supported, or a key was made and verification and signing without auxiliary buffer and
with one of 5 octets are refused with the two errors for that. -/
theorem C82_bad_aux (m1 m2 small : Bytes) (K : Int → Except Err Key) :
    (badAuxTest cfg P C junk sup m1 m2 small K).1 = 0 ↔ (sup algEDDSA = true → ∃ key, K algEDDSA = .ok key ∧
      (sign1Verify cfg P C junk ((VerifyCtx.init 0).setKey key) knownEddsa false false).res =
        .error .needAuxiliaryBuffer ∧
      (sign1Verify cfg P C junk (verifyWith cfg key small) knownEddsa false false).res =
        .error .auxiliaryBufferSize ∧
      (sign1Sign cfg C ((SignCtx.init 0 algEDDSA).setKey key .nil) (.data payloadText) (.buf m1)).1 =
        .error .needAuxiliaryBuffer ∧
      (sign1Sign cfg C (signWith cfg algEDDSA key .nil small) (.data payloadText) (.buf m2)).1 =
        .error .auxiliaryBufferSize) := by
  unfold badAuxTest
  split
  next h => simp [h]
  next h =>
    rw [withKey_iff (by decide)]
    simp only [(badAuxBody_iff _ _ _ _).2, Decidable.not_not.mp h, true_implies]

/-! ## Sizes -/

/-- What `size_test` finds out about a key: the size is asked for with a NULL buffer, it is
between that of signature, payload and key id and 30 octets more; so is that of the
auxiliary buffer for EdDSA, and 0 for the others; and signing in two steps and in one
call gives messages of that size. -/
def Sizes (cfg : Config) (C : Crypto) (cap : Nat) (alg : Int) (kid : UB) (m1 m2 aux : Bytes) (key : Key) : Prop :=
  let me0 := (SignCtx.init 0 alg).setKey key kid
  ∃ sig me e me' e' size r r',
    C.sigSize alg key = .ok sig ∧
    sign1EncodeParameters cfg me0 (Enc.init (.null cap)) = (.ok (), me, e) ∧
    sign1EncodeSignature cfg C me (e.addEncoded (.data payloadText)) = (.ok (), me', e') ∧
    e'.finish = .ok size ∧
    sig + payloadText.length + kid.len ≤ size.len ∧ size.len ≤ sig + payloadText.length + kid.len + 30 ∧
    (alg = algEDDSA → payloadText.length + kid.len ≤ me'.auxiliaryBufferSize cfg ∧
      me'.auxiliaryBufferSize cfg ≤ payloadText.length + kid.len + 30) ∧
    (alg ≠ algEDDSA → me'.auxiliaryBufferSize cfg = 0) ∧
    (let me1 := if me'.auxiliaryBufferSize cfg > 0 then me0.setAux cfg (.buf aux) else me0
     (∃ me2 e2 me3 e3, sign1EncodeParameters cfg me1 (Enc.init (.buf m1)) = (.ok (), me2, e2) ∧
       sign1EncodeSignature cfg C me2 (e2.addEncoded (.data payloadText)) = (.ok (), me3, e3) ∧
       e3.finish = .ok r) ∧
     (sign1Sign cfg C me1 (.data payloadText) (.buf m2)).1 = .ok r') ∧
    r.len = size.len ∧ r'.len = size.len

theorem sizeBody_small (cap : Nat) (alg : Int) (kid : UB) (m1 m2 aux : Bytes) (key : Key) :
    Small (sizeBody cfg C cap alg kid m1 m2 aux key) := by
  unfold sizeBody
  dsimp only
  repeat' split
  all_goals first
    | exact small_no (by decide) _
    | decide

theorem sizeBody_iff (cap : Nat) (alg : Int) (kid : UB) (m1 m2 aux : Bytes) (key : Key) :
    sizeBody cfg C cap alg kid m1 m2 aux key = 0 ↔ Sizes cfg C cap alg kid m1 m2 aux key := by
  unfold sizeBody Sizes
  dsimp only
  constructor
  · intro h
    split at h
    next x _ => exact absurd h (no_ne (by decide) x)
    next sig h1 =>
    split at h
    next x _ _ _ => exact absurd h (no_ne (by decide) x)
    next me e h2 =>
    split at h
    next x _ _ _ => exact absurd h (no_ne (by decide) x)
    next me' e' h3 =>
    split at h
    · cases h
    next size h4 =>
    split at h
    · cases h
    next g1 =>
    split at h
    · cases h
    next g2 =>
    split at h
    · cases h
    next g3 =>
    split at h
    next x _ _ _ => exact absurd h (no_ne (by decide) x)
    next me2 e2 h5 =>
    split at h
    next x _ _ _ => exact absurd h (no_ne (by decide) x)
    next me3 e3 h6 =>
    split at h
    · cases h
    next r h7 =>
    split at h
    · cases h
    next g4 =>
    split at h
    next x _ => exact absurd h (no_ne (by decide) x)
    next r' h8 =>
    split at h
    · cases h
    next g5 =>
    refine ⟨sig, me, e, me', e', size, r, r', h1, h2, h3, h4, by omega, by omega, fun ha => ?_, fun ha => ?_,
      ⟨⟨me2, e2, me3, e3, h5, h6, h7⟩, h8⟩, by omega, by omega⟩
    · omega
    · omega
  · rintro ⟨sig, me, e, me', e', size, r, r', h1, h2, h3, h4, g1, g1', g2, g3, ⟨⟨me2, e2, me3, e3, h5, h6, h7⟩, h8⟩,
      g4, g5⟩
    rw [h1, h2]
    simp only
    rw [h3]
    simp only
    rw [h4]
    simp only
    rw [if_neg (by omega), if_neg (by rintro ⟨a, b⟩; have := g2 a; omega), if_neg (by rintro ⟨a, b⟩; exact b (g3 a)),
      h5]
    simp only
    rw [h6]
    simp only
    rw [h7]
    simp only
    rw [if_neg (by omega), h8]
    simp only
    rw [if_neg (by omega)]

/-- **C82 (sizes).** `sign_verify_get_size_test` returns 0 exactly if for each algorithm supported,
without and with a key id, a key was made and the sizes are as they should be. -/
theorem C82_size (cap : Nat) (m1 m2 aux : Nat → Bytes) (K : Nat → Int → Except Err Key) :
    (sizeTest cfg C sup cap m1 m2 aux K).1 = 0 ↔
      ∀ i alg msg, testCases[i]? = some (alg, msg) → sup alg = true →
        (∃ key, K (2 * i) alg = .ok key ∧
          Sizes cfg C cap alg .nil (m1 (2 * i)) (m2 (2 * i)) (aux (2 * i)) key) ∧
        (∃ key, K (2 * i + 1) alg = .ok key ∧
          Sizes cfg C cap alg (.data "greasy kid stuff".toUTF8.toList) (m1 (2 * i + 1)) (m2 (2 * i + 1))
            (aux (2 * i + 1)) key) := by
  have hkid : "greasy kid stuff".toUTF8.toList = greasyKid := by decide +kernel
  rw [hkid]
  unfold sizeTest
  rw [C74_loop _ _ (fun i a _ => ?_)]
  · simp only [Nat.zero_add]
    have key : ∀ (i : Nat) (alg : Int),
        (let t := withKey (K (2 * i) alg) 1000
          (sizeBody cfg C cap alg .nil (m1 (2 * i)) (m2 (2 * i)) (aux (2 * i)))
        if t.1 ≠ 0 then t
        else
          let q := withKey (K (2 * i + 1) alg) 1000
            (sizeBody cfg C cap alg (.data greasyKid) (m1 (2 * i + 1)) (m2 (2 * i + 1)) (aux (2 * i + 1)))
          (q.1, t.2 ++ q.2)).1 = 0 ↔
        (∃ key, K (2 * i) alg = .ok key ∧
          Sizes cfg C cap alg .nil (m1 (2 * i)) (m2 (2 * i)) (aux (2 * i)) key) ∧
        (∃ key, K (2 * i + 1) alg = .ok key ∧
          Sizes cfg C cap alg (.data greasyKid) (m1 (2 * i + 1)) (m2 (2 * i + 1)) (aux (2 * i + 1)) key) := by
      intro i alg
      dsimp only
      simp only [← sizeBody_iff, ← withKey_iff (base := 1000) (by decide)]
      split
      next h => simp [h]
      next h => simp [Decidable.not_not.mp h]
    constructor
    · intro h i alg msg h1 h2
      exact (key i alg).mp (h i (alg, msg) h1 h2)
    · intro h i c h1 h2
      exact (key i c.1).mpr (h i c.1 c.2 h1 h2)
  · dsimp only
    split
    · exact (withKey_small (by decide) fun key => sizeBody_small ..).1
    · exact (withKey_small (by decide) fun key => sizeBody_small ..).1

end TCose.Props
