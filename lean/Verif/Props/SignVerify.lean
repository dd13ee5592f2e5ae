import Verif.Lemmas.SignVerify
import Verif.Crypto.Toy

/-!
# C74: the tests that sign and verify with a crypto library

test/t_cose_sign_verify_test.c makes keys, signs, verifies, asks for sizes and checks
messages made by other implementations.  Here: what each test returns with any adapter
whose keys work, in every build, and that the keys made are all freed.
-/

namespace TCose.Props
open TCose Spec TestMsg SuiteTest SignVerifyTest

variable {cfg : Config} {C : Crypto} {D : Int → Bytes → Bytes} (junk : Junk) {alg : Int} {key : Key}
  {n : Nat}

/-! ## The loops -/

/-- **C74 (loop).** If the values of the rows are above -10000, a loop over the table returns 0
exactly if every row selected returns 0. -/
theorem C74_loop (sel : Int → Bool) (run : Nat → Int → Bytes → Int × List KeyEvent)
    (hlow : ∀ i a m, -10000 < (run i a m).1) :
    ∀ (rows : List (Int × Bytes)) (i : Nat), (caseLoop sel run i rows).1 = 0 ↔
      ∀ j c, rows[j]? = some c → sel c.1 = true → (run (i + j) c.1 c.2).1 = 0
  | [], i => by simp [caseLoop]
  | c :: r, i => by
    have ih := C74_loop sel run hlow r (i + 1)
    have hstep : (∀ j d, (c :: r)[j]? = some d → sel d.1 = true → (run (i + j) d.1 d.2).1 = 0) ↔
        (sel c.1 = true → (run i c.1 c.2).1 = 0) ∧
        ∀ j d, r[j]? = some d → sel d.1 = true → (run (i + 1 + j) d.1 d.2).1 = 0 := by
      constructor
      · intro h
        refine ⟨fun hs => h 0 c rfl hs, fun j d hd hs => ?_⟩
        have := h (j + 1) d hd hs
        rwa [show i + (j + 1) = i + 1 + j by omega] at this
      · rintro ⟨h1, h2⟩ j d hd hs
        cases j with
        | zero => cases hd; exact h1 hs
        | succ j =>
          have := h2 j d hd hs
          rwa [show i + 1 + j = i + (j + 1) by omega] at this
    rw [hstep]
    unfold caseLoop
    by_cases hs : sel c.1 = true
    · rw [if_pos hs]
      by_cases h0 : (run i c.1 c.2).1 = 0
      · simp only [h0, ne_eq, not_true_eq_false, if_false, implies_true, true_and]
        exact ih
      · have hl := hlow i c.1 c.2
        simp only [h0, ne_eq, not_false_eq_true, if_true, hs, true_implies, false_and, iff_false]
        omega
    · rw [if_neg hs, ih]
      simp [hs]

theorem loop_zero {sel : Int → Bool} {run : Nat → Int → Bytes → Int × List KeyEvent}
    (h : ∀ i c, c ∈ testCases → sel c.1 = true → (run i c.1 c.2).1 = 0) :
    ∀ (rows : List (Int × Bytes)) (i : Nat), (∀ c ∈ rows, c ∈ testCases) →
      (caseLoop sel run i rows).1 = 0
  | [], _, _ => rfl
  | c :: r, i, hr => by
    have ih := loop_zero h r (i + 1) (fun d hd => hr d (by simp [hd]))
    unfold caseLoop
    by_cases hs : sel c.1 = true
    · rw [if_pos hs]
      simp only [h i c (hr c (by simp)) hs, ne_eq, not_true_eq_false, if_false]
      exact ih
    · rw [if_neg hs]
      exact ih

theorem withKey_zero {r : Except Err Key} {base : Int} {body : Key → Int}
    (hr : r = .ok key) (hb : body key = 0) : (withKey r base body).1 = 0 := by
  subst hr
  exact hb

/-! ## Signing and verifying -/

/-- Octets of the payload and of its encoding as a text string. -/
theorem lead_small (he : algEnabled cfg alg) {kid : Option Bytes}
    (hkid : kid = none ∨ kid = some greasyKid) {w : Bytes}
    (hw : w = payloadText ∨ w = encAll [.text payloadText]) :
    (lead alg kid w).length ≤ 40 ∧ 14 ≤ (lead alg kid w).length ∧
    (sigStructure (protectedHeader alg) [] w).length ≤ 100 := by
  rcases enabled_cases he with h | h | h | h | h | h | h <;> subst h <;>
    rcases hkid with h | h <;> subst h <;> rcases hw with h | h <;> subst h <;> decide +kernel

theorem auxFor_sign (he : algEnabled cfg alg) {kid : UB} {aux : Bytes} {k : Nat} (hk : k ≤ aux.length) :
    AuxFor alg (signWith cfg alg key kid aux).aux k := by
  intro h8
  rw [signWith_aux (enabled_eddsa he h8)]
  exact ⟨hk, rfl⟩

theorem auxFor_verify {aux : Bytes} {k : Nat} (hk : k ≤ aux.length) (hE : cfg.disableEDDSA = false) :
    AuxFor alg (verifyWith cfg key aux).aux k := by
  intro _
  rw [verifyWith_aux hE]
  exact ⟨hk, rfl⟩

theorem setUp_specKid {me : SignCtx} {kid : UB} (h : SetUp me alg key kid) :
    specKid me = if kid.isNullOrEmpty then none else some kid.bytes := by
  unfold specKid
  rw [h.kid, h.sc]
  rfl

theorem specKid_nil (aux : Bytes) : specKid (signWith cfg alg key .nil aux) = none :=
  setUp_specKid (signWith_setUp cfg alg key .nil aux)

/-- **C74 (basic).** With a key that works, what is signed in one call is verified and the
payload comes back. -/
theorem C74_basic_row (hfit : SignFits C) (hk : KeyWorks cfg C D alg key n) (m aux : Bytes)
    (hm : m.length = 300) (ha : aux.length = 100) :
    basicBody cfg QParams.std C junk alg m aux key = 0 := by
  obtain ⟨l1, l2, l3⟩ := lead_small hk.enabled (.inl rfl) (.inl rfl)
  have hsmall := hk.small
  obtain ⟨s, s1, s2, s3⟩ := real_sign hfit (signWith_setUp cfg alg key .nil aux) hk payloadText
    (by decide) (auxFor_sign hk.enabled (by omega)) m (by rw [specKid_nil]; omega)
    (by rw [specKid_nil]; omega)
  rw [specKid_nil] at s3
  have v1 := real_check junk hk.hashes (enabled_cases hk.enabled) (kid := none) (.inl rfl)
    (w := payloadText) (s := s) (by decide) (by omega) (by omega) (verifyWith_flags (cfg := cfg) (key := key) aux)
    (auxFor_verify (by omega)) false true
  rw [verifyWith_key, s2] at v1
  obtain ⟨-, -, -, v2⟩ := real_verify junk hk.hashes (enabled_cases hk.enabled) (kid := none) (.inl rfl)
    (w := payloadText) (s := s) (by decide) (by omega) (by omega) (verifyWith_flags (cfg := cfg) (key := key) aux)
    false true
  unfold basicBody
  rw [s3]
  simp only [data_bytes]
  rw [show (sign1Verify cfg QParams.std C junk (verifyWith cfg key aux) _ true false).res = .ok () from v1]
  simp only
  exact if_neg (fun h => h (v2 v1))

/-- **C74 (basic).** `sign_verify_basic_test` returns 0 when for every algorithm that is
said to be supported a key can be made that works. -/
theorem C74_basic (hfit : SignFits C) (sup : Int → Bool) (K : Nat → Int → Except Err Key)
    (hK : ∀ i c, c ∈ testCases → sup c.1 = true →
      ∃ key n, K i c.1 = .ok key ∧ KeyWorks cfg C D c.1 key n)
    (m aux : Nat → Bytes) (hm : ∀ i, (m i).length = 300) (ha : ∀ i, (aux i).length = 100) :
    (basicTest cfg QParams.std C junk sup m aux K).1 = 0 := by
  refine loop_zero (fun i c hc hs => ?_) testCases 0 (fun _ h => h)
  obtain ⟨key, n, h1, h2⟩ := hK i c hc hs
  exact withKey_zero h1 (C74_basic_row junk hfit h2 _ _ (hm i) (ha i))

/-! ## Tampering -/

/-- The payload of the tampered message: the text string "hayload". -/
def hayload : Bytes := [0x67, 0x68, 0x61, 0x79, 0x6c, 0x6f, 0x61, 0x64]

theorem text_payload : encAll [.text payloadText] = 0x67 :: payloadText := by decide +kernel

theorem lead_text (he : algEnabled cfg alg) :
    lead alg none (0x67 :: payloadText) =
      (lead alg none (0x67 :: payloadText)).take ((lead alg none (0x67 :: payloadText)).length - 7) ++
        payloadText ∧
    (∀ p, p < ((lead alg none (0x67 :: payloadText)).take
        ((lead alg none (0x67 :: payloadText)).length - 7)).length →
      (((lead alg none (0x67 :: payloadText)).take ((lead alg none (0x67 :: payloadText)).length - 7) ++
        payloadText).drop p).take payloadText.length ≠ payloadText) ∧
    (lead alg none (0x67 :: payloadText)).set ((lead alg none (0x67 :: payloadText)).take
        ((lead alg none (0x67 :: payloadText)).length - 7)).length 0x68 = lead alg none hayload ∧
    ((lead alg none (0x67 :: payloadText)).take
        ((lead alg none (0x67 :: payloadText)).length - 7)).length <
      (lead alg none (0x67 :: payloadText)).length ∧
    (lead alg none hayload).length ≤ 1000 ∧ (sigStructure (protectedHeader alg) [] hayload).length ≤ 100 := by
  rcases enabled_cases he with h | h | h | h | h | h | h <;> subst h <;> decide +kernel

/-- **C74 (tampering).** The test makes a signature that is verified for the payload; what it
returns when the value for a wrong result is kept is decided by what the adapter says about
that signature for the tampered payload.  As it is written, the test returns 0 whatever the
adapter says. -/
theorem C74_sig_fail_row (hfit : SignFits C) (hk : KeyWorks cfg C D alg key n) (m aux : Bytes)
    (hm : m.length = 300) (ha : aux.length = 100) :
    ∃ s, s.length = n ∧
      (∀ kid, adapterVerify cfg C D alg key kid
        (sigStructure (protectedHeader alg) [] (0x67 :: payloadText)) s = .ok ()) ∧
      sigFailBody cfg QParams.std C junk true alg m aux key =
        (if adapterVerify cfg C D alg key none (sigStructure (protectedHeader alg) [] hayload) s =
            .error .sigVerify then 0
          else 5000 + resNo (adapterVerify cfg C D alg key none
            (sigStructure (protectedHeader alg) [] hayload) s)) ∧
      sigFailBody cfg QParams.std C junk false alg m aux key = 0 := by
  obtain ⟨l1, l2, l3⟩ := lead_small hk.enabled (kid := none) (.inl rfl) (.inr rfl)
  obtain ⟨t1, t2, t3, t4, t5, t6⟩ := lead_text hk.enabled
  have hsmall := hk.small
  obtain ⟨s, s1, s2, s3⟩ := real_two_step hfit (signWith_setUp cfg alg key .nil aux) hk
    [.text payloadText] m (by decide +kernel) (by decide) (by decide +kernel) (by decide)
    (auxFor_sign hk.enabled (by omega)) (by rw [specKid_nil]; omega)
  rw [specKid_nil] at s3
  rw [text_payload] at s2 s3 l1
  refine ⟨s, s1, s2, ?_⟩
  have hfind : findBytes (lead alg none (0x67 :: payloadText) ++ (Item.bstr s).enc) payloadText =
      some ((lead alg none (0x67 :: payloadText)).take
        ((lead alg none (0x67 :: payloadText)).length - 7)).length := by
    have := findBytes_at (r := (Item.bstr s).enc) t2
    rw [← t1] at this
    exact this
  have hset : (lead alg none (0x67 :: payloadText) ++ (Item.bstr s).enc).set
      ((lead alg none (0x67 :: payloadText)).take
        ((lead alg none (0x67 :: payloadText)).length - 7)).length 0x68 =
      lead alg none hayload ++ (Item.bstr s).enc := by
    rw [List.set_append_left _ _ t4, t3]
  have v1 := real_check junk hk.hashes (enabled_cases hk.enabled) (kid := none) (.inl rfl)
    (w := hayload) (s := s) (by decide) t5 (by omega) (verifyWith_flags (cfg := cfg) (key := key) aux)
    (auxFor_verify (by omega)) false true
  rw [verifyWith_key, ← hset] at v1
  have hrun : ∀ keep, sigFailBody cfg QParams.std C junk keep alg m aux key =
      (let rv : Int := if (sign1Verify cfg QParams.std C junk (verifyWith cfg key aux)
          ((lead alg none (0x67 :: payloadText) ++ (Item.bstr s).enc).set
            ((lead alg none (0x67 :: payloadText)).take
              ((lead alg none (0x67 :: payloadText)).length - 7)).length 0x68) true false).res ≠
          .error .sigVerify then 5000 + resNo (sign1Verify cfg QParams.std C junk (verifyWith cfg key aux)
          ((lead alg none (0x67 :: payloadText) ++ (Item.bstr s).enc).set
            ((lead alg none (0x67 :: payloadText)).take
              ((lead alg none (0x67 :: payloadText)).length - 7)).length 0x68) true false).res else 0
       if keep then rv else 0) := by
    intro keep
    unfold sigFailBody
    rw [s3]
    simp only [hfind]
  refine ⟨?_, ?_⟩
  · rw [hrun true]
    show (if (verifyInternal cfg QParams.std C junk _ _ .nil (.inline true) false).res ≠ _ then
      5000 + resNo (verifyInternal cfg QParams.std C junk _ _ .nil (.inline true) false).res else 0) = _
    rw [v1]
    by_cases hv : adapterVerify cfg C D alg key none (sigStructure (protectedHeader alg) [] hayload) s =
      .error .sigVerify
    · rw [if_pos hv]
      exact if_neg (fun h => h hv)
    · rw [if_neg hv]
      exact if_pos hv
  · rw [hrun false]
    rfl

/-- **C74 (tampering).** `sign_verify_sig_fail_test` returns 0. -/
theorem C74_sig_fail (hfit : SignFits C) (sup : Int → Bool) (K : Nat → Int → Except Err Key)
    (hK : ∀ i c, c ∈ testCases → sup c.1 = true →
      ∃ key n, K i c.1 = .ok key ∧ KeyWorks cfg C D c.1 key n)
    (m aux : Nat → Bytes) (hm : ∀ i, (m i).length = 300) (ha : ∀ i, (aux i).length = 100) :
    (sigFailTest cfg QParams.std C junk sup false m aux K).1 = 0 := by
  refine loop_zero (fun i c hc hs => ?_) testCases 0 (fun _ h => h)
  obtain ⟨key, n, h1, h2⟩ := hK i c hc hs
  obtain ⟨-, -, -, -, h⟩ := C74_sig_fail_row junk hfit h2 (m i) (aux i) (hm i) (ha i)
  exact withKey_zero h1 h

/-- **C74 (tampering, the test sees nothing).** With an adapter that accepts every signature,
tampering is not noticed, and the test returns 0 nevertheless.  If it kept the value, it
would return 5000. -/
theorem C74_sig_fail_blind (hfit : SignFits C) (hk : KeyWorks cfg C D alg key n)
    (hall : ∀ kid t s, adapterVerify cfg C D alg key kid t s = .ok ()) (m aux : Bytes)
    (hm : m.length = 300) (ha : aux.length = 100) :
    sigFailBody cfg QParams.std C junk false alg m aux key = 0 ∧
    sigFailBody cfg QParams.std C junk true alg m aux key = 5000 := by
  obtain ⟨s, -, -, h1, h2⟩ := C74_sig_fail_row junk hfit hk m aux hm ha
  refine ⟨h2, ?_⟩
  rw [h1, hall]
  rfl

/-! ## The token of RFC 8392 -/

theorem cwt_lead : lead (-7) (some cwtKid) (encAll claims) = rfc8392First := by decide +kernel

/-- **C74 (CWT).** The token is made as in RFC 8392, it is verified, and its claims come back;
so the comparison whose value is thrown away would not have failed. -/
theorem C74_cwt_row (keep : Bool) (hfit : SignFits C) (hk : KeyWorks cfg C D (-7) key n)
    (hn : n ≤ 100) (m : Bytes) (hm : m.length = 300) :
    cwtBody cfg QParams.std C junk keep m key = 0 := by
  have hkid : specKid ((SignCtx.init 0 (-7)).setKey key (.data cwtKid)) = some cwtKid :=
    setUp_specKid (setKey_setUp (-7) key (.data cwtKid))
  obtain ⟨s, s1, s2, s3⟩ := real_two_step hfit (setKey_setUp (-7) key (.data cwtKid)) hk
    claims m (by decide +kernel) (by decide) (by decide +kernel) (by decide)
    (fun h => by cases h) (by rw [hkid, cwt_lead, hm]; have : rfc8392First.length = 109 := by decide
                              omega)
  have hf : lead (-7) (some cwtKid) (encAll claims) = rfc8392First := cwt_lead
  have v1 := real_check junk hk.hashes (enabled_cases hk.enabled) (kid := some cwtKid) (.inr rfl)
    (w := encAll claims) (s := s) (by decide +kernel) (by rw [hf]; decide) (by omega)
    (vm := (VerifyCtx.init 0).setKey key) rfl (fun _ h => by cases h) false true
  rw [show ((VerifyCtx.init 0).setKey key).key = key from rfl, s2] at v1
  obtain ⟨-, -, -, v2⟩ := real_verify junk hk.hashes (enabled_cases hk.enabled) (kid := some cwtKid)
    (.inr rfl) (w := encAll claims) (s := s) (by decide +kernel) (by rw [hf]; decide) (by omega)
    (vm := (VerifyCtx.init 0).setKey key) rfl false true
  rw [hkid] at s3
  unfold cwtBody
  rw [show makeTwoStep cfg C ((SignCtx.init 0 algES256).setKey key (.data cwtKid)) [] claims m = _ from s3]
  simp only
  refine Eq.trans (if_neg (fun h => h ?_)) ?_
  · rw [show (sign1Verify cfg QParams.std C junk ((VerifyCtx.init 0).setKey key) _ true false).res = .ok ()
      from v1]
    simp only
    have : (if (sign1Verify cfg QParams.std C junk ((VerifyCtx.init 0).setKey key)
        (lead (-7) (some cwtKid) (encAll claims) ++ (Item.bstr s).enc) true false).payload.map
          (·.ub.bytes) ≠ some (bufTail rfc8392First (1 + 1 + 1 + 18 + 8)) then (6000 : Int) else 0) = 0 := by
      refine if_neg (fun h => h ?_)
      refine Eq.trans (v2 v1) ?_
      decide +kernel
    rw [this]
    cases keep <;> rfl
  · rw [hf, bufHead_left (Nat.le_refl _)]
    decide

/-- **C74 (CWT).** `sign_verify_make_cwt_test` returns 0. -/
theorem C74_cwt (keep : Bool) (hfit : SignFits C) (K : Int → Except Err Key)
    (hK : K (-7) = .ok key) (hk : KeyWorks cfg C D (-7) key n) (hn : n ≤ 100) (m : Bytes)
    (hm : m.length = 300) : (cwtTest cfg QParams.std C junk keep m K).1 = 0 :=
  withKey_zero hK (C74_cwt_row junk keep hfit hk hn m hm)

/-! ## Sizes -/

theorem greasy_specKid : specKid ((SignCtx.init 0 alg).setKey key (.data greasyKid)) = some greasyKid :=
  setUp_specKid (setKey_setUp alg key (.data greasyKid))

theorem size_numbers (he : algEnabled cfg alg) {kid : UB} (hkid : kid = .nil ∨ kid = .data greasyKid) :
    15 + kid.len ≤ (lead alg (if kid.isNullOrEmpty then none else some kid.bytes) payloadText).length ∧
    (lead alg (if kid.isNullOrEmpty then none else some kid.bytes) payloadText).length ≤ 18 + kid.len + 3 ∧
    kid.len ≤ 16 ∧ kid.bytes.length ≤ 16 ∧
    (alg = -8 → (sigStructure (protectedHeader alg) [] payloadText).length = 25) := by
  rcases enabled_cases he with h | h | h | h | h | h | h <;> subst h <;>
    rcases hkid with h | h <;> subst h <;> decide +kernel

/-- The context after signing in two steps is the one after signing in one call. -/
theorem steps_ctx {me me1 me2 : SignCtx} {e1 e2 : Enc} {w : Bytes} {out : Mem}
    (h1 : sign1EncodeParameters cfg me (Enc.init out) = (.ok (), me1, e1))
    (h2 : sign1EncodeSignature cfg C me1 (e1.addEncoded (.data w)) = (.ok (), me2, e2)) :
    (signAadInternal cfg C me false (.data w) .nil out).2.1 = me2 := by
  unfold signAadInternal
  rw [show encodeParametersInternal cfg me false (Enc.init out) = _ from h1]
  simp only [Bool.false_eq_true, if_false]
  rw [show encodeSignatureInternal cfg C me1 .nil .nil (e1.addEncoded (.data w)) = _ from h2]
  simp only
  split
  · rfl
  · rfl
  · split <;> rfl

/-- **C74 (sizes).** For every algorithm, without and with a key id: the size that is asked
for is within the limits of the test, the size of the auxiliary buffer too, and both ways of
signing make a message of the size that was announced. -/
theorem C74_size_row (hfit : SignFits C) (hk : KeyWorks cfg C D alg key n) (cap : Nat)
    (hcap : 1000 ≤ cap) {kid : UB} (hkid : kid = .nil ∨ kid = .data greasyKid) (m1 m2 aux : Bytes)
    (h1 : m1.length = 300) (h2 : m2.length = 300) (ha : aux.length = 100) :
    sizeBody cfg C cap alg kid m1 m2 aux key = 0 := by
  obtain ⟨z1, z2, z3, z4, z5⟩ := size_numbers hk.enabled hkid
  have hsmall := hk.small
  have hcmp : ∀ {me : SignCtx}, SetUp me alg key kid → specKid me =
      if kid.isNullOrEmpty then none else some kid.bytes := fun h => setUp_specKid h
  generalize hko : (if kid.isNullOrEmpty = true then none else some kid.bytes) = ko at z1 z2 hcmp
  have hp4 : (protectedHeader alg).length ≤ 1000 := by
    rcases enabled_cases hk.enabled with h | h | h | h | h | h | h <;> subst h <;> decide
  have hhn := head_small hk.small
  have hhp : 1 ≤ (Spec.head 2 n).length := by
    unfold Spec.head
    repeat' split
    all_goals simp
  -- the size query
  have hset0 := setKey_setUp alg key kid
  have hL : ∀ s : Bytes, s.length = n → (lead alg ko payloadText ++ (Item.bstr s).enc).length =
      (lead alg ko payloadText).length + (Spec.head 2 n).length + n := by
    intro s hs
    rw [List.length_append, bstr_len, hs]
    omega
  have hwf : kid.wf := by rcases hkid with h | h <;> subst h <;> rfl
  have hb0 : begun cfg ((SignCtx.init 0 alg).setKey key kid) false payloadText =
      (lead alg ko payloadText).length - 1 := by rw [hset0.begun, hcmp hset0]
  have hq : (signAadInternal cfg C ((SignCtx.init 0 alg).setKey key kid) false (.data payloadText) .nil
      (.null cap)).1 = .ok (.null ((lead alg ko payloadText).length + (Spec.head 2 n).length + n)) := by
    rw [C67_size (N := 4294967295) cfg C D ((SignCtx.init 0 alg).setKey key kid) false (.data payloadText)
      .nil hk.hashes cap ⟨by decide, by show (protectedHeader alg).length ≤ _; omega, by decide, by decide⟩
      rfl rfl (by simp) (fun _ _ => rfl) (by rw [data_bytes, hb0]; omega)]
    have ho : queryOutcome cfg C ((SignCtx.init 0 alg).setKey key kid) false payloadText []
        (toBeSignedHash cfg D ((SignCtx.init 0 alg).setKey key kid) payloadText []) cap =
        .ok ((lead alg ko payloadText).length + (Spec.head 2 n).length + n) := by
      unfold queryOutcome
      rw [hset0.fault hk.enabled]
      simp only
      rw [hb0, if_neg (by omega)]
      have hask : askSize C ((SignCtx.init 0 alg).setKey key kid) payloadText []
          (toBeSignedHash cfg D ((SignCtx.init 0 alg).setKey key kid) payloadText []) = .ok n := by
        unfold askSize
        rw [if_neg (by rw [hset0.sc]; simp), hset0.alg, hset0.key]
        by_cases h8 : alg = -8
        · rw [if_pos h8, if_neg]
          · exact hk.size
          · unfold toBeSigned
            rw [hset0.alg, z5 h8]
            show ¬ 18446744073709551615 < 25
            omega
        · rw [if_neg h8]
          unfold toBeSignedHash
          rw [hset0.alg]
          cases hh : hashFor cfg alg with
          | none =>
            exfalso
            unfold hashFor at hh
            rw [if_pos hk.enabled] at hh
            rcases enabled_cases hk.enabled with h | h | h | h | h | h | h <;> subst h <;>
              first | (exact h8 rfl) | (revert hh; decide)
          | some ha => exact hk.size
      rw [hask]
      simp only
      rw [hset0.finished, hcmp hset0, hL _ (List.length_replicate ..), if_neg (by omega)]
    rw [show queryOutcome cfg C ((SignCtx.init 0 alg).setKey key kid) false (UB.data payloadText).bytes
      UB.nil.bytes (toBeSignedHash cfg D ((SignCtx.init 0 alg).setKey key kid)
        (UB.data payloadText).bytes UB.nil.bytes) cap = _ from ho]
    rfl
  have htwo : ∀ (me : SignCtx) (out : Mem), SetUp me alg key kid →
      (EddsaCopies me → out.isNull = false) →
      twoStepSign cfg C me .nil [.raw payloadText] out =
        (signAadInternal cfg C me false (.data payloadText) .nil out).1 := fun me out hs hc =>
    C06_two_step_equals_one_shot cfg C hfit me .nil [.raw payloadText] out (by decide +kernel)
      (by decide) (by
        rw [hs.kid, hs.ctText, show (encAll [.raw payloadText]).length = 7 by decide +kernel]
        show kid.bytes.length + 0 + 7 + 128 < _
        omega) (fun h => ⟨hc h, rfl⟩)
  obtain ⟨a1, b1, c1, d1, p1, q1, r1⟩ := steps_of ((htwo _ (.null cap) hset0
    (fun h => absurd h.2.2 (by show ¬ (true = false); decide))).trans hq)
  have hctx := steps_ctx (w := payloadText) p1 q1
  -- the auxiliary buffer
  have hax8 : alg = -8 → c1.auxiliaryBufferSize cfg = 25 := by
    intro h8
    rw [← hctx, C30_sign_exact cfg C _ false (.data payloadText) .nil payloadText (.null cap) rfl
      (.inl rfl) (by rw [hset0.alg]; exact h8) hset0.sc (fun _ => rfl) _ hq, hset0.alg]
    exact z5 h8
  have hax0 : alg ≠ -8 → c1.auxiliaryBufferSize cfg = 0 := by
    intro h8
    rw [← hctx]
    exact C30_sign_zero cfg 0 alg (.inl h8) _ (.sign C false _ _ _ (.setKey key kid .init))
  -- signing
  generalize hme : (if c1.auxiliaryBufferSize cfg > 0 then
    ((SignCtx.init 0 alg).setKey key kid).setAux cfg (.buf aux) else
    (SignCtx.init 0 alg).setKey key kid) = me
  have hset : SetUp me alg key kid := by
    rw [← hme]
    split
    · exact signWith_setUp cfg alg key kid aux
    · exact hset0
  have haux : AuxFor alg me.aux (sigStructure (protectedHeader alg) [] payloadText).length := by
    intro h8
    rw [← hme, hax8 h8, if_pos (by decide), z5 h8]
    have := signWith_aux (alg := alg) (key := key) (kid := kid) (enabled_eddsa hk.enabled h8) aux
    unfold signWith at this
    rw [this]
    exact ⟨by show 25 ≤ aux.length; omega, rfl⟩
  obtain ⟨s, s1, -, s3⟩ := real_sign hfit hset hk payloadText (by decide) haux m1
    (by rw [hcmp hset]; omega) (by rw [hcmp hset]; omega)
  obtain ⟨t, t1, -, t3⟩ := real_sign hfit hset hk payloadText (by decide) haux m2
    (by rw [hcmp hset]; omega) (by rw [hcmp hset]; omega)
  rw [hcmp hset] at s3 t3
  obtain ⟨a2, b2, c2, d2, p2, q2, r2⟩ := steps_of ((htwo me (.buf m1) hset (fun _ => rfl)).trans s3)
  unfold sizeBody
  rw [hk.size]
  simp only
  rw [p1]
  simp only
  rw [show sign1EncodeSignature cfg C a1 (b1.addEncoded (.data payloadText)) = _ from q1]
  simp only
  rw [r1]
  simp only
  have hlen : (UB.null ((lead alg ko payloadText).length + (Spec.head 2 n).length + n)).len =
    (lead alg ko payloadText).length + (Spec.head 2 n).length + n := rfl
  have hpl : payloadText.length = 7 := rfl
  refine Eq.trans (if_neg ?_) ?_
  · rw [hlen, hpl]
    omega
  refine Eq.trans (if_neg ?_) ?_
  · rintro ⟨h8, h⟩
    rw [hax8 h8, hpl] at h
    omega
  refine Eq.trans (if_neg ?_) ?_
  · rintro ⟨h8, h⟩
    exact h (hax0 h8)
  rw [hme, p2]
  simp only
  rw [show sign1EncodeSignature cfg C a2 (b2.addEncoded (.data payloadText)) = _ from q2]
  simp only
  rw [r2]
  simp only
  have hs' : (UB.data (lead alg ko payloadText ++ (Item.bstr s).enc)).len = (UB.null
    ((lead alg ko payloadText).length + (Spec.head 2 n).length + n)).len := hL s s1
  refine Eq.trans (if_neg (fun h => h hs')) ?_
  rw [show (sign1Sign cfg C me (.data payloadText) (.buf m2)).1 = _ from t3]
  exact if_neg (fun h => h (hL t t1))

/-- **C74 (sizes).** `sign_verify_get_size_test` returns 0. -/
theorem C74_size (hfit : SignFits C) (sup : Int → Bool) (K : Nat → Int → Except Err Key)
    (hK : ∀ i c, c ∈ testCases → sup c.1 = true →
      ∃ key n, K i c.1 = .ok key ∧ KeyWorks cfg C D c.1 key n)
    (cap : Nat) (hcap : 1000 ≤ cap) (m1 m2 aux : Nat → Bytes) (h1 : ∀ i, (m1 i).length = 300)
    (h2 : ∀ i, (m2 i).length = 300) (ha : ∀ i, (aux i).length = 100) :
    (sizeTest cfg C sup cap m1 m2 aux K).1 = 0 := by
  refine loop_zero (fun i c hc hs => ?_) testCases 0 (fun _ h => h)
  obtain ⟨key, n, k1, k2⟩ := hK (2 * i) c hc hs
  obtain ⟨key', n', k1', k2'⟩ := hK (2 * i + 1) c hc hs
  have e1 := withKey_zero (base := 1000) k1 (C74_size_row hfit k2 cap hcap (.inl rfl) _ _ _ (h1 (2 * i))
    (h2 (2 * i)) (ha (2 * i)))
  have e2 := withKey_zero (base := 1000) k1' (C74_size_row hfit k2' cap hcap (.inr rfl) _ _ _
    (h1 (2 * i + 1)) (h2 (2 * i + 1)) (ha (2 * i + 1)))
  simp only
  rw [if_neg (fun h => h e1)]
  exact e2

/-! ## Messages made by others -/

/-- The octets of the signatures of the messages in the table. -/
def knownSigSize (alg : Int) : Nat :=
  if alg = -7 ∨ alg = -8 then 64 else if alg = -35 then 96 else if alg = -36 then 132 else 256

/-- The signature of a message of the table: its last octets. -/
def knownSig (c : Int × Bytes) : Bytes := c.2.drop (c.2.length - knownSigSize c.1)

/-- What is signed in the messages of the table. -/
def knownTbs (alg : Int) : Bytes := sigStructure (protectedHeader alg) [] payloadText

theorem known_split : ∀ c ∈ testCases, c.2 = lead c.1 none payloadText ++ (Item.bstr (knownSig c)).enc ∧
    (knownSig c).length ≤ 256 ∧ (lead c.1 none payloadText).length ≤ 1000 ∧
    (c.1 = -7 ∨ c.1 = -35 ∨ c.1 = -36 ∨ c.1 = -37 ∨ c.1 = -38 ∨ c.1 = -39 ∨ c.1 = -8) ∧
    (knownTbs c.1).length ≤ 100 ∧ (c.1 = -8 → (knownTbs c.1).length = 25) := by
  decide +kernel

/-- What decoding a row of the table has to return. -/
def knownOk (cfg : Config) (c : Int × Bytes) : Bool :=
  let d := sign1Verify cfg QParams.std toyCrypto noJunk (VerifyCtx.init (2 ^ optDecodeOnly)) c.2 true
    true
  decide (d.res = .ok ()) && (decide (d.params.map (·.alg) = some c.1) &&
    (decide (d.payload.map (·.ub.len) = some 7) &&
      decide (d.ctx.auxiliaryBufferSize cfg = if cfg.disableEDDSA = false ∧ c.1 = -8 then 25 else 0)))

theorem known_all : ∀ b1 b2 b3 b4 b5 b6 b7 b8,
    testCases.all (knownOk ⟨b1, b2, b3, b4, b5, b6, b7, b8⟩) = true := by
  decide +kernel

theorem known_toy (cfg : Config) : ∀ c ∈ testCases,
    (sign1Verify cfg QParams.std toyCrypto noJunk (VerifyCtx.init (2 ^ optDecodeOnly)) c.2 true
      true).res = .ok () ∧
    (sign1Verify cfg QParams.std toyCrypto noJunk (VerifyCtx.init (2 ^ optDecodeOnly)) c.2 true
      true).params.map (·.alg) = some c.1 ∧
    (sign1Verify cfg QParams.std toyCrypto noJunk (VerifyCtx.init (2 ^ optDecodeOnly)) c.2 true
      true).payload.map (·.ub.len) = some 7 ∧
    (sign1Verify cfg QParams.std toyCrypto noJunk (VerifyCtx.init (2 ^ optDecodeOnly)) c.2 true
      true).ctx.auxiliaryBufferSize cfg =
      if cfg.disableEDDSA = false ∧ c.1 = -8 then 25 else 0 := by
  intro c hc
  have h : knownOk cfg c = true := List.all_eq_true.mp (known_all cfg.1 cfg.2 cfg.3 cfg.4 cfg.5 cfg.6
    cfg.7 cfg.8) c hc
  unfold knownOk at h
  simp only [Bool.and_eq_true, decide_eq_true_eq] at h
  exact h

/-- Decoding a message of the table without verifying it. -/
theorem known_decode (c : Int × Bytes) (hc : c ∈ testCases) :
    (sign1Verify cfg QParams.std C junk (VerifyCtx.init (2 ^ optDecodeOnly)) c.2 true true).res =
      .ok () ∧
    (sign1Verify cfg QParams.std C junk (VerifyCtx.init (2 ^ optDecodeOnly)) c.2 true
      true).params.map (·.alg) = some c.1 ∧
    (sign1Verify cfg QParams.std C junk (VerifyCtx.init (2 ^ optDecodeOnly)) c.2 true
      true).payload.map (·.ub.len) = some 7 ∧
    (sign1Verify cfg QParams.std C junk (VerifyCtx.init (2 ^ optDecodeOnly)) c.2 true
      true).ctx.auxiliaryBufferSize cfg =
      if cfg.disableEDDSA = false ∧ c.1 = -8 then 25 else 0 := by
  obtain ⟨t1, t2, t3, t4⟩ := known_toy cfg c hc
  obtain ⟨h1, h2, h3, h4⟩ := C14_no_crypto cfg QParams.std toyCrypto noJunk
    (VerifyCtx.init (2 ^ optDecodeOnly)) c.2 .nil (.inline true) true C Key.null (by decide)
  have hj : sign1Verify cfg QParams.std C junk (VerifyCtx.init (2 ^ optDecodeOnly)) c.2 true true =
      verifyInternal cfg QParams.std C noJunk
        { VerifyCtx.init (2 ^ optDecodeOnly) with key := Key.null } c.2 .nil (.inline true) true :=
    C20_no_uninitialised _ _ _ _ _ _ _ _ _ _
  rw [hj, h1, h2, h3, h4]
  exact ⟨t1, t2, t3, t4⟩

/-- Verifying a message of the table with a key. -/
theorem known_check (hD : Hashes 4294967295 cfg C D alg) {c : Int × Bytes} (hc : c ∈ testCases)
    (halg : c.1 = alg) {vm : VerifyCtx} (hf : vm.flags = 0)
    (hx : cfg.disableEDDSA = false → AuxFor alg vm.aux (knownTbs alg).length) (want wp : Bool) :
    (sign1Verify cfg QParams.std C junk vm c.2 wp want).res =
      adapterVerify cfg C D alg vm.key none (knownTbs alg) (knownSig c) ∧
    ((sign1Verify cfg QParams.std C junk vm c.2 true want).res = .ok () →
      (sign1Verify cfg QParams.std C junk vm c.2 true want).payload.map (·.ub.bytes) =
        some payloadText) := by
  subst halg
  obtain ⟨k1, k2, k3, k4, -, -⟩ := known_split c hc
  have e1 := real_check junk hD k4 (.inl rfl) (w := payloadText) (by decide) k3 k2 hf hx want wp
  obtain ⟨-, -, -, e2⟩ := real_verify junk hD k4 (.inl rfl) (w := payloadText) (by decide) k3 k2 hf want
    true
  rw [← k1] at e1 e2
  exact ⟨e1, e2⟩

/-- **C74 (known good).** With a key: the row of the table succeeds exactly if the adapter
accepts the signature in the table for the octets that RFC 8152 has signed, and otherwise
the value gives the adapter's error. -/
theorem C74_known_good_row (hD : Hashes 4294967295 cfg C D alg) (he : algEnabled cfg alg)
    {c : Int × Bytes} (hc : c ∈ testCases) (halg : c.1 = alg) (aux : Bytes) (ha : aux.length = 100)
    (key : Key) :
    knownGoodAlg cfg QParams.std C junk alg c.2 aux (.ok key) =
      (match adapterVerify cfg C D alg key none (knownTbs alg) (knownSig c) with
        | .ok () => 0
        | .error x => 4000 + x.no, [.made key, .freed key]) := by
  obtain ⟨d1, d2, d3, d4⟩ := known_decode (cfg := cfg) (C := C) junk c hc
  obtain ⟨-, -, -, -, k5, -⟩ := known_split c hc
  rw [halg] at d2 d4 k5
  unfold knownGoodAlg
  dsimp only
  rw [d1]
  dsimp only
  refine Eq.trans (if_neg (fun h => h d2)) ?_
  have hx : cfg.disableEDDSA = false → AuxFor alg
      (((VerifyCtx.init 0).setAux cfg (.buf aux)).setKey key).aux (knownTbs alg).length := by
    intro hE _
    unfold VerifyCtx.setAux
    rw [hE]
    exact ⟨by show _ ≤ aux.length; omega, rfl⟩
  have hfl : (((VerifyCtx.init 0).setAux cfg (.buf aux)).setKey key).flags = 0 := by
    unfold VerifyCtx.setAux
    split <;> rfl
  have hkey : (((VerifyCtx.init 0).setAux cfg (.buf aux)).setKey key).key = key := rfl
  obtain ⟨e1, e2⟩ := known_check junk hD hc halg hfl hx true true
  rw [hkey] at e1
  have hlen : ((sign1Verify cfg QParams.std C junk (VerifyCtx.init (2 ^ optDecodeOnly)) c.2 true
      true).payload.map (·.ub.len)).getD 0 = 7 := by rw [d3]; rfl
  unfold withKey
  dsimp only
  rw [hlen, d4]
  refine congrArg (fun v => (v, [KeyEvent.made key, KeyEvent.freed key])) ?_
  refine Eq.trans (if_neg ?_) (Eq.trans (if_neg ?_) ?_)
  · rintro ⟨h8, h⟩
    rw [if_pos ⟨enabled_eddsa he h8, h8⟩] at h
    omega
  · rintro ⟨h8, h⟩
    exact h (if_neg (fun hh => h8 hh.2))
  · rw [e1]
    cases hv : adapterVerify cfg C D alg key none (knownTbs alg) (knownSig c) with
    | error x => rfl
    | ok u =>
      rw [hv] at e1
      exact if_neg (fun h => h (e2 e1))

/-- **C74 (known good).** `sign_verify_known_good_test` returns 0 if every supported algorithm
is in the build and the keys made accept the signatures of the table. -/
theorem C74_known_good (sup : Int → Bool) (K : Nat → Int → Except Err Key)
    (hK : ∀ i c, c ∈ testCases → sup c.1 = true → ∃ key, K i c.1 = .ok key ∧ algEnabled cfg c.1 ∧
      Hashes 4294967295 cfg C D c.1 ∧
      adapterVerify cfg C D c.1 key none (knownTbs c.1) (knownSig c) = .ok ())
    (aux : Nat → Bytes) (ha : ∀ i, (aux i).length = 100) :
    (knownGoodTest cfg QParams.std C junk sup aux K).1 = 0 := by
  refine loop_zero (fun i c hc hs => ?_) testCases 0 (fun _ h => h)
  obtain ⟨key, k1, k2, k3, k4⟩ := hK i c hc hs
  rw [k1, C74_known_good_row junk k3 k2 hc rfl (aux i) (ha i) key, k4]

/-! ## Algorithms that are not supported -/

/-- **C74 (unsupported).** The row of an algorithm succeeds exactly if the adapter refuses it as
an unsupported signature algorithm; in particular if the build does not have it. -/
theorem C74_unsupported_row (hD : Hashes 4294967295 cfg C D alg) {c : Int × Bytes} (hc : c ∈ testCases)
    (halg : c.1 = alg) (aux : Bytes) (ha : aux.length = 100) (key : Key) :
    (unsupportedBody cfg QParams.std C junk c.2 aux key = 0 ↔
      adapterVerify cfg C D alg key none (knownTbs alg) (knownSig c) = .error .unsupportedSigningAlg) := by
  obtain ⟨-, -, -, -, k5, -⟩ := known_split c hc
  rw [halg] at k5
  obtain ⟨e1, -⟩ := known_check junk hD hc halg (verifyWith_flags (cfg := cfg) (key := key) aux)
    (auxFor_verify (by omega)) false false
  rw [verifyWith_key] at e1
  unfold unsupportedBody
  dsimp only
  rw [e1]
  by_cases h : adapterVerify cfg C D alg key none (knownTbs alg) (knownSig c) =
      .error .unsupportedSigningAlg
  · rw [h]
    simp
  · refine ⟨fun h0 => ?_, fun h' => absurd h' h⟩
    rw [if_pos h] at h0
    exfalso
    revert h0
    cases adapterVerify cfg C D alg key none (knownTbs alg) (knownSig c) with
    | ok u => simp [resNo]
    | error x => cases x <;> simp [resNo, Err.no]

theorem not_enabled_refused (he : ¬ algEnabled cfg alg)
    (h : alg = -7 ∨ alg = -35 ∨ alg = -36 ∨ alg = -37 ∨ alg = -38 ∨ alg = -39 ∨ alg = -8) :
    Hashes 4294967295 cfg C D alg ∧ ∀ key kid t s,
      adapterVerify cfg C D alg key kid t s = .error .unsupportedSigningAlg := by
  have hh : hashFor cfg alg = none := by
    unfold hashFor
    rw [if_neg he]
  refine ⟨fun ha h => ?_, fun key kid t s => ?_⟩
  · rw [hh] at h
    cases h
  · unfold adapterVerify
    rw [if_neg, hh]
    rintro ⟨h1, h2⟩
    subst h2
    exact he (by simp [algEnabled, h1])

/-- **C74 (unsupported).** `sign_verify_unsupported_test` returns 0 if every algorithm not
supported is left out of the build, or is refused by the adapter as an unsupported signature
algorithm. -/
theorem C74_unsupported (sup : Int → Bool) (K : Nat → Int → Except Err Key)
    (hK : ∀ i c, c ∈ testCases → sup c.1 = false → ∃ key, K i (-7) = .ok key ∧
      (¬ algEnabled cfg c.1 ∨ (Hashes 4294967295 cfg C D c.1 ∧
        adapterVerify cfg C D c.1 key none (knownTbs c.1) (knownSig c) =
          .error .unsupportedSigningAlg)))
    (aux : Nat → Bytes) (ha : ∀ i, (aux i).length = 100) :
    (unsupportedTest cfg QParams.std C junk sup aux K).1 = 0 := by
  refine loop_zero (fun i c hc hs => ?_) testCases 0 (fun _ h => h)
  have hs' : sup c.1 = false := by simpa using hs
  obtain ⟨key, k1, k2⟩ := hK i c hc hs'
  obtain ⟨-, -, -, k4, -, -⟩ := known_split c hc
  refine withKey_zero k1 ?_
  rcases k2 with h | ⟨h1, h2⟩
  · obtain ⟨h1, h2⟩ := not_enabled_refused (C := C) (D := D) h k4
    exact (C74_unsupported_row junk h1 hc rfl (aux i) (ha i) key).mpr (h2 _ _ _ _)
  · exact (C74_unsupported_row junk h1 hc rfl (aux i) (ha i) key).mpr h2

/-! ## Auxiliary buffers -/

theorem known_eddsa_mem : ((-8, knownEddsa) : Int × Bytes) ∈ testCases := by decide +kernel

/-- **C74 (auxiliary buffer).** In every build with EdDSA, and with every adapter and key: no
buffer, and a buffer of five octets, are reported as the test expects. -/
theorem C74_bad_aux_row (hfit : SignFits C) (hE : cfg.disableEDDSA = false) (m1 m2 small : Bytes)
    (h1 : m1.length = 300) (h2 : m2.length = 300) (hs : small.length = 5) (key : Key) :
    badAuxBody cfg QParams.std C junk m1 m2 small key = 0 := by
  have he : algEnabled cfg (-8) := by simp [algEnabled, hE]
  have hD : Hashes 4294967295 cfg C toyDigest (-8) := by
    intro ha h
    unfold hashFor at h
    rw [if_pos he] at h
    cases h
  obtain ⟨k1, k2, k3, k4, -, k6⟩ := known_split _ known_eddsa_mem
  have hlen : (sigStructure (protectedHeader (-8)) [] payloadText).length = 25 := k6 rfl
  have hv : ∀ vm : VerifyCtx, vm.flags = 0 →
      (vm.aux.cap < 25 → (sign1Verify cfg QParams.std C junk vm knownEddsa false false).res =
        .error .auxiliaryBufferSize) ∧
      (25 ≤ vm.aux.cap → vm.aux.isNull = true →
        (sign1Verify cfg QParams.std C junk vm knownEddsa false false).res =
          .error .needAuxiliaryBuffer) := by
    intro vm hf
    obtain ⟨-, -, e, -⟩ := real_verify junk hD k4 (.inl rfl) (w := payloadText) (by decide) k3 k2 hf false
      false
    rw [← k1, hlen] at e
    exact e hE rfl
  have hsg : ∀ me : SignCtx, SetUp me (-8) key .nil → ∀ m : Bytes, m.length = 300 →
      (sign1Sign cfg C me (.data payloadText) (.buf m)).1 =
        if me.aux.cap < 25 then .error .auxiliaryBufferSize
        else if me.aux.isNull = true then .error .needAuxiliaryBuffer
        else (signAadInternal cfg C me false (.data payloadText) .nil (.buf m)).1 := by
    intro me hset m hm
    have hbeg := hset.begun (cfg := cfg) payloadText
    rw [setUp_specKid hset] at hbeg
    have hbl : begun cfg me false payloadText ≤ 40 := by
      rw [hbeg]
      exact Nat.le_trans (Nat.sub_le _ _) (lead_small he (.inl rfl) (.inl rfl)).1
    have hout := C67_sign (N := 4294967295) cfg C toyDigest me false (.data payloadText) .nil hfit
      (by rw [hset.alg]; exact hD) m rfl rfl
      ⟨by decide, by rw [hset.alg]; decide, by decide, by decide⟩ (by simp)
      (by rw [data_bytes]; omega)
    have hms : makeSig C me payloadText [] (toBeSignedHash cfg toyDigest me payloadText [])
        (m.length - begun cfg me false payloadText) =
        if me.aux.cap < 25 then .error .auxiliaryBufferSize
        else if me.aux.isNull = true then .error .needAuxiliaryBuffer
        else makeSig C me payloadText [] (toBeSignedHash cfg toyDigest me payloadText [])
          (m.length - begun cfg me false payloadText) := by
      unfold makeSig toBeSigned
      rw [if_neg (by rw [hset.sc]; simp), hset.alg, if_pos rfl, hlen]
      by_cases q1 : me.aux.cap < 25
      · rw [if_pos q1, if_pos q1]
      · rw [if_neg q1, if_neg q1]
        by_cases q2 : me.aux.isNull = true
        · rw [if_pos q2, if_pos q2]
        · rw [if_neg q2, if_neg q2]
    have hrun : ∀ x, makeSig C me payloadText [] (toBeSignedHash cfg toyDigest me payloadText [])
        (m.length - begun cfg me false payloadText) = .error x →
        (signAadInternal cfg C me false (.data payloadText) .nil (.buf m)).1 = .error x := by
      intro x hx
      rw [hout]
      have : outcome cfg C me false payloadText [] (toBeSignedHash cfg toyDigest me payloadText [])
          m.length = .error x := by
        unfold outcome
        rw [hset.fault he]
        simp only
        rw [if_neg (by omega), if_neg (by omega), hx]
      rw [show outcome cfg C me false (UB.data payloadText).bytes UB.nil.bytes (toBeSignedHash cfg
        toyDigest me (UB.data payloadText).bytes UB.nil.bytes) m.length = _ from this]
      rfl
    show (signAadInternal cfg C me false (.data payloadText) .nil (.buf m)).1 = _
    by_cases q1 : me.aux.cap < 25
    · rw [if_pos q1]
      rw [if_pos q1] at hms
      exact hrun _ hms
    · rw [if_neg q1]
      rw [if_neg q1] at hms
      by_cases q2 : me.aux.isNull = true
      · rw [if_pos q2]
        rw [if_pos q2] at hms
        exact hrun _ hms
      · rw [if_neg q2]
  have a1 := (hv ((VerifyCtx.init 0).setKey key) rfl).2 (by show 25 ≤ 18446744073709551615; decide) rfl
  have a2 := (hv (verifyWith cfg key small) (verifyWith_flags small)).1
    (by rw [verifyWith_aux hE]; show small.length < 25; omega)
  have a3 := hsg ((SignCtx.init 0 (-8)).setKey key .nil) (setKey_setUp _ _ _) m1 h1
  rw [if_neg (by show ¬ (18446744073709551615 < 25); omega), if_pos (show ((SignCtx.init 0 (-8)).setKey key .nil).aux.isNull = true from rfl)] at a3
  have a4 := hsg (signWith cfg (-8) key .nil small) (signWith_setUp _ _ _ _ _) m2 h2
  rw [if_pos (by rw [signWith_aux hE]; show small.length < 25; omega)] at a4
  unfold badAuxBody
  dsimp only
  refine Eq.trans (if_neg (fun h => h a1)) (Eq.trans (if_neg (fun h => h a2)) ?_)
  exact Eq.trans (if_neg (fun h => h a3)) (if_neg (fun h => h a4))

/-- **C74 (auxiliary buffer).** `sign_verify_bad_auxiliary_buffer` returns 0. -/
theorem C74_bad_aux (hfit : SignFits C) (sup : Int → Bool) (K : Int → Except Err Key)
    (hK : sup (-8) = true → cfg.disableEDDSA = false ∧ ∃ key, K (-8) = .ok key) (m1 m2 small : Bytes)
    (h1 : m1.length = 300) (h2 : m2.length = 300) (hs : small.length = 5) :
    (badAuxTest cfg QParams.std C junk sup m1 m2 small K).1 = 0 := by
  unfold badAuxTest
  by_cases h : sup algEDDSA = true
  · obtain ⟨hE, key, hk⟩ := hK h
    rw [if_neg (fun hh => hh h)]
    exact withKey_zero hk (C74_bad_aux_row junk hfit hE m1 m2 small h1 h2 hs key)
  · rw [if_pos h]

/-! ## Keys -/

/-- Keys made and freed one after the other. -/
def pairs (ks : List Key) : List KeyEvent := ks.flatMap (fun k => [.made k, .freed k])

theorem withKey_pairs {Q : Key → Prop} (r : Except Err Key) (hr : ∀ k, r = .ok k → Q k) (base : Int)
    (body : Key → Int) : ∃ ks, (withKey r base body).2 = pairs ks ∧ ∀ k ∈ ks, Q k := by
  cases r with
  | error x => exact ⟨[], rfl, by simp⟩
  | ok k => exact ⟨[k], rfl, by simpa using hr k rfl⟩

theorem pairs_append (a b : List Key) : pairs a ++ pairs b = pairs (a ++ b) := by
  simp [pairs]

/-- **C74 (keys).** Whatever the rows return, a loop over the table frees each key that it
makes before the next one is made. -/
theorem C74_keys_loop {Q : Key → Prop} {sel : Int → Bool}
    {run : Nat → Int → Bytes → Int × List KeyEvent}
    (h : ∀ i a m, ∃ ks, (run i a m).2 = pairs ks ∧ ∀ k ∈ ks, Q k) :
    ∀ (rows : List (Int × Bytes)) (i : Nat),
      ∃ ks, (caseLoop sel run i rows).2 = pairs ks ∧ ∀ k ∈ ks, Q k
  | [], _ => ⟨[], rfl, by simp⟩
  | c :: r, i => by
    obtain ⟨k1, h1, q1⟩ := h i c.1 c.2
    obtain ⟨k2, h2, q2⟩ := C74_keys_loop h r (i + 1)
    unfold caseLoop
    by_cases hs : sel c.1 = true
    · rw [if_pos hs]
      dsimp only
      by_cases h0 : (run i c.1 c.2).1 = 0
      · rw [if_neg (fun h => h h0)]
        refine ⟨k1 ++ k2, by rw [h1, h2, pairs_append], fun k hk => ?_⟩
        exact (List.mem_append.mp hk).elim (q1 k) (q2 k)
      · rw [if_pos h0]
        exact ⟨k1, h1, q1⟩
    · rw [if_neg hs]
      exact ⟨k2, h2, q2⟩

/-- **C74 (keys).** With any adapter, any keys and any results, every test frees each key that
it makes, once, on every path; the keys are among those that `make_key_pair` returned. -/
theorem C74_keys (P : QParams) (sup : Int → Bool) (keep : Bool) (cap : Nat) (m m2 aux : Nat → Bytes)
    (mm mm2 small : Bytes) (K : Nat → Int → Except Err Key) (K1 : Int → Except Err Key) :
    (∃ ks, (basicTest cfg P C junk sup m aux K).2 = pairs ks ∧ ∀ k ∈ ks, ∃ i a, K i a = .ok k) ∧
    (∃ ks, (sigFailTest cfg P C junk sup keep m aux K).2 = pairs ks ∧
      ∀ k ∈ ks, ∃ i a, K i a = .ok k) ∧
    (∃ ks, (cwtTest cfg P C junk keep mm K1).2 = pairs ks ∧ ∀ k ∈ ks, ∃ a, K1 a = .ok k) ∧
    (∃ ks, (sizeTest cfg C sup cap m m2 aux K).2 = pairs ks ∧ ∀ k ∈ ks, ∃ i a, K i a = .ok k) ∧
    (∃ ks, (knownGoodTest cfg P C junk sup aux K).2 = pairs ks ∧
      ∀ k ∈ ks, ∃ i a, K i a = .ok k) ∧
    (∃ ks, (unsupportedTest cfg P C junk sup aux K).2 = pairs ks ∧
      ∀ k ∈ ks, ∃ i a, K i a = .ok k) ∧
    (∃ ks, (badAuxTest cfg P C junk sup mm mm2 small K1).2 = pairs ks ∧
      ∀ k ∈ ks, ∃ a, K1 a = .ok k) := by
  have hK : ∀ i a k, K i a = .ok k → ∃ i a, K i a = .ok k := fun i a _ h => ⟨i, a, h⟩
  have hK1 : ∀ a k, K1 a = .ok k → ∃ a, K1 a = .ok k := fun a _ h => ⟨a, h⟩
  refine ⟨C74_keys_loop (fun i a b => withKey_pairs _ (hK i a) _ _) _ _,
    C74_keys_loop (fun i a b => withKey_pairs _ (hK i a) _ _) _ _, withKey_pairs _ (hK1 _) _ _,
    C74_keys_loop (fun i a b => ?_) _ _, C74_keys_loop (fun i a b => ?_) _ _,
    C74_keys_loop (fun i a b => withKey_pairs _ (hK i _) _ _) _ _, ?_⟩
  · dsimp only
    obtain ⟨k1, h1, q1⟩ := withKey_pairs (K (2 * i) a) (hK (2 * i) a) 1000
      (sizeBody cfg C cap a .nil (m (2 * i)) (m2 (2 * i)) (aux (2 * i)))
    obtain ⟨k2, h2, q2⟩ := withKey_pairs (K (2 * i + 1) a) (hK (2 * i + 1) a) 1000
      (sizeBody cfg C cap a (.data greasyKid) (m (2 * i + 1)) (m2 (2 * i + 1)) (aux (2 * i + 1)))
    split
    · exact ⟨k1, h1, q1⟩
    · refine ⟨k1 ++ k2, by rw [h1, h2, pairs_append], fun k hk => ?_⟩
      exact (List.mem_append.mp hk).elim (q1 k) (q2 k)
  · unfold knownGoodAlg
    dsimp only
    split
    · exact ⟨[], rfl, by simp⟩
    · split
      · exact ⟨[], rfl, by simp⟩
      · exact withKey_pairs _ (hK i a) _ _
  · unfold badAuxTest
    split
    · exact ⟨[], rfl, by simp⟩
    · exact withKey_pairs _ (hK1 _) _ _

/-! ## Non-vacuity -/

/-- The toy adapter has a key that works for every algorithm of the build. -/
theorem toy_keyWorks (he : algEnabled cfg alg) (key : Key) :
    KeyWorks cfg toyCrypto toyDigest alg key 64 := by
  refine ⟨he, toy_hashes _ _ _, rfl, by decide, fun t k hk => ?_⟩
  unfold adapterSign adapterVerify
  by_cases h8 : alg = -8
  · refine ⟨toySig t, ?_, toySig_length _, fun kid => ?_⟩
    · rw [if_pos h8]
      exact if_neg (by omega)
    · rw [if_pos ⟨enabled_eddsa he h8, h8⟩]
      exact if_pos rfl
  · rw [if_neg h8]
    cases hh : hashFor cfg alg with
    | none =>
      exfalso
      unfold hashFor at hh
      rw [if_pos he] at hh
      rcases enabled_cases he with h | h | h | h | h | h | h <;> subst h <;>
        first | (exact h8 rfl) | (revert hh; decide)
    | some ha =>
      refine ⟨toySig (toyDigest ha t), if_neg (by omega), toySig_length _, fun kid => ?_⟩
      rw [if_neg (fun h => h8 h.2)]
      exact if_pos rfl

theorem full_enabled : ∀ c ∈ testCases, algEnabled Config.full c.1 := by decide +kernel

example : (basicTest Config.full QParams.std toyCrypto noJunk (fun _ => true)
      (fun _ => List.replicate 300 0) (fun _ => List.replicate 100 0) (fun _ _ => .ok Key.null)).1 = 0 :=
  C74_basic noJunk toy_signFits _ _
    (fun _ c hc _ => ⟨Key.null, 64, rfl, toy_keyWorks (full_enabled c hc) _⟩) _ _
    (fun _ => List.length_replicate ..) (fun _ => List.length_replicate ..)

/-- The toy adapter finds the change of the payload. -/
example : (sigFailTest Config.full QParams.std toyCrypto noJunk (fun _ => true) true
      (fun _ => List.replicate 300 0) (fun _ => List.replicate 100 0) (fun _ _ => .ok Key.null)).1 = 0 := by
  decide +kernel

example : (cwtTest Config.full QParams.std toyCrypto noJunk true (List.replicate 300 0)
      (fun _ => .ok Key.null)).1 = 0 :=
  C74_cwt noJunk true toy_signFits _ rfl (toy_keyWorks (by decide) _) (by decide) _
    (List.length_replicate ..)

example : (sizeTest Config.full toyCrypto (fun _ => true) 1000 (fun _ => List.replicate 300 0)
      (fun _ => List.replicate 300 0) (fun _ => List.replicate 100 0) (fun _ _ => .ok Key.null)).1 = 0 :=
  C74_size toy_signFits _ _
    (fun _ c hc _ => ⟨Key.null, 64, rfl, toy_keyWorks (full_enabled c hc) _⟩) 1000 (by decide) _ _ _
    (fun _ => List.length_replicate ..) (fun _ => List.length_replicate ..)
    (fun _ => List.length_replicate ..)

/-- The toy adapter does not accept the signature of the table. -/
example : (knownGoodAlg Config.full QParams.std toyCrypto noJunk (-7) knownEs256 (List.replicate 100 0)
    (.ok Key.null)).1 = 4000 + Err.no .sigVerify := by decide +kernel

/-- A build without EdDSA passes the test of unsupported algorithms. -/
example : (unsupportedTest { Config.full with disableEDDSA := true } QParams.std toyCrypto noJunk
      (fun a => a != -8) (fun _ => List.replicate 100 0) (fun _ _ => .ok Key.null)).1 = 0 :=
  C74_unsupported (D := toyDigest) noJunk _ _ (fun i c hc h => ⟨Key.null, rfl, .inl (by
    have : c.1 = -8 := by simpa using h
    rw [this]
    decide)⟩) _ (by simp)

/-- An adapter that accepts the ES256 signature in the table. -/
def tableCrypto : Crypto :=
  { toyCrypto with verify := fun _ _ _ _ s => if s = knownSig (-7, knownEs256) then .ok () else .error .sigVerify }

example : (knownGoodTest Config.full QParams.std tableCrypto noJunk (fun a => a == -7)
      (fun _ => List.replicate 100 0) (fun _ _ => .ok Key.null)).1 = 0 := by decide +kernel

example : (badAuxTest Config.full QParams.std toyCrypto noJunk (fun _ => true) (List.replicate 300 0)
      (List.replicate 300 0) (List.replicate 5 0) (fun _ => .ok Key.null)).1 = 0 :=
  C74_bad_aux noJunk toy_signFits _ _ (fun _ => ⟨rfl, Key.null, rfl⟩) _ _ _
    (List.length_replicate ..) (List.length_replicate ..) (List.length_replicate ..)

/-- A test that fails in the second row frees both keys. -/
example : basicTest Config.full QParams.std
      { toyCrypto with sign := fun a _ h n => if a = -35 then .error .fail else toyCrypto.sign a Key.null h n }
      noJunk (fun _ => true) (fun _ => List.replicate 300 0) (fun _ => List.replicate 100 0)
      (fun _ _ => .ok Key.null) = (22000 + (Err.no .fail : Int), pairs [Key.null, Key.null]) := by
  decide +kernel

end TCose.Props
