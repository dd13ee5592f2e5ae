import Verif.Props.TestsShowMore

/-!
# C82 (continued): the exit status of the test program

With any adapter, any keys and any memory, the exit status is 0 exactly if every test
returned 0 and the number of keys left is a multiple of 256.
-/

namespace TCose.Props
open TCose Spec TestMsg SuiteTest RunTests SignVerifyTest

/-- A value that fits into the 32 bits that the runner looks at. -/
abbrev Narrow (z : Int) : Prop := -2147483648 ≤ z ∧ z ≤ 2147483647

theorem Small.narrow {z : Int} (h : Small z) : Narrow z := ⟨by omega, by omega⟩

section
variable (cfg : Config) (P : QParams) (C : Crypto) (junk : Junk) (sup : Int → Bool) (cap cap' : Nat)
  (buf : Nat → Stack) (rows : Nat → Row → Bytes) (K : Nat → Nat → Int → Except Err Key)

theorem twoStep_small {me : SignCtx} {ts : List Nat} {cs : List Content} {m : Bytes} {n : Int}
    (h : makeTwoStep cfg C me ts cs m = .error n) : Small n := by
  have := makeTwoStep_error h
  constructor <;> omega

theorem compareCwt_small {first r : Bytes} {n : Int} (hf : first ≠ []) (h : compareCwt first r = some n) :
    Small n := by
  rcases (compareCwt_iff hf).2 n h with h | h <;> rw [h] <;> decide

theorem loop_narrow {sel : Int → Bool} {run : Nat → Int → Bytes → Int × List KeyEvent}
    (h : ∀ i a m, Small (run i a m).1) : Narrow (caseLoop sel run 0 testCases).1 := by
  have := caseLoop_bound (sel := sel) h testCases 0
  rw [show testCases.length = 7 from rfl] at this
  constructor <;> omega

theorem nat_narrow {n k : Nat} (h : n ≤ k) (hk : k ≤ 100) : Narrow ((n : Nat) : Int) := ⟨by omega, by omega⟩

/-- The tests return values that the runner does not change. -/
theorem results_narrow : ∀ t ∈ realTests cfg P C junk sup cap cap' buf rows K, Narrow t.1.result := by
  have a1 : Narrow (structureTest cfg P C junk) := by
    have := (sampleLoop_iff (cfg := cfg) (P := P) (C := C) (junk := junk) samples 0).2
    rw [show samples.length = 10 from rfl] at this
    unfold structureTest
    constructor <;> omega
  have a2 := loop_narrow (sel := sup) (run := fun i alg _ =>
    withKey (K 0 i alg) 1000 (basicBody cfg P C junk alg (buf 20 300 i) (buf 20 100 i)))
    fun i a m => withKey_small (by decide) fun key => basicBody_small ..
  have a3 : Narrow (cwtTest cfg P C junk false (buf 21 300 0) (K 1 0)).1 :=
    (withKey_small (by decide) fun key => (cwtBody_iff ..).1).narrow
  have a4 := loop_narrow (sel := sup) (run := fun i alg _ =>
    withKey (K 2 i alg) 1000 (sigFailBody cfg P C junk false alg (buf 22 300 i) (buf 22 100 i)))
    fun i a m => withKey_small (by decide) fun key => (sigFailBody_iff ..).1
  have a5 : Narrow (sizeTest cfg C sup cap (buf 23 300) (fun i => buf 24 300 i) (buf 23 100) (K 3)).1 :=
    loop_narrow fun i a m => by
      dsimp only
      split
      · exact withKey_small (by decide) fun key => sizeBody_small ..
      · exact withKey_small (by decide) fun key => sizeBody_small ..
  have a6 : Narrow (knownGoodTest cfg P C junk sup (buf 25 100) (K 4)).1 :=
    loop_narrow fun i a m => (knownGoodAlg_iff ..).1
  have a7 : Narrow (unsupportedTest cfg P C junk sup (buf 26 100) (K 5)).1 :=
    loop_narrow fun i a m => withKey_small (by decide) fun key => (unsupportedBody_iff ..).1
  have a8 : Narrow (badAuxTest cfg P C junk sup (buf 27 300 0) (buf 27 300 1) (buf 27 5 2) (K 6 0)).1 := by
    unfold badAuxTest
    split
    · decide
    · exact (withKey_small (by decide) fun key => (badAuxBody_iff ..).1).narrow
  have b1 : Narrow (badParametersTest cfg P C junk payloadText (rows 0) : Nat) :=
    nat_narrow (tableLoop_iff _ _ 0).2 (by unfold badTable; split <;> decide)
  have b2 : Narrow (critParametersTest cfg P C junk payloadText (rows 1) : Nat) :=
    nat_narrow (tableLoop_iff _ _ 0).2 (by decide)
  have b3 : Narrow (contentTypeTest cfg P C junk (buf 2 200 0) (buf 2 200 1) (buf 2 200 2)) := by
    unfold contentTypeTest
    dsimp only
    repeat' split
    all_goals decide
  have b4 : Narrow (allHeaderParametersTest cfg P C junk content (buf 3 300 0) : Nat) := by
    unfold allHeaderParametersTest
    dsimp only
    repeat' split
    all_goals decide
  have b5 : Narrow (coseExampleTest cfg C (buf 4 200 0)) := by
    unfold coseExampleTest
    split
    next x _ => have := Err.no_le x; constructor <;> omega
    next => split <;> decide
  have b6 : Narrow (signingErrorsTest cfg C (buf 5 300 0) (buf 5 300 1) (buf 5 300 2) (buf 5 15 3)) := by
    unfold signingErrorsTest
    dsimp only
    repeat' split
    all_goals decide
  have b7 : Narrow (selfTest cfg P C junk (buf 6 200 0) (buf 6 200 1)) := by
    unfold selfTest
    dsimp only
    repeat' split
    all_goals first
      | exact (small_no (by decide) _).narrow
      | exact (selfTestAad_iff ..).1.narrow
      | decide
  have b8 : Narrow (detachedTest cfg P C junk (buf 7 200 0)) := by
    unfold detachedTest
    dsimp only
    repeat' split
    all_goals first
      | exact (small_no (by decide) _).narrow
      | decide
  have b9 : Narrow (decodeOnlyTest cfg P C junk (buf 8 200 0) (buf 8 10 1)) := by
    unfold decodeOnlyTest
    split
    next n hn => exact (twoStep_small _ _ hn).narrow
    next =>
      dsimp only
      repeat' split
      all_goals first
        | exact (small_no (by decide) _).narrow
        | decide
  have b10 : Narrow (makeCwtTest cfg P C junk (buf 9 200 0)) := by
    unfold makeCwtTest
    split
    next n hn => exact (twoStep_small _ _ hn).narrow
    next =>
      split
      next n hn => exact (compareCwt_small (by decide) hn).narrow
      next =>
        dsimp only
        repeat' split
        all_goals first
          | exact (small_no (by decide) _).narrow
          | decide
  have b11 : Narrow (verifyFailTest cfg P C junk (buf 10 200 0) (buf 10 200 1)) := by
    unfold verifyFailTest
    dsimp only
    repeat' split
    all_goals first
      | exact (small_no (by decide) _).narrow
      | exact (small_res (by decide) _).narrow
      | decide
  have b12 : Narrow (tagsTest cfg P C junk (buf 11 200 0) (buf 11 200 1) (buf 11 200 2)) := by
    have t1 : Narrow (tagsTest1 cfg P C junk (buf 11 200 0)) := by
      unfold tagsTest1
      split
      next n hn => exact (twoStep_small _ _ hn).narrow
      next =>
        split
        next n hn => exact (compareCwt_small (by decide) hn).narrow
        next =>
          dsimp only
          repeat' split
          all_goals first
            | exact (small_no (by decide) _).narrow
            | exact (small_res (by decide) _).narrow
            | decide
    have t2 : Narrow (tagsTest2 cfg P C junk (buf 11 200 1)) := by
      unfold tagsTest2
      split
      next n hn => exact (twoStep_small _ _ hn).narrow
      next =>
        dsimp only
        split
        · exact (small_res (by decide) _).narrow
        · decide
    have t3 : Narrow (tagsTest3 cfg P C junk (buf 11 200 2)) := by
      unfold tagsTest3
      split
      next n hn => exact (twoStep_small _ _ hn).narrow
      next =>
        dsimp only
        repeat' split
        all_goals first
          | exact (small_res (by decide) _).narrow
          | decide
    unfold tagsTest
    split
    · exact t1
    · split
      · exact t2
      · exact t3
  have b13 : Narrow (getSizeTest cfg C cap' (buf 12 300 0) (buf 12 300 1)) := by
    unfold getSizeTest
    repeat' split
    all_goals first
      | exact (small_no (by decide) _).narrow
      | decide
  have b14 : Narrow (indefTest cfg P C junk payloadText (buf 13 200 0) (buf 13 200 1) (buf 13 200 2) : Nat) := by
    unfold indefTest
    repeat' split
    all_goals decide
  intro t ht
  unfold realTests at ht
  dsimp only at ht
  simp only [List.mem_cons, List.mem_append, List.not_mem_nil, or_false] at ht
  rcases ht with (rfl | rfl | rfl | rfl | rfl | rfl | rfl | rfl) | ht
  · exact a1
  · exact a2
  · exact a3
  · exact a4
  · exact a5
  · exact a6
  · exact a7
  · exact a8
  · split at ht
    · cases ht
    · simp only [List.mem_cons, List.mem_append, List.not_mem_nil, or_false] at ht
      rcases ht with ((rfl | rfl) | hc) | (rfl | rfl | rfl | rfl | rfl | rfl | rfl | rfl | rfl | rfl | rfl)
      · exact b1
      · exact b2
      · split at hc
        · cases hc
        · rw [List.mem_singleton.mp hc]
          exact b3
      · exact b4
      · exact b5
      · exact b6
      · exact b7
      · exact b8
      · exact b9
      · exact b10
      · exact b11
      · exact b12
      · exact b13
      · exact b14

/-- **C82 (program).** With any adapter, keys and memory, the exit status of the test program run
without arguments is 0 exactly if every test of the build returned 0 and the number of keys
left is a multiple of 256. -/
theorem C82_program (leaks : List KeyEvent → Nat) :
    realStatus leaks (realTests cfg P C junk sup cap cap' buf rows K) [] = 0 ↔
      (∀ t ∈ realTests cfg P C junk sup cap cap' buf rows K, t.1.result = 0) ∧
      256 ∣ leaks (keyEvents (realTests cfg P C junk sup cap cap' buf rows K) []) := by
  have hb := results_narrow cfg P C junk sup cap cap' buf rows K
  have hen : ∀ t ∈ realTests cfg P C junk sup cap cap' buf rows K, t.1.enabled = true := by
    unfold realTests
    cases cfg.disableShortCircuit <;> cases cfg.disableContentType <;> simp
  have hlen : (realTests cfg P C junk sup cap cap' buf rows K).length < 256 := by
    unfold realTests
    cases cfg.disableShortCircuit <;> cases cfg.disableContentType <;> simp
  unfold realStatus mainStatus
  generalize leaks (keyEvents (realTests cfg P C junk sup cap cap' buf rows K) []) = lk
  generalize realTests cfg P C junk sup cap cap' buf rows K = ts at *
  have hf := (C60_report (ts.map (·.1)) []).2.1
  have hle : (runTests (ts.map (·.1)) []).failed < 256 := by
    rw [hf]
    refine Nat.lt_of_le_of_lt (Nat.le_trans (List.length_filter_le _ _) (List.length_filter_le _ _)) ?_
    simpa using hlen
  have hz : (runTests (ts.map (·.1)) []).failed = 0 ↔ ∀ t ∈ ts, t.1.result = 0 := by
    rw [(C60_verdict_partial (ts.map (·.1)) [] (by simp) (by
      intro t ht
      obtain ⟨x, hx, rfl⟩ := List.mem_map.mp ht
      exact hb x hx)).1]
    constructor
    · intro h t ht
      exact h t.1 (List.mem_map.mpr ⟨t, ht, rfl⟩) (by rw [if_pos rfl]; exact hen t ht)
    · intro h t ht _
      obtain ⟨x, hx, rfl⟩ := List.mem_map.mp ht
      exact h x hx
  rw [← hz]
  generalize (runTests (ts.map (·.1)) []).failed = f at *
  dsimp only
  split <;> omega

/-- **C82 (what the status shows).** If the exit status is 0, then, whatever the adapter does: what
was signed with each algorithm supported was verified with the same key and came back; the
messages in the test data were accepted; every algorithm that is not supported was refused;
and in a build with short-circuit signatures every row of the tables of header parameters
gave the expected result. -/
theorem C82_shows (leaks : List KeyEvent → Nat)
    (h : realStatus leaks (realTests cfg P C junk sup cap cap' buf rows K) [] = 0) :
    (∀ i alg msg, testCases[i]? = some (alg, msg) → sup alg = true →
      (∃ key r, K 0 i alg = .ok key ∧
        (sign1Sign cfg C (signWith cfg alg key .nil (buf 20 100 i)) (.data payloadText) (.buf (buf 20 300 i))).1 =
          .ok r ∧
        Gives (sign1Verify cfg P C junk (verifyWith cfg key (buf 20 100 i)) r.bytes true false) payloadText) ∧
      (∃ key, K 4 i alg = .ok key ∧
        Gives (sign1Verify cfg P C junk (((VerifyCtx.init 0).setAux cfg (.buf (buf 25 100 i))).setKey key)
          msg true true) payloadText)) ∧
    (∀ i alg msg, testCases[i]? = some (alg, msg) → sup alg = false →
      ∃ key, K 5 i algES256 = .ok key ∧
        (sign1Verify cfg P C junk (verifyWith cfg key (buf 26 100 i)) msg false false).res =
          .error .unsupportedSigningAlg) ∧
    (cfg.disableShortCircuit = false →
      (∀ t ∈ badTable cfg, signAndVerify cfg P C junk payloadText (rows 0 t) t.opts t.vopts = t.result) ∧
      (∀ t ∈ critTable, signAndVerify cfg P C junk payloadText (rows 1 t) t.opts t.vopts = t.result)) := by
  have hz := ((C82_program cfg P C junk sup cap cap' buf rows K leaks).mp h).1
  have get : ∀ t, t ∈ realTests cfg P C junk sup cap cap' buf rows K → t.1.result = 0 := hz
  have h1 : (basicTest cfg P C junk sup (buf 20 300) (buf 20 100) (K 0)).1 = 0 :=
    get (⟨cname "sign_verify_basic_test", _, true⟩,
      (basicTest cfg P C junk sup (buf 20 300) (buf 20 100) (K 0)).2) (by unfold realTests; simp)
  have h2 : (knownGoodTest cfg P C junk sup (buf 25 100) (K 4)).1 = 0 :=
    get (⟨cname "sign_verify_known_good_test", _, true⟩,
      (knownGoodTest cfg P C junk sup (buf 25 100) (K 4)).2) (by unfold realTests; simp)
  have h3 : (unsupportedTest cfg P C junk sup (buf 26 100) (K 5)).1 = 0 :=
    get (⟨cname "sign_verify_unsupported_test", _, true⟩,
      (unsupportedTest cfg P C junk sup (buf 26 100) (K 5)).2) (by unfold realTests; simp)
  refine ⟨fun i alg msg hi hs => ⟨(C82_basic _ _ _).mp h1 i alg msg hi hs, ?_⟩, (C82_unsupported _ _).mp h3,
    fun hsc => ⟨?_, ?_⟩⟩
  · obtain ⟨-, -, -, key, a, b⟩ := (C82_known_good _ _).mp h2 i alg msg hi hs
    exact ⟨key, a, b⟩
  · have h4 : ((badParametersTest cfg P C junk payloadText (rows 0) : Nat) : Int) = 0 :=
      get (⟨cname "bad_parameters_test", _, true⟩, []) (by unfold realTests; simp [hsc])
    exact (C82_tables _ _).1.mp (by omega)
  · have h4 : ((critParametersTest cfg P C junk payloadText (rows 1) : Nat) : Int) = 0 :=
      get (⟨cname "crit_parameters_test", _, true⟩, []) (by unfold realTests; simp [hsc])
    exact (C82_tables _ _).2.mp (by omega)

end

/-! ## What the status does not show -/

/-- The library with the checks of signatures taken out: every signature is accepted. -/
def osslYes (L : Ossl.Lib) : Ossl.Lib :=
  { L with pkeyVerify := fun _ _ _ _ => 1, digestVerify := fun _ _ _ => 1 }

def psaYes (L : Psa.Lib) : Psa.Lib := { L with verifyHash := fun _ _ _ _ => 0 }

theorem osslYes_key {L : Ossl.Lib} {k : Nat} {alg : Int} (h : Spec.Ossl.KeyFor L k alg) :
    Spec.Ossl.KeyFor (osslYes L) k alg where
  notNull := h.notNull
  ec := fun w ha h1 h2 => ⟨(h.ec w ha h1 h2).octets, fun hh n h3 h4 => by
    obtain ⟨der, r, s, a, b, c, d, -⟩ := (h.ec w ha h1 h2).signs hh n h3 h4
    exact ⟨der, r, s, a, b, c, d, rfl⟩⟩
  pss := fun ha h1 h2 => ⟨(h.pss ha h1 h2).size, fun hh n h3 h4 => by
    obtain ⟨s, a, b, -⟩ := (h.pss ha h1 h2).signs hh n h3 h4
    exact ⟨s, a, b, rfl⟩⟩
  ed := fun h8 => ⟨(h.ed h8).size, fun m n h3 => by
    obtain ⟨s, a, b, -⟩ := (h.ed h8).signs m n h3
    exact ⟨s, a, b, rfl⟩⟩

theorem osslYes_ready {cfg : Config} {L : Ossl.Lib} {D : Int → Bytes → Bytes} {A : L.Md → Int → Bytes → Prop}
    {d2i : Nat → Nat → EvpType → KeyData → Nat} (h : OpensslReady cfg L D A d2i) :
    OpensslReady cfg (osslYes L) D A d2i where
  works := ⟨h.works.bnR, h.works.bnS, h.works.sigNew, h.works.set0, h.works.ctxNew, h.works.signInit,
    h.works.verifyInit, h.works.setPadding, h.works.setMd, h.works.setMgf1, h.works.setSalt, h.works.mdCtxNew,
    h.works.dsInit, h.works.dvInit⟩
  i2d := h.i2d
  fits := ⟨h.fits.pkey, h.fits.digest⟩
  hashing := ⟨⟨h.hashing.digests.init, h.hashing.digests.update, h.hashing.digests.final⟩, h.hashing.known,
    h.hashing.update, h.hashing.final, h.hashing.len⟩
  sha := h.sha
  keys := fun t i data alg h1 h2 => osslYes_key (h.keys t i data alg h1 h2)
  known := fun t i data c h1 h2 h3 => ⟨fun w ha a b => by
    obtain ⟨r, s, x, y, z, -⟩ := (h.known t i data c h1 h2 h3).ec w ha a b
    exact ⟨r, s, x, y, z, rfl⟩, fun _ _ _ => rfl, fun _ => rfl⟩

theorem psaYes_ready {cfg : Config} {L : Psa.Lib} {D : Psa.HashAlg → Bytes → Bytes}
    {A : L.Op → Psa.HashAlg → Bytes → Prop} {imp : Nat → Nat → PsaType → KeyData → Psa.SigAlg → Int × UInt32}
    (h : PsaReady cfg L D A imp) : PsaReady cfg (psaYes L) D A imp where
  fits := ⟨h.fits.hash, h.fits.sign⟩
  hashing := ⟨⟨h.hashing.digests.init, h.hashing.digests.update, h.hashing.digests.final⟩, h.hashing.known,
    h.hashing.update, h.hashing.final, h.hashing.len⟩
  sha := h.sha
  imports := h.imports
  keys := fun t i data alg h1 h2 h3 =>
    let q := h.keys t i data alg h1 h2 h3
    ⟨q.attr, q.size, fun hh room a b => ⟨(q.signs hh room a b).1, (q.signs hh room a b).2.1, rfl⟩⟩
  known := fun _ _ _ _ _ _ _ _ => rfl

/-- **C82 (what the status does not show).** Take a library that the test program passes with
by C75 and let it accept every signature. The program still ends with the status 0 and
every test passes, in every build: no test looks at what becomes of a wrong signature. -/
theorem C82_accepts_everything {cfg : Config} (junk : Junk) (cap cap' : Nat) (hcap : 1000 ≤ cap)
    (hcap' : 200 ≤ cap') (buf : Nat → Stack) (hb : ∀ i n k, (buf i n k).length = n) (rows : Nat → Row → Bytes)
    (hr : ∀ i t, (rows i t).length = 200) (names : List Bytes) :
    (∀ (L : Ossl.Lib) D A d2i, OpensslReady cfg L D A d2i →
      realStatus osslKeyLeaks (realTests cfg QParams.std (Ossl.crypto cfg (osslYes L)) junk (Ossl.supported cfg)
        cap cap' buf rows (fun t i => osslMakeKey (d2i t i))) names = 0) ∧
    (∀ (L : Psa.Lib) D A imp, PsaReady cfg L D A imp →
      realStatus psaKeyLeaks (realTests cfg QParams.std (Psa.crypto cfg (psaYes L)) junk (Psa.supported cfg)
        cap cap' buf rows (fun t i => psaMakeKey 0 (imp t i))) names = 0) :=
  ⟨fun _ _ _ _ h => (C75_openssl junk cap cap' hcap hcap' buf hb rows hr (osslYes_ready h) names).2,
    fun _ _ _ _ h => (C75_psa junk cap cap' hcap hcap' buf hb rows hr (psaYes_ready h) names).2⟩

/-- The hypothesis of `C82_shows` is met with the OpenSSL library of C75. -/
example := C82_shows Config.full QParams.std (Ossl.crypto Config.full mainOssl) noJunk (Ossl.supported Config.full)
  2147483647 18446744073709551615 (fun _ n _ => List.replicate n 0xa5) (fun _ _ => List.replicate 200 0xa5)
  (fun _ _ => osslMakeKey mainD2i) osslKeyLeaks
  ((C75_openssl noJunk _ _ (by decide) (by decide) _ (fun _ _ _ => List.length_replicate ..) _
    (fun _ _ => List.length_replicate ..) (mainOssl_ready Config.full) []).2)

/-- The test program with libraries that accept everything, in the full build. -/
example : realStatus osslKeyLeaks (realTests Config.full QParams.std (Ossl.crypto Config.full (osslYes mainOssl)) noJunk
      (Ossl.supported Config.full) 2147483647 18446744073709551615 (fun _ n _ => List.replicate n 0xa5)
      (fun _ _ => List.replicate 200 0xa5) (fun _ _ => osslMakeKey mainD2i)) [] = 0 :=
  (C82_accepts_everything noJunk _ _ (by decide) (by decide) _ (fun _ _ _ => List.length_replicate ..) _
    (fun _ _ => List.length_replicate ..) []).1 _ _ _ (fun _ _ => mainD2i) (mainOssl_ready Config.full)

/-- Such a library accepts the EdDSA message of the test data with an octet of the
signature changed; the library of C75 does not. -/
example :
    (sign1Verify Config.full QParams.std (Ossl.crypto Config.full (osslYes mainOssl)) noJunk
      (verifyWith Config.full ⟨.openssl, 5⟩ (List.replicate 100 0)) (knownEddsa.set 60 0) false false).res = .ok () ∧
    (sign1Verify Config.full QParams.std (Ossl.crypto Config.full mainOssl) noJunk
      (verifyWith Config.full ⟨.openssl, 5⟩ (List.replicate 100 0)) (knownEddsa.set 60 0) false false).res = .error .sigVerify := by
  decide +kernel

/-- With 256 keys left and all tests passing the status is 0, with 255 it is not. -/
example : mainStatus [] [] 256 = 0 ∧ mainStatus [] [] 255 = 255 := by decide

/-- Keys that cannot be made: the tests fail. -/
example :
    (basicTest Config.full QParams.std (Ossl.crypto Config.full mainOssl) noJunk (Ossl.supported Config.full)
      (fun _ => []) (fun _ => []) (fun _ _ => .error .fail)).1 = 11017 := by decide +kernel

end TCose.Props
