import Verif.Lemmas.RealMain
import Verif.Props.TestMain

/-!
# C75: the test program with OpenSSL and with PSA

Everything from `main` down to the calls of the crypto library: with a library that
hashes, signs and verifies as its documentation says, the program prints that every test
passed and ends with the status 0.
-/

namespace TCose.Props
open TCose Spec TestMsg SuiteTest RunTests SignVerifyTest

/-- The tests of a build with a crypto library. -/
def realNames (noShortCircuit noContentType : Bool) : List String :=
  ["sign1_structure_decode_test", "sign_verify_basic_test", "sign_verify_make_cwt_test",
   "sign_verify_sig_fail_test", "sign_verify_get_size_test", "sign_verify_known_good_test",
   "sign_verify_unsupported_test", "sign_verify_bad_auxiliary_buffer"] ++
  (if noShortCircuit then [] else
    ["bad_parameters_test", "crit_parameters_test"] ++
    (if noContentType then [] else ["content_type_test"]) ++
    ["all_header_parameters_test", "cose_example_test",
     "short_circuit_signing_error_conditions_test", "short_circuit_self_test",
     "short_circuit_self_detached_content_test", "short_circuit_decode_only_test",
     "short_circuit_make_cwt_test", "short_circuit_verify_fail_test", "tags_test",
     "get_size_test", "indef_array_and_map_test"])

/-- An adapter with keys for the algorithms it supports: they sign and verify, and
they accept the signatures in the test data. What it does not support it refuses. -/
structure Ready (cfg : Config) (C : Crypto) (D : Int → Bytes → Bytes) (sup : Int → Bool)
    (K : Nat → Nat → Int → Except Err Key) : Prop where
  fits : SignFits C
  sha : Digests32 cfg C Sha256.sha256
  keys : ∀ t i c, c ∈ testCases → sup c.1 = true → ∃ key n, K t i c.1 = .ok key ∧
    KeyWorks cfg C D c.1 key n ∧ adapterVerify cfg C D c.1 key none (knownTbs c.1) (knownSig c) = .ok ()
  es256 : ∀ t i, ∃ key n, K t i (-7) = .ok key ∧ KeyWorks cfg C D (-7) key n ∧ n ≤ 100
  others : ∀ c, c ∈ testCases → sup c.1 = false → ¬ algEnabled cfg c.1 ∨
    (Hashes 4294967295 cfg C D c.1 ∧ ∀ key,
      adapterVerify cfg C D c.1 key none (knownTbs c.1) (knownSig c) = .error .unsupportedSigningAlg)

section
variable {cfg : Config} {C : Crypto} {D : Int → Bytes → Bytes} {sup : Int → Bool}
  {K : Nat → Nat → Int → Except Err Key} (junk : Junk) (hR : Ready cfg C D sup K) (cap cap' : Nat)
  (hcap : 1000 ≤ cap) (hcap' : 200 ≤ cap') (buf : Nat → Stack) (hb : ∀ i n k, (buf i n k).length = n)
  (rows : Nat → Row → Bytes) (hr : ∀ i t, (rows i t).length = 200)

include hR hcap hcap' hb hr

/-- **C75 (each test).** Every test of the table returns 0. -/
theorem C75_each : ∀ t ∈ realTests cfg QParams.std C junk sup cap cap' buf rows K, t.1.result = 0 := by
  have hkey : ∀ t i c, c ∈ testCases → sup c.1 = true →
      ∃ key n, K t i c.1 = .ok key ∧ KeyWorks cfg C D c.1 key n := fun t i c hc hs => by
    obtain ⟨key, n, h1, h2, -⟩ := hR.keys t i c hc hs
    exact ⟨key, n, h1, h2⟩
  have r0 : structureTest cfg QParams.std C junk = 0 := (C72_structure junk).1
  have r1 := C74_basic junk hR.fits sup (K 0) (hkey 0) (buf 20 300) (buf 20 100) (fun _ => hb ..) (fun _ => hb ..)
  have r2 : (cwtTest cfg QParams.std C junk false (buf 21 300 0) (K 1 0)).1 = 0 := by
    obtain ⟨key, n, h1, h2, h3⟩ := hR.es256 1 0
    exact C74_cwt junk false hR.fits (K 1 0) h1 h2 h3 _ (hb ..)
  have r3 := C74_sig_fail junk hR.fits sup (K 2) (hkey 2) (buf 22 300) (buf 22 100) (fun _ => hb ..)
    (fun _ => hb ..)
  have r4 := C74_size hR.fits sup (K 3) (hkey 3) cap hcap (buf 23 300) (fun i => buf 24 300 i) (buf 23 100)
    (fun _ => hb ..) (fun _ => hb ..) (fun _ => hb ..)
  have r5 := C74_known_good (D := D) junk sup (K 4) (fun i c hc hs => by
    obtain ⟨key, n, h1, h2, h3⟩ := hR.keys 4 i c hc hs
    exact ⟨key, h1, h2.enabled, h2.hashes, h3⟩) (buf 25 100) (fun _ => hb ..)
  have r6 := C74_unsupported (D := D) junk sup (K 5) (fun i c hc hs => by
    obtain ⟨key, n, h1, -, -⟩ := hR.es256 5 i
    exact ⟨key, h1, (hR.others c hc hs).imp id (fun h => ⟨h.1, h.2 key⟩)⟩) (buf 26 100) (fun _ => hb ..)
  have r7 := C74_bad_aux junk hR.fits sup (K 6 0) (fun hs => by
    obtain ⟨key, n, h1, h2⟩ := hkey 6 0 _ known_eddsa_mem hs
    exact ⟨enabled_eddsa h2.enabled rfl, key, h1⟩) (buf 27 300 0) (buf 27 300 1) (buf 27 5 2) (hb ..) (hb ..)
    (hb ..)
  intro t ht
  unfold realTests at ht
  dsimp only at ht
  rw [List.mem_append] at ht
  rcases ht with ht | ht
  · simp only [List.mem_cons, List.not_mem_nil, or_false] at ht
    rcases ht with rfl | rfl | rfl | rfl | rfl | rfl | rfl | rfl
    · exact r0
    · exact r1
    · exact r2
    · exact r3
    · exact r4
    · exact r5
    · exact r6
    · exact r7
  cases hsc : cfg.disableShortCircuit with
  | true =>
    rw [if_pos hsc] at ht
    cases ht
  | false =>
    have hD := hR.sha
    have hfit := hR.fits
    have hD' : Digests cfg C Sha256.sha256 := ⟨hD.as, fun b => by rw [hD.len]; decide⟩
    have h1 : Sha256.sha256 (es256Tbs [] content) = hashOfTbs := by
      rw [← Sha256.fastSha_eq]; decide +kernel
    have h2 : Sha256.sha256 (es256Tbs [] tampered) ≠ Sha256.sha256 (es256Tbs [] content) := by
      rw [← Sha256.fastSha_eq, ← Sha256.fastSha_eq]; decide +kernel
    have h3 : Sha256.sha256 (es256Tbs homeAad content) ≠ Sha256.sha256 (es256Tbs someAad content) := by
      rw [← Sha256.fastSha_eq, ← Sha256.fastSha_eq]; decide +kernel
    have a := fun i => C69_suite cfg C _ junk hsc hD' payloadText content (by decide) (by decide) (rows i)
      (hr i) (buf 13 200 0) (buf 13 200 1) (buf 13 200 2) (buf 3 300 0) (hb ..) (hb ..) (hb ..) (hb ..)
    have t1 := C72_self junk hsc hD hfit (buf 6 200 0) (buf 6 200 1) (hb ..) (hb ..)
    rw [if_pos h1] at t1
    have t2 := C72_detached junk hsc hD hfit (buf 7 200 0) (hb ..)
    rw [if_pos h1] at t2
    have t3 := C72_verify_fail junk hsc hD hfit (buf 10 200 0) (buf 10 200 1) (hb ..) (hb ..)
    rw [if_pos ⟨h2, h3⟩] at t3
    rw [if_neg (by rw [hsc]; simp)] at ht
    simp only [List.mem_cons, List.mem_append, List.not_mem_nil, or_false] at ht
    rcases ht with ((rfl | rfl) | hc) | (rfl | rfl | rfl | rfl | rfl | rfl | rfl | rfl | rfl | rfl | rfl)
    · exact congrArg Int.ofNat (a 0).1
    · exact congrArg Int.ofNat (a 1).2.1
    · cases hct : cfg.disableContentType with
      | true => rw [if_pos hct] at hc; cases hc
      | false =>
        rw [if_neg (by rw [hct]; simp)] at hc
        rw [List.mem_singleton.mp hc]
        exact C72_content_type junk hsc hct hD hfit _ _ _ (hb ..) (hb ..)
    · exact congrArg Int.ofNat (a 0).2.2.2
    · exact C72_example hsc hD hfit _ (hb ..)
    · exact C72_signing_errors hsc _ _ _ _ (hb ..) (hb ..)
    · exact t1
    · exact t2
    · exact C72_decode_only junk hsc hD hfit _ _ (hb ..) (hb ..)
    · exact C72_cwt junk hsc hD hfit _ (hb ..)
    · exact t3
    · exact C72_tags junk hsc hD hfit _ _ _ (hb ..) (hb ..) (hb ..)
    · exact C72_get_size hsc hD hfit cap' hcap' _ _ (hb ..) (hb ..)
    · exact congrArg Int.ofNat (a 0).2.2.1

omit hR hcap hcap' hb hr in
theorem realTests_names : ((realTests cfg QParams.std C junk sup cap cap' buf rows K).map (·.1)).map (·.name) =
    (realNames cfg.disableShortCircuit cfg.disableContentType).map cname ∧
    ∀ t ∈ (realTests cfg QParams.std C junk sup cap cap' buf rows K).map (·.1), t.enabled = true := by
  unfold realTests realNames
  cases cfg.disableShortCircuit <;> cases cfg.disableContentType <;> simp

omit hR hcap hcap' hb hr in
/-- What is printed when every test passes. -/
theorem passed_output {ts : List RunTests.Entry} {ns : List String} (hn : ts.map (·.name) = ns.map cname)
    (he : ∀ t ∈ ts, t.enabled = true) (hz : ∀ t ∈ ts, t.result = 0) (hlen : ns.length ≤ 999999999) :
    (runTests ts []).lines =
      (ns.flatMap fun n => [(.str n.toUTF8.toList, false), (.str " PASSED".toUTF8.toList, true)]) ++
      [(.str "SUMMARY: ".toUTF8.toList, false), (.str (Spec.signedDecimal ns.length), false),
       (.str " tests run; ".toUTF8.toList, false), (.str "0".toUTF8.toList, false),
       (.str " tests failed".toUTF8.toList, true)] := by
  have hl : ts.length = ns.length := by
    have := congrArg List.length hn
    simpa using this
  have hreq : requested [] ts = ts := by
    unfold requested
    rw [List.filter_eq_self]
    intro t ht
    exact he t ht
  have hfl : ts.filter (fun t => t.result % 4294967296 != 0) = [] := by
    rw [List.filter_eq_nil_iff]
    intro t ht
    rw [hz t ht]
    simp
  have hrep : ts.flatMap reportOf = (ts.map (·.name)).flatMap fun n =>
      [(.str n, false), (.str " PASSED".toUTF8.toList, true)] := by
    rw [List.flatMap_map]
    clear hn he hl hreq hfl
    induction ts with
    | nil => rfl
    | cons t ts ih =>
      rw [List.flatMap_cons, List.flatMap_cons, ih fun t ht => hz t (by simp [ht])]
      congr 1
      unfold reportOf
      rw [hz t (by simp)]
      rfl
  rw [C60_output ts [] (by omega), hreq, hfl, hrep, hn, List.flatMap_map, hl,
    show Spec.signedDecimal (([] : List RunTests.Entry).length : Nat) = "0".toUTF8.toList by decide +kernel]
  rfl

/-- **C75 (output).** Run without arguments, the program prints for every test of the build
its name and PASSED, and then how many there were and that none failed. -/
theorem C75_output : (runTests ((realTests cfg QParams.std C junk sup cap cap' buf rows K).map (·.1)) []).lines =
    ((realNames cfg.disableShortCircuit cfg.disableContentType).flatMap fun n =>
      [(.str n.toUTF8.toList, false), (.str " PASSED".toUTF8.toList, true)]) ++
    [(.str "SUMMARY: ".toUTF8.toList, false),
     (.str (if cfg.disableShortCircuit then "8" else if cfg.disableContentType then "21" else "22").toUTF8.toList,
       false),
     (.str " tests run; ".toUTF8.toList, false), (.str "0".toUTF8.toList, false),
     (.str " tests failed".toUTF8.toList, true)] := by
  obtain ⟨hn, he⟩ := realTests_names (C := C) (sup := sup) (K := K) (cfg := cfg) junk cap cap' buf rows
  have hz := C75_each junk hR cap cap' hcap hcap' buf hb rows hr
  have hcount : (Spec.signedDecimal (realNames cfg.disableShortCircuit cfg.disableContentType).length) =
      (if cfg.disableShortCircuit then "8" else if cfg.disableContentType then "21" else "22").toUTF8.toList := by
    cases cfg.disableShortCircuit <;> cases cfg.disableContentType <;> decide +kernel
  rw [passed_output hn he (fun t ht => by
    obtain ⟨x, hx, rfl⟩ := List.mem_map.mp ht
    exact hz x hx) (by
    cases cfg.disableShortCircuit <;> cases cfg.disableContentType <;> decide), hcount]

/-- **C75 (status).** Whatever tests are asked for by name, none fails, and the status is the
number of keys that were not freed. -/
theorem C75_status (names : List Bytes) (leaks : List KeyEvent → Nat)
    (hl : leaks (keyEvents (realTests cfg QParams.std C junk sup cap cap' buf rows K) names) < 256) :
    (runTests ((realTests cfg QParams.std C junk sup cap cap' buf rows K).map (·.1)) names).failed = 0 ∧
    realStatus leaks (realTests cfg QParams.std C junk sup cap cap' buf rows K) names =
      leaks (keyEvents (realTests cfg QParams.std C junk sup cap cap' buf rows K) names) := by
  have hz := C75_each junk hR cap cap' hcap hcap' buf hb rows hr
  have hn := (realTests_names (C := C) (sup := sup) (K := K) (cfg := cfg) junk cap cap' buf rows).1
  unfold realStatus
  generalize leaks (keyEvents (realTests cfg QParams.std C junk sup cap cap' buf rows K) names) = lk at *
  generalize htt : (realTests cfg QParams.std C junk sup cap cap' buf rows K).map (·.1) = ts at *
  have hreq : ∀ t ∈ requested names ts, t.result = 0 := by
    intro t ht
    unfold requested at ht
    have := (List.mem_filter.mp ht).1
    rw [← htt] at this
    obtain ⟨x, hx, rfl⟩ := List.mem_map.mp this
    exact hz x hx
  have hlen : ts.length < 256 := by
    have := congrArg List.length hn
    rw [List.length_map, List.length_map] at this
    rw [this]
    cases cfg.disableShortCircuit <;> cases cfg.disableContentType <;> decide
  refine ⟨?_, ?_⟩
  · rw [(C60_report _ _).2.1, List.length_eq_zero_iff, List.filter_eq_nil_iff]
    intro t ht
    rw [hreq t ht]
    simp
  · rw [(C60_status _ names lk hlen hl).1]
    exact if_pos (fun t ht => by rw [hreq t ht]; rfl)

end

/-! ## Keys -/

section
variable (cfg : Config) (P : QParams) (C : Crypto) (junk : Junk) (sup : Int → Bool) (cap cap' : Nat)
  (buf : Nat → Stack) (rows : Nat → Row → Bytes) (K : Nat → Nat → Int → Except Err Key)

/-- **C75 (balance).** Whatever the tests return, whichever are run, and whatever the adapter and
the library do: the program frees every key it made, before it makes the next. -/
theorem C75_balance (names : List Bytes) :
    ∃ ks, keyEvents (realTests cfg P C junk sup cap cap' buf rows K) names = pairs ks ∧
      ∀ k ∈ ks, ∃ t i a, K t i a = .ok k := by
  have key : ∀ l : List (RunTests.Entry × List KeyEvent),
      (∀ x ∈ l, ∃ ks, x.2 = pairs ks ∧ ∀ k ∈ ks, ∃ t i a, K t i a = .ok k) →
      ∃ ks, keyEvents l names = pairs ks ∧ ∀ k ∈ ks, ∃ t i a, K t i a = .ok k := by
    intro l
    induction l with
    | nil => intro _; exact ⟨[], rfl, by simp⟩
    | cons x l ih =>
      intro h
      obtain ⟨k1, e1, q1⟩ := h x (by simp)
      obtain ⟨k2, e2, q2⟩ := ih (fun y hy => h y (by simp [hy]))
      unfold keyEvents at e2 ⊢
      by_cases hs : selected names x.1 = true
      · rw [List.filter_cons_of_pos (p := fun t : RunTests.Entry × List KeyEvent => selected names t.1) hs,
          List.flatMap_cons, e1, e2, pairs_append]
        exact ⟨_, rfl, fun k hk => (List.mem_append.mp hk).elim (q1 k) (q2 k)⟩
      · rw [List.filter_cons_of_neg (p := fun t : RunTests.Entry × List KeyEvent => selected names t.1) hs]
        exact ⟨k2, e2, q2⟩
  apply key
  have up : ∀ t {r : Int × List KeyEvent}, (∃ ks, r.2 = pairs ks ∧ ∀ k ∈ ks, ∃ i a, K t i a = .ok k) →
      ∃ ks, r.2 = pairs ks ∧ ∀ k ∈ ks, ∃ t i a, K t i a = .ok k :=
    fun t _ ⟨ks, e, q⟩ => ⟨ks, e, fun k hk => ⟨t, q k hk⟩⟩
  have up1 : ∀ t {r : Int × List KeyEvent}, (∃ ks, r.2 = pairs ks ∧ ∀ k ∈ ks, ∃ a, K t 0 a = .ok k) →
      ∃ ks, r.2 = pairs ks ∧ ∀ k ∈ ks, ∃ t i a, K t i a = .ok k :=
    fun t _ ⟨ks, e, q⟩ => ⟨ks, e, fun k hk => ⟨t, 0, q k hk⟩⟩
  intro x hx
  unfold realTests at hx
  dsimp only at hx
  rw [List.mem_append] at hx
  have nothing : x.2 = [] → ∃ ks, x.2 = pairs ks ∧ ∀ k ∈ ks, ∃ t i a, K t i a = .ok k :=
    fun h => ⟨[], h, by simp⟩
  rcases hx with hx | hx
  · simp only [List.mem_cons, List.not_mem_nil, or_false] at hx
    rcases hx with rfl | rfl | rfl | rfl | rfl | rfl | rfl | rfl
    · exact nothing rfl
    · exact up 0 (C74_keys (cfg := cfg) (C := C) junk P sup false 0 _ (fun _ => []) _ [] [] [] _ (fun _ => .error .fail)).1
    · exact up1 1 (C74_keys (cfg := cfg) (C := C) junk P sup false 0 (fun _ => []) (fun _ => []) (fun _ => []) _ [] [] (fun _ _ => .error .fail) _).2.2.1
    · exact up 2 (C74_keys (cfg := cfg) (C := C) junk P sup false 0 _ (fun _ => []) _ [] [] [] _ (fun _ => .error .fail)).2.1
    · exact up 3 (C74_keys (cfg := cfg) (C := C) junk P sup false cap _ _ _ [] [] [] _ (fun _ => .error .fail)).2.2.2.1
    · exact up 4 (C74_keys (cfg := cfg) (C := C) junk P sup false 0 (fun _ => []) (fun _ => []) _ [] [] [] _ (fun _ => .error .fail)).2.2.2.2.1
    · exact up 5 (C74_keys (cfg := cfg) (C := C) junk P sup false 0 (fun _ => []) (fun _ => []) _ [] [] [] _ (fun _ => .error .fail)).2.2.2.2.2.1
    · exact up1 6 (C74_keys (cfg := cfg) (C := C) junk P sup false 0 (fun _ => []) (fun _ => []) (fun _ => []) _ _ _ (fun _ _ => .error .fail) _).2.2.2.2.2.2
  · apply nothing
    cases hsc : cfg.disableShortCircuit <;> rw [hsc] at hx
    · cases hct : cfg.disableContentType <;> rw [hct] at hx <;>
        simp only [Bool.false_eq_true, reduceIte, List.mem_cons, List.mem_append, List.not_mem_nil,
          or_false] at hx <;>
        (repeat' (rcases hx with hx | hx)) <;> (try rw [hx]) <;> rfl
    · cases hx

theorem psaSlots_pairs : ∀ (ks : List Key) (l : List Nat), (∀ k ∈ ks, k.k < 4294967296) →
    psaSlots l (pairs ks) = l
  | [], _, _ => rfl
  | k :: ks, l, h => by
    show psaSlots ((k.k :: l).erase (Psa.keyId k)) (pairs ks) = l
    have : Psa.keyId k = k.k := Nat.mod_eq_of_lt (h k (by simp))
    rw [this, List.erase_cons_head]
    exact psaSlots_pairs ks l (fun k hk => h k (by simp [hk]))

/-- **C75 (leaks).** With PSA the leak check at the end of the program finds no key, whatever the
tests return and whichever are run. -/
theorem C75_leaks (init : Nat → Nat → Int) (imp : Nat → Nat → PsaType → KeyData → Psa.SigAlg → Int × UInt32)
    (names : List Bytes) :
    psaKeyLeaks (keyEvents (realTests cfg P C junk sup cap cap' buf rows
      (fun t i => psaMakeKey (init t i) (imp t i))) names) = 0 := by
  obtain ⟨ks, h, q⟩ := C75_balance cfg P C junk sup cap cap' buf rows
    (fun t i => psaMakeKey (init t i) (imp t i)) names
  unfold psaKeyLeaks
  rw [h, psaSlots_pairs]
  · rfl
  · intro k hk
    obtain ⟨t, i, a, e⟩ := q k hk
    unfold psaMakeKey at e
    split at e
    · cases e
    · split at e
      · cases e
      split at e
      · cases e
      · cases e
        exact UInt32.toNat_lt _

end

/-! ## The libraries -/

/-- The algorithms a test key is for. -/
def keyAlgs : KeyData → List Int
  | .ec256 => [-7]
  | .ec384 => [-35]
  | .ec521 => [-36]
  | .rsa2048 => [-37, -38, -39]
  | .ed25519 => [-8]

/-- The kind of a test key for OpenSSL. -/
def evpOf : KeyData → EvpType
  | .ec256 | .ec384 | .ec521 => .ec
  | .rsa2048 => .rsa
  | .ed25519 => .ed25519

/-- The kind of a test key for PSA. -/
def psaOf : KeyData → PsaType
  | .rsa2048 => .rsa
  | _ => .secpR1

/-- OpenSSL as documented: hashing works and SHA-256 is SHA-256; the test keys are read and work
with their algorithms; they accept the signatures in the test data. `d2i t i` is
`d2i_PrivateKey` in the `i`-th call of `make_key_pair` in test `t`. -/
structure OpensslReady (cfg : Config) (L : Ossl.Lib) (D : Int → Bytes → Bytes)
    (A : L.Md → Int → Bytes → Prop) (d2i : Nat → Nat → EvpType → KeyData → Nat) : Prop where
  works : Spec.Ossl.Works L
  i2d : ∀ r s, L.i2d r s = some (derSig r s)
  fits : Spec.Ossl.Fits L
  hashing : Spec.Ossl.Hashing L D A
  sha : D (-16) = Sha256.sha256
  keys : ∀ t i data alg, alg ∈ keyAlgs data → algEnabled cfg alg →
    Spec.Ossl.KeyFor L (d2i t i (evpOf data) data) alg
  known : ∀ t i data c, c ∈ testCases → c.1 ∈ keyAlgs data → algEnabled cfg c.1 →
    Spec.Ossl.Accepts L D (d2i t i (evpOf data) data) c.1 (knownTbs c.1) (knownSig c)

/-- PSA as documented; `imp t i` is `psa_import_key`. -/
structure PsaReady (cfg : Config) (L : Psa.Lib) (D : Psa.HashAlg → Bytes → Bytes)
    (A : L.Op → Psa.HashAlg → Bytes → Prop)
    (imp : Nat → Nat → PsaType → KeyData → Psa.SigAlg → Int × UInt32) : Prop where
  fits : Spec.Psa.Fits L
  hashing : Spec.Psa.Hashing L D A
  sha : D .sha256 = Sha256.sha256
  imports : ∀ t i data alg, alg ∈ keyAlgs data → alg ≠ -8 → algEnabled cfg alg →
    (imp t i (psaOf data) data (Spec.Psa.sigId alg)).1 = 0
  keys : ∀ t i data alg, alg ∈ keyAlgs data → alg ≠ -8 → algEnabled cfg alg →
    Spec.Psa.KeyFor L (imp t i (psaOf data) data (Spec.Psa.sigId alg)).2.toNat (Spec.Psa.sigId alg)
      (digestSize ((hashOf alg).getD 0)) (sigOctets alg)
  known : ∀ t i data c, c ∈ testCases → c.1 ∈ keyAlgs data → c.1 ≠ -8 → algEnabled cfg c.1 →
    L.verifyHash (imp t i (psaOf data) data (Spec.Psa.sigId c.1)).2.toNat (Spec.Psa.sigId c.1)
      (D (Spec.Psa.hashTable ((hashOf c.1).getD 0)) (knownTbs c.1)) (knownSig c) = 0

theorem osslKeyArgs_right {cfg : Config} {alg : Int} (he : algEnabled cfg alg) :
    ∃ data, osslKeyArgs alg = some (evpOf data, data) ∧ alg ∈ keyAlgs data := by
  rcases enabled_cases he with h | h | h | h | h | h | h <;> subst h
  · exact ⟨.ec256, by decide, by decide⟩
  · exact ⟨.ec384, by decide, by decide⟩
  · exact ⟨.ec521, by decide, by decide⟩
  · exact ⟨.rsa2048, by decide, by decide⟩
  · exact ⟨.rsa2048, by decide, by decide⟩
  · exact ⟨.rsa2048, by decide, by decide⟩
  · exact ⟨.ed25519, by decide, by decide⟩

theorem psaKeyArgs_right {cfg : Config} {alg : Int} (he : algEnabled cfg alg) (h8 : alg ≠ -8) :
    ∃ data, psaKeyArgs alg = some (psaOf data, data, Spec.Psa.sigId alg) ∧ alg ∈ keyAlgs data := by
  rcases enabled_cases he with h | h | h | h | h | h | h <;> subst h
  · exact ⟨.ec256, by decide, by decide⟩
  · exact ⟨.ec384, by decide, by decide⟩
  · exact ⟨.ec521, by decide, by decide⟩
  · exact ⟨.rsa2048, by decide, by decide⟩
  · exact ⟨.rsa2048, by decide, by decide⟩
  · exact ⟨.rsa2048, by decide, by decide⟩
  · exact absurd rfl h8

theorem testCases_alg : ∀ c ∈ testCases, c.1 ≠ algSHA256 ∧ c.1 ≠ algSHA384 ∧ c.1 ≠ algSHA512 := by
  decide +kernel

theorem openssl_ready {cfg : Config} {L : Ossl.Lib} {D : Int → Bytes → Bytes}
    {A : L.Md → Int → Bytes → Prop} {d2i : Nat → Nat → EvpType → KeyData → Nat}
    (h : OpensslReady cfg L D A d2i) :
    Ready cfg (Ossl.crypto cfg L) D (Ossl.supported cfg) (fun t i => osslMakeKey (d2i t i)) := by
  have mk : ∀ t i alg, algEnabled cfg alg → ∃ data, alg ∈ keyAlgs data ∧
      osslMakeKey (d2i t i) alg = .ok ⟨.openssl, d2i t i (evpOf data) data⟩ := by
    intro t i alg he
    obtain ⟨data, h1, h2⟩ := osslKeyArgs_right he
    refine ⟨data, h2, ?_⟩
    unfold osslMakeKey
    rw [h1]
    exact if_neg (h.keys t i data alg h2 he).notNull
  have en : ∀ c ∈ testCases, Ossl.supported cfg c.1 = true ↔ algEnabled cfg c.1 := fun c hc => by
    obtain ⟨h1, h2, h3⟩ := testCases_alg c hc
    rw [openssl_supported]
    exact ⟨fun h => h.elim id (fun h => by rcases h with h | h | h <;> contradiction), .inl⟩
  refine ⟨openssl_signFits cfg L h.fits, openssl_digests32 h.works h.hashing h.sha, ?_, ?_, ?_⟩
  · intro t i c hc hs
    have he := (en c hc).mp hs
    obtain ⟨data, h1, h2⟩ := mk t i c.1 he
    have hk := h.keys t i data c.1 h1 he
    exact ⟨_, _, h2, openssl_keyWorks h.works h.i2d h.hashing he hk,
      openssl_accepts h.works h.i2d he hk (h.known t i data c hc h1 he) none⟩
  · intro t i
    have he : algEnabled cfg (-7) := .inl rfl
    obtain ⟨data, h1, h2⟩ := mk t i (-7) he
    exact ⟨_, _, h2, openssl_keyWorks h.works h.i2d h.hashing he (h.keys t i data (-7) h1 he), by decide⟩
  · intro c hc hs
    refine .inl (fun he => ?_)
    rw [(en c hc).mpr he] at hs
    cases hs

theorem psa_ready {cfg : Config} {L : Psa.Lib} {D : Psa.HashAlg → Bytes → Bytes}
    {A : L.Op → Psa.HashAlg → Bytes → Prop}
    {imp : Nat → Nat → PsaType → KeyData → Psa.SigAlg → Int × UInt32} (h : PsaReady cfg L D A imp) :
    Ready cfg (Psa.crypto cfg L) (fun ha => D (Spec.Psa.hashTable ha)) (Psa.supported cfg)
      (fun t i => psaMakeKey 0 (imp t i)) := by
  have mk : ∀ t i alg, algEnabled cfg alg → alg ≠ -8 → ∃ data, alg ∈ keyAlgs data ∧
      psaMakeKey 0 (imp t i) alg = .ok ⟨.psa, (imp t i (psaOf data) data (Spec.Psa.sigId alg)).2.toNat⟩ := by
    intro t i alg he h8
    obtain ⟨data, h1, h2⟩ := psaKeyArgs_right he h8
    refine ⟨data, h2, ?_⟩
    unfold psaMakeKey
    rw [h1]
    exact (if_neg (fun hh => hh rfl)).trans
      (if_neg (fun hh => hh (h.imports t i data alg h2 h8 he)))
  have en : ∀ c ∈ testCases, Psa.supported cfg c.1 = true ↔ algEnabled cfg c.1 ∧ c.1 ≠ -8 := fun c hc => by
    obtain ⟨h1, h2, h3⟩ := testCases_alg c hc
    rw [psa_supported]
    exact ⟨fun h => h.elim id (fun h => by rcases h with h | h | h <;> contradiction), .inl⟩
  refine ⟨psa_signFits cfg L h.fits, psa_digests32 h.hashing h.sha, ?_, ?_, ?_⟩
  · intro t i c hc hs
    obtain ⟨he, h8⟩ := (en c hc).mp hs
    obtain ⟨data, h1, h2⟩ := mk t i c.1 he h8
    exact ⟨_, _, h2, psa_keyWorks h.hashing he h8 (UInt32.toNat_lt _) (h.keys t i data c.1 h1 h8 he),
      psa_accepts he h8 (UInt32.toNat_lt _) (h.known t i data c hc h1 h8 he) none⟩
  · intro t i
    have he : algEnabled cfg (-7) := .inl rfl
    obtain ⟨data, h1, h2⟩ := mk t i (-7) he (by decide)
    exact ⟨_, _, h2, psa_keyWorks h.hashing he (by decide) (UInt32.toNat_lt _)
      (h.keys t i data (-7) h1 (by decide) he), by decide⟩
  · intro c hc hs
    by_cases he : algEnabled cfg c.1
    · right
      have h8 : c.1 = -8 := Decidable.byContradiction (fun h8 => by
        rw [(en c hc).mpr ⟨he, h8⟩] at hs
        cases hs)
      refine ⟨psa_hashes h.hashing, fun key => ?_⟩
      rw [h8]
      exact psa_no_eddsa ..
    · exact .inl he

section
variable {cfg : Config} (junk : Junk) (cap cap' : Nat) (hcap : 1000 ≤ cap) (hcap' : 200 ≤ cap')
  (buf : Nat → Stack) (hb : ∀ i n k, (buf i n k).length = n)
  (rows : Nat → Row → Bytes) (hr : ∀ i t, (rows i t).length = 200)

include hcap hcap' hb hr

/-- **C75 (OpenSSL).** Built with OpenSSL, the program ends with the status 0, whatever tests are
asked for by name, and every test it runs passes. -/
theorem C75_openssl {L : Ossl.Lib} {D : Int → Bytes → Bytes} {A : L.Md → Int → Bytes → Prop}
    {d2i : Nat → Nat → EvpType → KeyData → Nat} (h : OpensslReady cfg L D A d2i) (names : List Bytes) :
    (∀ t ∈ realTests cfg QParams.std (Ossl.crypto cfg L) junk (Ossl.supported cfg) cap cap' buf rows
      (fun t i => osslMakeKey (d2i t i)), t.1.result = 0) ∧
    realStatus osslKeyLeaks (realTests cfg QParams.std (Ossl.crypto cfg L) junk (Ossl.supported cfg) cap cap'
      buf rows (fun t i => osslMakeKey (d2i t i))) names = 0 :=
  ⟨C75_each junk (openssl_ready h) cap cap' hcap hcap' buf hb rows hr,
    (C75_status junk (openssl_ready h) cap cap' hcap hcap' buf hb rows hr names osslKeyLeaks (by
      show 0 < 256
      decide)).2⟩

/-- **C75 (PSA).** Built with PSA, the program ends with the status 0, whatever tests are asked for
by name: every test it runs passes, and no key is left in the library. -/
theorem C75_psa {L : Psa.Lib} {D : Psa.HashAlg → Bytes → Bytes} {A : L.Op → Psa.HashAlg → Bytes → Prop}
    {imp : Nat → Nat → PsaType → KeyData → Psa.SigAlg → Int × UInt32} (h : PsaReady cfg L D A imp)
    (names : List Bytes) :
    (∀ t ∈ realTests cfg QParams.std (Psa.crypto cfg L) junk (Psa.supported cfg) cap cap' buf rows
      (fun t i => psaMakeKey 0 (imp t i)), t.1.result = 0) ∧
    realStatus psaKeyLeaks (realTests cfg QParams.std (Psa.crypto cfg L) junk (Psa.supported cfg) cap cap'
      buf rows (fun t i => psaMakeKey 0 (imp t i))) names = 0 := by
  have hl := C75_leaks cfg QParams.std (Psa.crypto cfg L) junk (Psa.supported cfg) cap cap' buf rows
    (fun _ _ => 0) imp names
  refine ⟨C75_each junk (psa_ready h) cap cap' hcap hcap' buf hb rows hr, ?_⟩
  rw [(C75_status junk (psa_ready h) cap cap' hcap hcap' buf hb rows hr names psaKeyLeaks (by
    rw [hl]; decide)).2]
  exact hl

end

/-! ## The conditions can be met

Two small libraries with SHA-256. They accept what they signed and the signatures in the test
data. -/

/-- A digest with the lengths of SHA-2 that is SHA-256 where it should be. -/
def mainDigest (alg : Int) (b : Bytes) : Bytes :=
  if alg = -16 then Sha256.sha256 b else List.replicate (digestSize alg) (b.foldl (· + ·) 0)

/-- r and s of a signature in the test data. -/
def tableR (c : Int × Bytes) : Nat := Ossl.bin2bn ((knownSig c).take ((coordOf c.1).getD 0))
def tableS (c : Int × Bytes) : Nat := Ossl.bin2bn ((knownSig c).drop ((coordOf c.1).getD 0))

def mainOssl : Ossl.Lib :=
  { Ossl.demoLib 0 with
    bits := fun k => if k = 1 then 256 else if k = 2 then 384 else if k = 3 then 521 else 2048
    size := fun k => if k = 5 then 64 else 256
    pkeySign := fun _ pc h n =>
      match pc with
      | .plain =>
        if n < (derSig (Ossl.demoR h) (Ossl.demoS h)).length then (0, [])
        else (1, derSig (Ossl.demoR h) (Ossl.demoS h))
      | _ => if n < 256 then (0, []) else (1, List.replicate 256 (h.headD 0))
    pkeyVerify := fun _ pc sig h =>
      match pc with
      | .plain =>
        if sig = derSig (Ossl.demoR h) (Ossl.demoS h) ∨ sig ∈ testCases.map (fun c => derSig (tableR c) (tableS c))
        then 1 else 0
      | _ => if sig = List.replicate 256 (h.headD 0) ∨ sig ∈ testCases.map knownSig then 1 else 0
    digestVerify := fun _ sig m =>
      if sig = List.replicate 64 (m.foldl (· + ·) 1) ∨ sig ∈ testCases.map knownSig then 1 else 0
    Md := Int × Bytes
    digestInit := fun alg => (1, (alg, []))
    digestUpdate := fun md u => (1, (md.1, md.2 ++ u))
    digestFinal := fun md => (1, mainDigest md.1 md.2) }

def mainD2i : EvpType → KeyData → Nat
  | .ec, .ec256 => 1
  | .ec, .ec384 => 2
  | .ec, .ec521 => 3
  | .rsa, .rsa2048 => 4
  | .ed25519, .ed25519 => 5
  | _, _ => 0

theorem mainDigest_len (alg : Int) (b : Bytes) : (mainDigest alg b).length = digestSize alg := by
  unfold mainDigest
  split
  · rename_i h
    subst h
    exact (test_digests32 (cfg := Config.full) (List.replicate 64 0) List.length_replicate).len b
  · exact List.length_replicate

theorem table_sigs : ∀ c ∈ testCases, ∀ w, coordOf c.1 = some w →
    knownSig c = coseSig w (tableR c) (tableS c) ∧ tableR c < 256 ^ w ∧ tableS c < 256 ^ w := by
  have : ∀ c ∈ testCases, (coordOf c.1).all (fun w => decide (knownSig c = coseSig w (tableR c)
      (tableS c) ∧ tableR c < 256 ^ w ∧ tableS c < 256 ^ w)) = true := by decide +kernel
  intro c hc w hw
  have h := this c hc
  rw [hw] at h
  exact of_decide_eq_true h

theorem mainOssl_plain {k : Nat} {sig h : Bytes}
    (hs : sig = derSig (Ossl.demoR h) (Ossl.demoS h) ∨ sig ∈ testCases.map (fun c => derSig (tableR c) (tableS c))) :
    mainOssl.pkeyVerify k .plain sig h = 1 := if_pos hs

theorem mainOssl_pss {k : Nat} {sig h : Bytes} {a b : Int} {p : Bool}
    (hs : sig = List.replicate 256 (h.headD 0) ∨ sig ∈ testCases.map knownSig) :
    mainOssl.pkeyVerify k (.pss a b p) sig h = 1 := if_pos hs

theorem mainOssl_ec {k w d : Nat} (hk : Spec.Ossl.keyOctets mainOssl k = w) (hw : 32 ≤ w) (hw' : w ≤ 66) :
    Spec.Ossl.EcKey mainOssl k w d where
  octets := hk
  signs := fun h n _ hn => by
    have hle : 256 ^ 32 ≤ 256 ^ w := Nat.pow_le_pow_right (by decide) hw
    have h1 := Nat.lt_of_lt_of_le (Ossl.demoR_lt h) hle
    have h2 := Nat.lt_of_lt_of_le (Ossl.demoS_lt h) hle
    have := Ossl.derSig_length h1 h2 hw'
    exact ⟨_, _, _, if_neg (by omega), Ossl.demo_d2i h, h1, h2, mainOssl_plain (.inl rfl)⟩

theorem mainOssl_keyFor {data : KeyData} {alg : Int} (h : alg ∈ keyAlgs data) :
    Spec.Ossl.KeyFor mainOssl (mainD2i (evpOf data) data) alg where
  notNull := by cases data <;> decide
  ec := fun w ha h1 h2 => by
    cases data <;> simp only [keyAlgs, List.mem_cons, List.not_mem_nil, or_false] at h
    · subst h; cases h1; exact mainOssl_ec rfl (by decide) (by decide)
    · subst h; cases h1; exact mainOssl_ec rfl (by decide) (by decide)
    · subst h; cases h1; exact mainOssl_ec rfl (by decide) (by decide)
    · rcases h with h | h | h <;> subst h <;> cases h1
    · subst h; cases h1
  pss := fun ha h1 h2 => by
    cases data <;> simp only [keyAlgs, List.mem_cons, List.not_mem_nil, or_false] at h
    · subst h; cases h1
    · subst h; cases h1
    · subst h; cases h1
    · exact ⟨rfl, fun h n _ hn => ⟨_, if_neg (by omega), List.length_replicate, mainOssl_pss (.inl rfl)⟩⟩
    · subst h; cases h2
  ed := fun h1 => by
    subst h1
    cases data <;> simp [keyAlgs] at h
    exact ⟨rfl, fun m n hn => ⟨_, if_neg (by omega), List.length_replicate, if_pos (.inl rfl)⟩⟩

theorem mainOssl_ready (cfg : Config) :
    OpensslReady cfg mainOssl mainDigest (fun md alg b => md = (alg, b)) (fun _ _ => mainD2i) where
  works := by constructor <;> rfl
  i2d := fun _ _ => rfl
  fits := by
    refine ⟨fun k pc h n s hs => ?_, fun k m n s hs => ?_⟩
    · cases pc <;> simp only [mainOssl] at hs <;> split at hs <;> cases hs <;>
        first | omega | (rw [List.length_replicate]; omega)
    · exact (Ossl.demo_fits 0).digest k m n s hs
  hashing := by
    refine ⟨⟨fun _ _ => rfl, ?_, ?_⟩, fun _ _ => ⟨rfl, Int.one_ne_zero⟩, fun _ _ _ _ _ => Int.one_ne_zero,
      fun _ _ _ _ => Int.one_ne_zero, mainDigest_len⟩
    · intro md alg b u h _; subst h; rfl
    · intro md alg b h _; subst h; rfl
  sha := by funext b; exact if_pos rfl
  keys := fun _ _ data alg h _ => mainOssl_keyFor h
  known := fun t i data c hc h _ => by
    refine ⟨fun w ha h1 _ => ?_, fun ha _ _ => ?_, fun _ => ?_⟩
    · obtain ⟨e1, e2, e3⟩ := table_sigs c hc w h1
      exact ⟨_, _, e1, e2, e3, mainOssl_plain (.inr (List.mem_map_of_mem hc))⟩
    · exact mainOssl_pss (.inr (List.mem_map_of_mem hc))
    · exact if_pos (.inr (List.mem_map_of_mem hc))

def mainPsaDigest (a : Psa.HashAlg) (b : Bytes) : Bytes :=
  if a = .sha256 then Sha256.sha256 b else List.replicate (Spec.Psa.digestLen a) (b.foldl (· + ·) 0)

/-- The octets of a signature of an algorithm with a key of some bits. -/
def mainSize (bits : Nat) : Psa.SigAlg → Nat
  | .ecdsa _ => 2 * ((bits + 7) / 8)
  | _ => bits / 8

def mainBits (k : Nat) : Nat := if k = 1 then 256 else if k = 2 then 384 else if k = 3 then 521 else 2048

def mainPsa : Psa.Lib where
  Op := Psa.HashAlg × Bytes
  hashSetup a := if a = .bad then (Psa.errNotSupported, (a, [])) else (0, (a, []))
  hashUpdate op u := (0, (op.1, op.2 ++ u))
  hashFinish op n :=
    if n < Spec.Psa.digestLen op.1 then (Psa.errBufferTooSmall, [])
    else if op.1 = .bad then (-137, []) else (0, mainPsaDigest op.1 op.2)
  signHash k a h n :=
    if n < mainSize (mainBits k) a then (Psa.errBufferTooSmall, [])
    else (0, List.replicate (mainSize (mainBits k) a) (h.headD 0))
  verifyHash k a h s :=
    if s = List.replicate (mainSize (mainBits k) a) (h.headD 0) ∨ s ∈ testCases.map knownSig then 0
    else Psa.errInvalidSignature
  keyAttributes k := (0, 0, mainBits k)
  signOutputSize _ bits a := mainSize bits a

def mainImport : PsaType → KeyData → Psa.SigAlg → Int × UInt32
  | .secpR1, .ec256, _ => (0, 1)
  | .secpR1, .ec384, _ => (0, 2)
  | .secpR1, .ec521, _ => (0, 3)
  | .rsa, .rsa2048, _ => (0, 4)
  | _, _, _ => (Psa.errInvalidArgument, 0)

theorem mainPsaDigest_len (a : Psa.HashAlg) (b : Bytes) :
    (mainPsaDigest a b).length = Spec.Psa.digestLen a := by
  unfold mainPsaDigest
  split
  · rename_i h
    subst h
    exact (test_digests32 (cfg := Config.full) (List.replicate 64 0) List.length_replicate).len b
  · exact List.length_replicate

theorem mainPsa_key {k : Nat} {a : Psa.SigAlg} {d n : Nat} (h : mainSize (mainBits k) a = n) :
    Spec.Psa.KeyFor mainPsa k a d n where
  attr := rfl
  size := h
  signs := fun hh room _ hr => by
    have e : mainPsa.signHash k a hh room = (0, List.replicate (mainSize (mainBits k) a) (hh.headD 0)) :=
      if_neg (by omega)
    rw [e]
    exact ⟨rfl, by rw [List.length_replicate]; exact h, if_pos (.inl rfl)⟩

theorem mainPsa_ready (cfg : Config) :
    PsaReady cfg mainPsa mainPsaDigest (fun op a b => op = (a, b) ∧ a ≠ .bad) (fun _ _ => mainImport) where
  fits := by
    refine ⟨fun op n h => ?_, fun k a h n hs => ?_⟩
    · simp only [mainPsa] at h ⊢
      by_cases h1 : n < Spec.Psa.digestLen op.1
      · rw [if_pos h1] at h; cases h
      · rw [if_neg h1] at h ⊢
        by_cases h2 : op.1 = .bad
        · rw [if_pos h2] at h; cases h
        · rw [if_neg h2]
          have hl := mainPsaDigest_len op.1 op.2
          refine ⟨fun he => ?_, by show (mainPsaDigest op.1 op.2).length ≤ n; omega⟩
          rw [show mainPsaDigest op.1 op.2 = [] from he] at hl
          cases hq : op.1 <;> rw [hq] at hl h2 <;> first | exact h2 rfl | cases hl
    · simp only [mainPsa] at hs ⊢
      split at hs
      · cases hs
      · rename_i h1
        rw [if_neg h1, List.length_replicate]
        omega
  hashing := by
    refine ⟨⟨fun a h => ?_, ?_, ?_⟩, fun a h => congrArg Prod.fst (if_neg h), fun _ _ _ _ _ => rfl, ?_,
      mainPsaDigest_len⟩
    · simp only [mainPsa] at h ⊢
      split at h
      · cases h
      · rename_i h1
        rw [if_neg h1]
        exact ⟨rfl, h1⟩
    · rintro op a b u ⟨rfl, h⟩ _
      exact ⟨rfl, h⟩
    · rintro op a b n ⟨rfl, h2⟩ h
      simp only [mainPsa] at h ⊢
      split at h
      · cases h
      · rename_i h1
        rw [if_neg h1, if_neg h2]
    · rintro op a b n ⟨rfl, h2⟩ h
      simp only [mainPsa]
      rw [if_neg (by omega), if_neg h2]
      rfl
  sha := by funext b; exact if_pos rfl
  imports := fun _ _ data alg h h8 _ => by
    cases data <;> first | rfl | (simp [keyAlgs] at h; exact absurd h h8)
  keys := fun _ _ data alg h h8 _ => by
    apply mainPsa_key
    cases data <;> simp only [keyAlgs, List.mem_cons, List.not_mem_nil, or_false] at h
    · subst h; decide
    · subst h; decide
    · subst h; decide
    · rcases h with h | h | h <;> subst h <;> decide
    · exact absurd h h8
  known := fun _ _ data c hc _ _ _ => if_pos (.inr (List.mem_map_of_mem hc))

/-- All tests with the OpenSSL library above, in the full build. -/
example : realStatus osslKeyLeaks (realTests Config.full QParams.std (Ossl.crypto Config.full mainOssl) noJunk
      (Ossl.supported Config.full) 2147483647 18446744073709551615 (fun _ n _ => List.replicate n 0xa5)
      (fun _ _ => List.replicate 200 0xa5) (fun _ _ => osslMakeKey mainD2i)) [] = 0 :=
  (C75_openssl noJunk _ _ (by decide) (by decide) _ (fun _ _ _ => List.length_replicate ..) _
    (fun _ _ => List.length_replicate ..) (mainOssl_ready Config.full) []).2

/-- Two tests by name with the PSA library above, in a build without EdDSA. -/
example : realStatus psaKeyLeaks (realTests { Config.full with disableEDDSA := true } QParams.std
      (Psa.crypto { Config.full with disableEDDSA := true } mainPsa) noJunk (Psa.supported { Config.full with disableEDDSA := true }) 2147483647
      18446744073709551615 (fun _ n _ => List.replicate n 0xa5) (fun _ _ => List.replicate 200 0xa5)
      (fun _ _ => psaMakeKey 0 mainImport)) [cname "sign_verify_basic_test", cname "tags_test"] = 0 :=
  (C75_psa noJunk _ _ (by decide) (by decide) _ (fun _ _ _ => List.length_replicate ..) _
    (fun _ _ => List.length_replicate ..) (mainPsa_ready _) _).2

/-- A library that gives out handle 9 twice and frees it twice, and a key that is not freed. -/
example : psaKeyLeaks (pairs [⟨.psa, 9⟩, ⟨.psa, 9⟩]) = 0 ∧ psaKeyLeaks [.made ⟨.psa, 9⟩] = 1 := by decide

/-- If importing keys fails, the tests fail and the status is not 0; there is still no leak. -/
example : realStatus psaKeyLeaks (realTests Config.full QParams.std (Psa.crypto Config.full mainPsa) noJunk
      (Psa.supported Config.full) 2147483647 18446744073709551615 (fun _ n _ => List.replicate n 0xa5)
      (fun _ _ => List.replicate 200 0xa5) (fun _ _ => psaMakeKey 0 fun _ _ _ => (-133, 0)))
      [cname "sign_verify_basic_test", cname "sign_verify_make_cwt_test"] = 2 := by decide +kernel

end TCose.Props
