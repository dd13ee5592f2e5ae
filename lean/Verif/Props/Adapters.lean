import Verif.Props.OpensslApi
import Verif.Props.Psa
import Verif.Adapters.Test
import Verif.Props.Sha256

/-!
# The adapters compared

Property C45: which algorithms each adapter accepts, for signing, verification,
size calculation and in its support query, and the hash it uses.
-/

namespace TCose.Props
open TCose TCose.Spec

/-! ## Statement -/

/-- With some library of the family, some key and some input, signing succeeds. EdDSA
goes through its own function, which exists only in builds with EdDSA. -/
def CanSign {ι : Type 1} (cfg : Config) (F : ι → Crypto) (alg : Int) : Prop :=
  ∃ i key, (alg ≠ algEDDSA ∧ ∃ h n s, (F i).sign alg key h n = .ok s) ∨
    (alg = algEDDSA ∧ cfg.disableEDDSA = false ∧ ∃ t n s, (F i).signEddsa key t n = .ok s)

def CanVerify {ι : Type 1} (cfg : Config) (F : ι → Crypto) (alg : Int) : Prop :=
  ∃ i key kid, (alg ≠ algEDDSA ∧ ∃ h s, (F i).verify alg key kid h s = .ok ()) ∨
    (alg = algEDDSA ∧ cfg.disableEDDSA = false ∧ ∃ t s, (F i).verifyEddsa key kid t s = .ok ())

def CanSize {ι : Type 1} (F : ι → Crypto) (alg : Int) : Prop :=
  ∃ i key n, (F i).sigSize alg key = .ok n

def CanHash {ι : Type 1} (F : ι → Crypto) (alg : Int) : Prop :=
  ∃ i h, (F i).hashStart alg = .ok h

/-- **C45 (intended).** An adapter (a family of models, one for each behaviour of its
library), with its support query: signing, verification and size calculation accept
the same algorithms, and the query tells which those are, and which hashes there
are. -/
def AdapterAgrees {ι : Type 1} (cfg : Config) (F : ι → Crypto) (supp : Int → Bool) : Prop :=
  ∀ alg, (CanVerify cfg F alg ↔ CanSign cfg F alg) ∧ (CanSize F alg ↔ CanSign cfg F alg) ∧
    (supp alg = true ↔ CanSign cfg F alg ∨ CanHash F alg)

theorem checkList_mem (alg : Int) : ∀ l : List Int, (∀ x ∈ l, x ≠ 0) →
    (checkList alg (l ++ [0]) = true ↔ alg ∈ l) := by
  intro l
  induction l with
  | nil => intro _; simp [checkList]
  | cons x l ih =>
    intro h
    have hx := h x List.mem_cons_self
    have := ih (fun y hy => h y (List.mem_cons_of_mem _ hy))
    simp only [List.cons_append, checkList, if_neg hx, List.mem_cons]
    by_cases he : x = alg
    · simp [he]
    · rw [if_neg he, this]
      constructor
      · exact .inr
      · rintro (h | h)
        · exact absurd h.symm he
        · exact h

/-- Splits on the algorithm ids the library knows. -/
theorem alg_cases (alg : Int) : (alg = -7 ∨ alg = -35 ∨ alg = -36 ∨ alg = -37 ∨ alg = -38 ∨ alg = -39 ∨
    alg = -8 ∨ alg = -16 ∨ alg = -43 ∨ alg = -44) ∨
    (alg ≠ -7 ∧ alg ≠ -35 ∧ alg ≠ -36 ∧ alg ≠ -37 ∧ alg ≠ -38 ∧ alg ≠ -39 ∧ alg ≠ -8 ∧ alg ≠ -16 ∧
      alg ≠ -43 ∧ alg ≠ -44) := by omega

/-! ## OpenSSL -/

theorem openssl_supported (cfg : Config) (alg : Int) : Ossl.supported cfg alg = true ↔
    algEnabled cfg alg ∨ alg = algSHA256 ∨ alg = algSHA384 ∨ alg = algSHA512 := by
  obtain ⟨d1, d2, d3, d4, d5, d6, d7, d8⟩ := cfg
  rcases alg_cases alg with h | h
  · rcases h with h | h | h | h | h | h | h | h | h | h <;>
      (subst h; revert d1 d2 d3 d4 d5 d6 d7 d8; decide)
  · obtain ⟨h1, h2, h3, h4, h5, h6, h7, h8, h9, h10⟩ := h
    unfold Ossl.supported
    rw [checkList_mem]
    · cases d1 <;> cases d2 <;> cases d3 <;> cases d4 <;> cases d5 <;> cases d6 <;>
      simp [algEnabled, algES256, algES384, algES512, algPS256, algPS384, algPS512, algEDDSA, algSHA256,
        algSHA384, algSHA512, h1, h2, h3, h4, h5, h6, h7, h8, h9, h10]
    · revert d1 d2 d3 d4 d5 d6 d7 d8; decide

theorem openssl_algs (cfg : Config) (alg : Int) :
    (algIsEcdsa cfg alg = true ∨ algIsPss cfg alg = true) ↔ algEnabled cfg alg ∧ alg ≠ algEDDSA := by
  rw [algIsEcdsa_iff, algIsPss_iff]
  simp only [algEnabled, algES256, algES384, algES512, algPS256, algPS384, algPS512, algEDDSA]
  cases cfg.disableES384 <;> cases cfg.disableES512 <;> cases cfg.disablePS256 <;>
    cases cfg.disablePS384 <;> cases cfg.disablePS512 <;> cases cfg.disableEDDSA <;>
    simp only [Bool.true_eq_false, and_true, and_false, true_and, false_and, false_or, or_false] <;> omega

theorem demo_signs_all (cfg : Config) (alg : Int) (h : algEnabled cfg alg) (hne : alg ≠ algEDDSA) :
    ∃ s, (Ossl.sign cfg (Ossl.demoLib 256) alg ⟨.openssl, 1⟩ [7] 64).1 = .ok s := by
  have : (Ossl.sign cfg (Ossl.demoLib 256) alg ⟨.openssl, 1⟩ [7] 64).1.isOk = true := by
    obtain ⟨d1, d2, d3, d4, d5, d6, d7, d8⟩ := cfg
    rcases h with h | ⟨h, h'⟩ | ⟨h, h'⟩ | ⟨h, h'⟩ | ⟨h, h'⟩ | ⟨h, h'⟩ | ⟨h, h'⟩
    · subst h; clear hne; revert d1 d2 d3 d4 d5 d6 d7 d8; decide +kernel
    all_goals first
      | exact absurd h hne
      | (subst h; simp only [] at h'; clear hne; subst h'; revert d1 d2 d3 d4 d5 d6 d7 d8; decide +kernel)
      | (subst h; simp only [] at h'; clear hne; subst h'; revert d2 d3 d4 d5 d6 d7 d8; decide +kernel)
      | (subst h; simp only [] at h'; clear hne; subst h'; revert d1 d3 d4 d5 d6 d7 d8; decide +kernel)
      | (subst h; simp only [] at h'; clear hne; subst h'; revert d1 d2 d4 d5 d6 d7 d8; decide +kernel)
      | (subst h; simp only [] at h'; clear hne; subst h'; revert d1 d2 d3 d5 d6 d7 d8; decide +kernel)
      | (subst h; simp only [] at h'; clear hne; subst h'; revert d1 d2 d3 d4 d6 d7 d8; decide +kernel)
  cases hx : (Ossl.sign cfg (Ossl.demoLib 256) alg ⟨.openssl, 1⟩ [7] 64).1 with
  | ok s => exact ⟨s, rfl⟩
  | error x => rw [hx] at this; cases this

theorem openssl_canSign (cfg : Config) (alg : Int) :
    CanSign cfg (Ossl.crypto cfg) alg ↔ algEnabled cfg alg := by
  constructor
  · rintro ⟨L, key, ⟨hne, h, n, s, hs⟩ | ⟨he, hd, -⟩⟩
    · exact ((openssl_algs cfg alg).1 (openssl_sign_steps cfg L alg key h n s hs).okAlg).1
    · simp [algEnabled, he, hd, algEDDSA]
  · intro h
    by_cases he : alg = algEDDSA
    · refine ⟨Ossl.demoLib 256, ⟨.openssl, 1⟩, .inr ⟨he, ?_, [], 64, List.replicate 64 1, rfl⟩⟩
      subst he
      simpa [algEnabled, algEDDSA] using h
    · obtain ⟨s, hs⟩ := demo_signs_all cfg alg h he
      exact ⟨Ossl.demoLib 256, ⟨.openssl, 1⟩, .inl ⟨he, [7], 64, s, hs⟩⟩

theorem openssl_canVerify (cfg : Config) (alg : Int) :
    CanVerify cfg (Ossl.crypto cfg) alg ↔ algEnabled cfg alg := by
  constructor
  · rintro ⟨L, key, kid, ⟨hne, h, s, hs⟩ | ⟨he, hd, -⟩⟩
    · exact ((openssl_algs cfg alg).1 (by have := (C34_openssl_verify cfg L alg key h s hs).okAlg; rwa [← ecdsa_iff, ← pss_iff] at this)).1
    · simp [algEnabled, he, hd, algEDDSA]
  · intro h
    have hsv : SignVerify (Ossl.crypto cfg (Ossl.demoLib 256)) ⟨.openssl, 1⟩ ⟨.openssl, 1⟩ :=
      openssl_signVerify cfg (Ossl.demoLib 256) 1 1 (Ossl.demo_works _) (Ossl.demo_verifies 256 1 1)
        (by decide) rfl (by
          have : Ossl.keyOctets (Ossl.demoLib 256) 1 = 32 := rfl
          rw [this]; unfold Spec.Ossl.largestKey; split
          · decide
          · split <;> decide)
    by_cases he : alg = algEDDSA
    · have hs := hsv.eddsa [] 64 (List.replicate 64 1) none rfl
      refine ⟨Ossl.demoLib 256, ⟨.openssl, 1⟩, none, .inr ⟨he, ?_, [], _, hs⟩⟩
      subst he
      simpa [algEnabled, algEDDSA] using h
    · obtain ⟨s, hs⟩ := demo_signs_all cfg alg h he
      exact ⟨Ossl.demoLib 256, ⟨.openssl, 1⟩, none, .inl ⟨he, [7], s, hsv.sign alg [7] 64 s none hs⟩⟩

theorem openssl_canSize (cfg : Config) (alg : Int) :
    CanSize (Ossl.crypto cfg) alg ↔ algEnabled cfg alg ∨ alg = algEDDSA := by
  have hl := openssl_algs cfg alg
  constructor
  · rintro ⟨L, key, n, hn⟩
    change (Ossl.sigSize cfg L alg key).1 = .ok n at hn
    unfold Ossl.sigSize at hn
    cases hk : Ossl.keyConvert key with
    | error x => rw [hk] at hn; cases hn
    | ok k =>
      rw [hk] at hn
      simp only [] at hn
      split at hn
      · exact .inl (hl.1 (.inl (by assumption))).1
      · split at hn
        · rename_i h
          simp only [Bool.or_eq_true, beq_iff_eq] at h
          exact h.imp (fun h => (hl.1 (.inr h)).1) id
        · cases hn
  · intro h
    have h2 : algIsEcdsa cfg alg = true ∨ algIsPss cfg alg = true ∨ alg = algEDDSA := by
      by_cases he : alg = algEDDSA
      · exact .inr (.inr he)
      · exact (hl.2 ⟨h.resolve_right he, he⟩).imp id .inl
    refine ⟨Ossl.demoLib 256, ⟨.openssl, 1⟩, 64, ?_⟩
    show (Ossl.sigSize cfg (Ossl.demoLib 256) alg ⟨.openssl, 1⟩).1 = .ok 64
    unfold Ossl.sigSize
    rw [keyConvert_good (by decide)]
    simp only []
    by_cases he : algIsEcdsa cfg alg = true
    · rw [if_pos he]; rfl
    · rw [if_neg he, if_pos (by simpa using h2.resolve_left he)]; rfl

/-- Which hashes can be had. -/
abbrev hashEnabled (cfg : Config) (alg : Int) : Prop :=
  alg = algSHA256 ∨ ((cfg.disableES384 = false ∨ cfg.disablePS384 = false) ∧ alg = algSHA384) ∨
    ((cfg.disableES512 = false ∨ cfg.disablePS512 = false) ∧ alg = algSHA512)

theorem openssl_canHash (cfg : Config) (alg : Int) :
    CanHash (Ossl.crypto cfg) alg ↔ hashEnabled cfg alg := by
  constructor
  · rintro ⟨L, h, hs⟩
    change (Ossl.hashStart cfg L alg).1 = .ok h at hs
    unfold Ossl.hashStart at hs
    split at hs
    · assumption
    · cases hs
  · intro h
    refine ⟨Ossl.demoLib 256, ⟨(alg, []), 1, alg⟩, ?_⟩
    show (Ossl.hashStart cfg (Ossl.demoLib 256) alg).1 = _
    unfold Ossl.hashStart
    rw [if_pos h]; rfl

/-- **C45 (OpenSSL).** Signing and verification accept exactly the enabled algorithms;
size calculation also accepts EdDSA when it is disabled; the support query names
the enabled algorithms, and all three hashes even if disabled. -/
theorem C45_openssl_partial (cfg : Config) (alg : Int) :
    (CanSign cfg (Ossl.crypto cfg) alg ↔ algEnabled cfg alg) ∧
    (CanVerify cfg (Ossl.crypto cfg) alg ↔ algEnabled cfg alg) ∧
    (CanSize (Ossl.crypto cfg) alg ↔ algEnabled cfg alg ∨ alg = algEDDSA) ∧
    (CanHash (Ossl.crypto cfg) alg ↔ hashEnabled cfg alg) ∧
    (Ossl.supported cfg alg = true ↔
      algEnabled cfg alg ∨ alg = algSHA256 ∨ alg = algSHA384 ∨ alg = algSHA512) :=
  ⟨openssl_canSign cfg alg, openssl_canVerify cfg alg, openssl_canSize cfg alg, openssl_canHash cfg alg,
    openssl_supported cfg alg⟩

/-- Builds where every hash the support query names is compiled in. -/
abbrev AllHashes (cfg : Config) : Prop :=
  (cfg.disableES384 = false ∨ cfg.disablePS384 = false) ∧
    (cfg.disableES512 = false ∨ cfg.disablePS512 = false)

theorem hashes_differ {cfg : Config} {alg : Int} (h : algEnabled cfg alg) :
    alg ≠ -16 ∧ alg ≠ -43 ∧ alg ≠ -44 := by
  simp only [algEnabled] at h; omega

/-- **C45 (OpenSSL).** The property holds exactly in builds with EdDSA and all hashes. -/
theorem C45_openssl_iff (cfg : Config) :
    AdapterAgrees cfg (Ossl.crypto cfg) (Ossl.supported cfg) ↔
      cfg.disableEDDSA = false ∧ AllHashes cfg := by
  unfold AdapterAgrees
  simp only [openssl_canSign, openssl_canVerify, openssl_canSize, openssl_canHash, openssl_supported]
  constructor
  · intro h
    have h1 := (h (-8)).2.1
    have h2 := (h (-43)).2.2
    have h3 := (h (-44)).2.2
    simp [algEnabled, algEDDSA, hashEnabled, algSHA256, algSHA384, algSHA512] at h1 h2 h3
    exact ⟨h1, h2, h3⟩
  · rintro ⟨h1, h2, h3⟩ alg
    refine ⟨trivial, ?_, ?_⟩
    · constructor
      · rintro (h | h)
        · exact h
        · simp [algEnabled, h, algEDDSA, h1]
      · exact .inl
    · simp only [hashEnabled, h2, h3, true_and]

/-! ## PSA -/

theorem psa_supported (cfg : Config) (alg : Int) : Psa.supported cfg alg = true ↔
    (algEnabled cfg alg ∧ alg ≠ algEDDSA) ∨ alg = algSHA256 ∨ alg = algSHA384 ∨ alg = algSHA512 := by
  obtain ⟨d1, d2, d3, d4, d5, d6, d7, d8⟩ := cfg
  rcases alg_cases alg with h | h
  · rcases h with h | h | h | h | h | h | h | h | h | h <;>
      (subst h; revert d1 d2 d3 d4 d5 d6 d7 d8; decide)
  · obtain ⟨h1, h2, h3, h4, h5, h6, h7, h8, h9, h10⟩ := h
    unfold Psa.supported
    rw [checkList_mem]
    · cases d1 <;> cases d2 <;> cases d3 <;> cases d4 <;> cases d5 <;>
      simp [algEnabled, algES256, algES384, algES512, algPS256, algPS384, algPS512, algEDDSA, algSHA256,
        algSHA384, algSHA512, h1, h2, h3, h4, h5, h6, h7, h8, h9, h10]
    · revert d1 d2 d3 d4 d5 d6 d7 d8; decide

theorem psa_can (cfg : Config) (alg : Int) :
    (CanSign cfg (Psa.crypto cfg) alg ↔ algEnabled cfg alg ∧ alg ≠ algEDDSA) ∧
    (CanVerify cfg (Psa.crypto cfg) alg ↔ algEnabled cfg alg ∧ alg ≠ algEDDSA) ∧
    (CanSize (Psa.crypto cfg) alg ↔ algEnabled cfg alg ∧ alg ≠ algEDDSA) := by
  refine ⟨⟨?_, ?_⟩, ⟨?_, ?_⟩, ⟨?_, ?_⟩⟩
  · rintro ⟨L, key, ⟨-, h, n, s, hs⟩ | ⟨-, -, t, n, s, hs⟩⟩
    · exact ((C34_psa cfg L alg key h s n 0).1.1 hs).1
    · exact absurd hs ((C34_psa cfg L alg key [] s n 0).2.2.2.1 t)
  · intro h
    have hz := sigId_ne_zero h
    refine ⟨Psa.demoPsa fun _ => false, ⟨.psa, 5⟩, .inl ⟨h.2, [9], 64, List.replicate 64 9,
      (C34_psa cfg _ alg ⟨.psa, 5⟩ _ _ 64 0).1.2 ⟨h, ?_⟩⟩⟩
    simp [Psa.demoPsa, hz, Psa.success]
  · rintro ⟨L, key, kid, ⟨-, h, s, hs⟩ | ⟨-, -, t, s, hs⟩⟩
    · exact (((C34_psa cfg L alg key h s 0 0).2.1 kid).1 hs).1
    · exact absurd hs ((C34_psa cfg L alg key [] s 0 0).2.2.2.2 t kid)
  · intro h
    exact ⟨Psa.demoPsa fun _ => false, ⟨.psa, 5⟩, none, .inl ⟨h.2, [9], List.replicate 64 9,
      ((C34_psa cfg _ alg ⟨.psa, 5⟩ _ _ 64 0).2.1 none).2 ⟨h, rfl⟩⟩⟩
  · rintro ⟨L, key, n, hn⟩
    exact ((C34_psa cfg L alg key [] [] 0 n).2.2.1.1 hn).1
  · intro h
    exact ⟨Psa.demoPsa fun _ => false, ⟨.psa, 5⟩, 64,
      (C34_psa cfg _ alg ⟨.psa, 5⟩ [] [] 0 64).2.2.1.2 ⟨h, _, _, rfl, rfl⟩⟩

/-- PSA has no hash for what the adapter does not know. -/
def RefusesBad (L : Psa.Lib) : Prop := (L.hashSetup .bad).1 ≠ Psa.success

/-- The adapter with the libraries that refuse the id `UINT16_MAX`. -/
def psaFamily (cfg : Config) (L : { L : Psa.Lib // RefusesBad L }) : Crypto := Psa.crypto cfg L.1

theorem demoPsa_refuses (f : Bytes → Bool) : RefusesBad (Psa.demoPsa f) := by
  simp [RefusesBad, Psa.demoPsa, Psa.errNotSupported, Psa.success]

theorem psa_canHash (cfg : Config) (alg : Int) : CanHash (psaFamily cfg) alg ↔ hashEnabled cfg alg := by
  have hbad : Psa.hashAlg cfg alg ≠ .bad ↔ hashEnabled cfg alg := by
    unfold Psa.hashAlg hashEnabled
    by_cases h1 : alg = algSHA256
    · simp [h1]
    · rw [if_neg h1]
      split
      · rename_i h; simp [h]
      · rename_i h2
        split
        · rename_i h; simp [h]
        · rename_i h3; simp only [ne_eq, not_true, h1, h2, h3, or_self]
  constructor
  · rintro ⟨⟨L, hL⟩, h, hs⟩
    rw [← hbad]
    intro he
    have := (C34_psa_start cfg L alg).1 ⟨h, hs⟩
    rw [← hashAlg_eq, he] at this
    exact hL this
  · intro h
    have hb := hbad.2 h
    obtain ⟨c, hc⟩ := (C34_psa_start cfg (Psa.demoPsa fun _ => false) alg).2
      (by rw [← hashAlg_eq]; simp [Psa.demoPsa, hb, Psa.success])
    exact ⟨⟨_, demoPsa_refuses _⟩, c, hc⟩

/-- **C45 (PSA).** Signing, verification and size calculation accept the same algorithms:
the enabled ones but EdDSA. The support query names those, and all three hashes even
if disabled. -/
theorem C45_psa_partial (cfg : Config) (alg : Int) :
    (CanSign cfg (Psa.crypto cfg) alg ↔ algEnabled cfg alg ∧ alg ≠ algEDDSA) ∧
    (CanVerify cfg (Psa.crypto cfg) alg ↔ algEnabled cfg alg ∧ alg ≠ algEDDSA) ∧
    (CanSize (Psa.crypto cfg) alg ↔ algEnabled cfg alg ∧ alg ≠ algEDDSA) ∧
    (CanHash (psaFamily cfg) alg ↔ hashEnabled cfg alg) ∧
    (Psa.supported cfg alg = true ↔
      (algEnabled cfg alg ∧ alg ≠ algEDDSA) ∨ alg = algSHA256 ∨ alg = algSHA384 ∨ alg = algSHA512) :=
  ⟨(psa_can cfg alg).1, (psa_can cfg alg).2.1, (psa_can cfg alg).2.2, psa_canHash cfg alg,
    psa_supported cfg alg⟩

/-! ## The test adapter -/

/-- The test adapter for all test modes and all contents of uninitialised memory. -/
def testFamily (cfg : Config) (i : ULift.{1} (Nat × Bytes)) : Crypto := testCrypto cfg i.down.1 i.down.2

/-- **C45 (test adapter).** It signs and verifies nothing, but its size calculation accepts
everything. Its support query is right. -/
theorem C45_test_partial (cfg : Config) (alg : Int) :
    ¬ CanSign cfg (testFamily cfg) alg ∧ ¬ CanVerify cfg (testFamily cfg) alg ∧
    CanSize (testFamily cfg) alg ∧ (CanHash (testFamily cfg) alg ↔ alg = algSHA256) ∧
    (testSupported alg = true ↔ alg = algSHA256) := by
  refine ⟨?_, ?_, ⟨⟨0, []⟩, ⟨.psa, 0⟩, _, rfl⟩, ⟨?_, ?_⟩, ?_⟩
  · rintro ⟨i, key, ⟨-, h, n, s, hs⟩ | ⟨-, -, t, n, s, hs⟩⟩ <;> cases hs
  · rintro ⟨i, key, kid, ⟨-, h, s, hs⟩ | ⟨-, -, t, s, hs⟩⟩ <;> cases hs
  · rintro ⟨i, h, hs⟩
    simp only [testFamily, testCrypto] at hs
    split at hs
    · cases hs
    · split at hs
      · cases hs
      · rename_i hh; simpa using hh
  · rintro rfl
    exact ⟨⟨0, []⟩, some (Bcon.init []), rfl⟩
  · unfold testSupported
    rw [show [algSHA256, 0] = [algSHA256] ++ [0] from rfl, checkList_mem _ _ (by decide)]
    simp

/-! ## The claim -/

/-- **C45 (intended).** For each adapter and build. -/
def C45_claim : Prop := ∀ cfg : Config,
  AdapterAgrees cfg (Ossl.crypto cfg) (Ossl.supported cfg) ∧
  AdapterAgrees cfg (psaFamily cfg) (Psa.supported cfg) ∧
  AdapterAgrees cfg (testFamily cfg) testSupported

theorem C45_claim_false : ¬ C45_claim := by
  intro h
  have := ((h Config.full).2.2 0).2.1.1 (C45_test_partial _ 0).2.2.1
  exact (C45_test_partial _ 0).1 this

/-- Every adapter fails in some build. -/
theorem C45_openssl_false : ¬ AdapterAgrees { Config.full with disableEDDSA := true }
    (Ossl.crypto { Config.full with disableEDDSA := true })
    (Ossl.supported { Config.full with disableEDDSA := true }) := by
  rw [C45_openssl_iff]; simp

/-! ## The hash -/

/-- **C45 (hash).** RSA PSS signatures use, in either adapter, the hash algorithm that
t_cose hashes with; so do ECDSA signatures in PSA. -/
theorem C45_hash (cfg : Config) (alg : Int) (h : algEnabled cfg alg) (hne : alg ≠ algEDDSA) :
    ∃ hal, hashOf alg = some hal ∧ hashAlgOfSigAlg cfg alg = hal ∧ hashEnabled cfg hal ∧
      (settingsFor cfg alg = .plain ∧ Psa.sigAlg cfg alg = .ecdsa (Psa.hashAlg cfg hal) ∨
       settingsFor cfg alg = .pss hal hal true ∧ Psa.sigAlg cfg alg = .pss (Psa.hashAlg cfg hal)) := by
  obtain ⟨d1, d2, d3, d4, d5, d6, d7, d8⟩ := cfg
  rcases h with h | ⟨h, h'⟩ | ⟨h, h'⟩ | ⟨h, h'⟩ | ⟨h, h'⟩ | ⟨h, h'⟩ | ⟨h, h'⟩
  · subst h
    refine ⟨algSHA256, rfl, ?_⟩
    clear hne; revert d1 d2 d3 d4 d5 d6 d7 d8; decide
  · subst h; simp only [] at h'; subst h'
    refine ⟨algSHA384, rfl, ?_⟩
    clear hne; revert d2 d3 d4 d5 d6 d7 d8; decide
  · subst h; simp only [] at h'; subst h'
    refine ⟨algSHA512, rfl, ?_⟩
    clear hne; revert d1 d3 d4 d5 d6 d7 d8; decide
  · subst h; simp only [] at h'; subst h'
    refine ⟨algSHA256, rfl, ?_⟩
    clear hne; revert d1 d2 d4 d5 d6 d7 d8; decide
  · subst h; simp only [] at h'; subst h'
    refine ⟨algSHA384, rfl, ?_⟩
    clear hne; revert d1 d2 d3 d5 d6 d7 d8; decide
  · subst h; simp only [] at h'; subst h'
    refine ⟨algSHA512, rfl, ?_⟩
    clear hne; revert d1 d2 d3 d4 d6 d7 d8; decide
  · exact absurd h hne

/-! ## C35 for the test adapter -/

theorem testUpdates_fed (us : List UB) : ∀ (h : Option Bcon.Ctx) (b : Bytes), TestAbs h algSHA256 b →
    ∃ b', TestAbs (us.foldl testUpdate h) algSHA256 b' := by
  induction us with
  | nil => intro h b hh; exact ⟨b, hh⟩
  | cons u us ih =>
    intro h b hh
    rw [List.foldl_cons]
    cases u with
    | null n => exact ih h b hh
    | data x =>
      refine ih _ (b ++ x) ⟨rfl, fun c hc => ?_⟩
      cases h with
      | none => cases hc
      | some c0 =>
        change Bcon.update c0 x = some c at hc
        by_cases hl : x.length < 4294967296
        · rw [Bcon.update_some c0 x hl] at hc
          injection hc with hc
          rw [← hc]
          exact Bcon.foldl_step_fed (hh.2 c0 rfl) x
        · rw [(Bcon.update_none c0 x).mpr (by omega)] at hc
          cases hc

/-- **C35 (test adapter).** It writes 32 octets without looking at the size of the buffer;
the buffer t_cose passes has at least that many. -/
theorem C35_test (cfg : Config) (mode : Nat) (junk : Bytes) (hj : junk.length = 64) (us : List UB)
    (alg : Int) (h : Option Bcon.Ctx) (hs : (testCrypto cfg mode junk).hashStart alg = .ok h) :
    (testCrypto cfg mode junk).hashFinish (us.foldl (testCrypto cfg mode junk).hashUpdate h)
      (maxHashSize cfg) ≠ .error .modelUB := by
  have hm : 32 ≤ maxHashSize cfg := by
    unfold maxHashSize
    split
    · omega
    · split <;> omega
  have h0 : TestAbs h algSHA256 [] := by
    simp only [testCrypto] at hs
    split at hs
    · cases hs
    · split at hs
      · cases hs
      · injection hs with hs
        refine ⟨rfl, fun c hc => ?_⟩
        rw [hc] at hs
        injection hs with hs
        rw [← hs]
        exact Bcon.init_fed junk hj
  obtain ⟨b, hb⟩ := testUpdates_fed us h [] h0
  change testFinish mode (us.foldl testUpdate h) (maxHashSize cfg) ≠ _
  generalize us.foldl testUpdate h = z at hb
  unfold testFinish
  cases z with
  | none => simp
  | some c =>
    have := (Bcon.final_fed (hb.2 c rfl)).1
    simp only []
    split
    · simp
    · rw [if_neg (by rw [this]; simp; omega)]
      simp

end TCose.Props
