import Verif.Props.OpensslSig
import Verif.Props.SignSafety
import Verif.Props.RoundTrip
import Verif.Props.Sign
import Verif.Props.Verify

/-!
# C34, C35, C08, C03, C45, C46 for the OpenSSL adapter

The adapter turns the library contracts of `Spec.Openssl` into the adapter
contracts of `Spec.Crypto`, so that the theorems about t_cose apply.
-/

namespace TCose.Props
open Spec Spec.Ossl Ossl

/-! ## When the adapter reports success -/

theorem algIsEcdsa_iff (cfg : Config) (alg : Int) :
    algIsEcdsa cfg alg = true ↔ alg = algES256 ∨ (cfg.disableES384 = false ∧ alg = algES384) ∨
      (cfg.disableES512 = false ∧ alg = algES512) := by
  obtain ⟨d1, d2, d3, d4, d5, d6, d7, d8⟩ := cfg
  cases d1 <;> cases d2 <;> simp [algIsEcdsa, checkList, algES256, algES384, algES512] <;> omega

theorem algIsPss_iff (cfg : Config) (alg : Int) :
    algIsPss cfg alg = true ↔ (cfg.disablePS256 = false ∧ alg = algPS256) ∨
      (cfg.disablePS384 = false ∧ alg = algPS384) ∨ (cfg.disablePS512 = false ∧ alg = algPS512) := by
  obtain ⟨d1, d2, d3, d4, d5, d6, d7, d8⟩ := cfg
  cases d3 <;> cases d4 <;> cases d5 <;>
    simp [algIsPss, checkList, algPS256, algPS384, algPS512] <;> omega

/-- The settings for an algorithm: none for ECDSA; for RSA PSS the digest t_cose
hashes with, for the message and for MGF1, and its length for the salt. -/
def settingsFor (cfg : Config) (alg : Int) : PkeyCfg :=
  if algIsEcdsa cfg alg then .plain
  else .pss (hashAlgOfSigAlg cfg alg) (hashAlgOfSigAlg cfg alg) true

theorem settingsFor_pss {cfg : Config} {alg : Int} (h : ¬ algIsEcdsa cfg alg = true)
    (hp : algIsPss cfg alg = true) :
    ∃ ha, hashOf alg = some ha ∧ settingsFor cfg alg = .pss ha ha true := by
  unfold settingsFor
  rw [if_neg h]
  have h2 := (pss_iff cfg alg).mp hp
  have h3 : hashFor cfg alg = hashOf alg := by
    unfold hashFor; rw [if_pos h2.2]
  have h4 := hashFor_eq cfg alg
  rw [h3] at h4
  rw [← h4]
  unfold hashOf
  rcases h2.1 with rfl | rfl | rfl <;> simp

theorem configure_ok {cfg : Config} {L : Lib} {alg : Int} {pc : PkeyCfg}
    (h : configure cfg L alg = .ok pc) :
    pc = settingsFor cfg alg ∧ (algIsEcdsa cfg alg = true ∨ algIsPss cfg alg = true) := by
  unfold configure at h
  unfold settingsFor
  by_cases he : algIsEcdsa cfg alg = true
  · rw [if_pos he] at h ⊢
    injection h with h
    exact ⟨h.symm, .inl he⟩
  · rw [if_neg he] at h ⊢
    by_cases hp : algIsPss cfg alg = true
    · rw [if_pos hp] at h
      refine ⟨?_, .inr hp⟩
      rcases (algIsPss_iff cfg alg).mp hp with ⟨hd, rfl⟩ | ⟨hd, rfl⟩ | ⟨hd, rfl⟩
      all_goals
        simp [hashAlgOfSigAlg, hd, algES256, algES384, algES512, algPS256, algPS384, algPS512] at h ⊢
        split at h
        · split at h
          · split at h
            · split at h
              · injection h with h; exact h.symm
              · cases h
            · cases h
          · cases h
        · cases h
    · rw [if_neg hp] at h; cases h

theorem configure_works {cfg : Config} {L : Lib} {alg : Int} (hw : Works L)
    (h : algIsEcdsa cfg alg = true ∨ algIsPss cfg alg = true) :
    configure cfg L alg = .ok (settingsFor cfg alg) := by
  have : ∃ pc, configure cfg L alg = .ok pc := by
    unfold configure
    simp only [hw.setPadding, hw.setMd, hw.setMgf1, hw.setSalt]
    by_cases he : algIsEcdsa cfg alg = true
    · rw [if_pos he]; exact ⟨_, rfl⟩
    · rw [if_neg he]
      have hp : algIsPss cfg alg = true := h.resolve_left he
      rw [if_pos hp]
      rcases (algIsPss_iff cfg alg).mp hp with ⟨hd, rfl⟩ | ⟨hd, rfl⟩ | ⟨hd, rfl⟩ <;>
        simp [algPS256, algPS384, algPS512]
  obtain ⟨pc, hpc⟩ := this
  rw [hpc, (configure_ok hpc).1]

theorem derToCose_sig {L : Lib} {k : Nat} {der : Bytes} {n : Nat} {c : Bytes}
    (h : (derToCose L k der n).1 = .sig c) : c.length = 2 * keyOctets L k ∧ 2 * keyOctets L k ≤ n := by
  have wlen : ∀ {b : Bytes} {off : Int} {w b' : Bytes}, writeAt b off w = some b' →
      b'.length = b.length ∧ 0 ≤ off ∧ off + w.length ≤ b.length := by
    intro b off w b' hw
    unfold writeAt at hw
    split at hw
    · rename_i hc
      injection hw with hw
      subst hw
      simp only [List.length_append, List.length_take, List.length_drop]
      omega
    · cases hw
  unfold derToCose at h
  rw [keySize_eq] at h
  split at h
  · cases h
  simp only [] at h
  split at h
  · cases h
  split at h
  · cases h
  rename_i b1 h1
  split at h
  · cases h
  rename_i b2 h2
  injection h with h
  subst h
  have w1 := wlen h1
  have w2 := wlen h2
  rw [List.length_take]
  simp only [List.length_replicate] at w1 w2
  omega

/-- What must have happened in the library for `t_cose_crypto_sign` to succeed. -/
structure SignSteps (cfg : Config) (L : Lib) (alg : Int) (key : Key) (hash : Bytes) (n : Nat)
    (s : Bytes) : Prop where
  okKey : key.lib = .openssl ∧ key.k ≠ 0
  memory : L.ctxNew = true
  init : L.signInit = 1
  okAlg : IsEcdsa cfg alg ∨ IsPss cfg alg
  ecdsa : IsEcdsa cfg alg → ∃ der r t, L.pkeySign key.k .plain hash (derRoom cfg) = (1, der) ∧
    L.d2i der = some (r, t) ∧ s.length = 2 * keyOctets L key.k ∧ s.length ≤ n ∧
    (r < 256 ^ keyOctets L key.k → t < 256 ^ keyOctets L key.k →
      s = coseSig (keyOctets L key.k) r t)
  pss : IsPss cfg alg → ∃ ha, hashOf alg = some ha ∧
    L.pkeySign key.k (.pss ha ha true) hash n = (1, s)

/-- The same, as the code has it. -/
structure SignStepsM (cfg : Config) (L : Lib) (alg : Int) (key : Key) (hash : Bytes) (n : Nat)
    (s : Bytes) : Prop where
  okKey : key.lib = .openssl ∧ key.k ≠ 0
  memory : L.ctxNew = true
  init : L.signInit = 1
  okAlg : algIsEcdsa cfg alg = true ∨ algIsPss cfg alg = true
  signed : if algIsEcdsa cfg alg then
      ∃ der, L.pkeySign key.k .plain hash (derBufSize cfg) = (1, der) ∧
        (derToCose L key.k der n).1 = .sig s
    else L.pkeySign key.k (settingsFor cfg alg) hash n = (1, s)

theorem openssl_sign_steps (cfg : Config) (L : Lib) (alg : Int) (key : Key) (hash : Bytes) (n : Nat)
    (s : Bytes) (h : (sign cfg L alg key hash n).1 = .ok s) :
    SignStepsM cfg L alg key hash n s := by
  unfold sign at h
  split at h
  · cases h
  cases hk : keyConvert key with
  | error x => rw [hk] at h; cases h
  | ok k =>
  obtain ⟨hk1, hk2, rfl⟩ := keyConvert_ok hk
  rw [hk] at h
  simp only [] at h
  split at h
  · cases h
  rename_i hm
  split at h
  · cases h
  rename_i hi
  cases hc : configure cfg L alg with
  | error x => rw [hc] at h; cases h
  | ok pc =>
  rw [hc] at h
  obtain ⟨rfl, halg⟩ := configure_ok hc
  refine ⟨⟨hk1, hk2⟩, by simpa using hm, by simpa using hi, halg, ?_⟩
  simp only [] at h
  by_cases he : algIsEcdsa cfg alg = true
  · rw [if_pos he] at h ⊢
    have hs : settingsFor cfg alg = .plain := by unfold settingsFor; rw [if_pos he]
    rw [hs] at h
    rcases hp : L.pkeySign key.k .plain hash (derBufSize cfg) with ⟨code, der⟩
    rw [hp] at h
    simp only [] at h
    split at h
    · cases h
    rename_i h1
    rcases hd : derToCose L key.k der n with ⟨c, l⟩
    rw [hd] at h
    have h1' : code = 1 := by simpa using h1
    subst h1'
    refine ⟨der, rfl, ?_⟩
    cases c with
    | null => cases h
    | ub => cases h
    | sig c => injection h with h; subst h; rw [hd]
  · rw [if_neg he] at h ⊢
    rw [if_pos (halg.resolve_left he)] at h
    rcases hp : L.pkeySign key.k (settingsFor cfg alg) hash n with ⟨code, s'⟩
    rw [hp] at h
    simp only [] at h
    split at h
    · cases h
    rename_i h1
    have h1' : code = 1 := by simpa using h1
    subst h1'
    injection h with h
    rw [h]

theorem ecdsa_not_pss {cfg : Config} {alg : Int} (h : IsPss cfg alg) : ¬ IsEcdsa cfg alg := by
  have h1 := h.1
  intro h2
  have h3 := h2.1
  omega

/-- **C34 (OpenSSL, signing).** Success is reported only if every library call
reported success, and the signature is the one the library made: for ECDSA the
two numbers in it, at fixed width. -/
theorem C34_openssl_sign (cfg : Config) (L : Lib) (alg : Int) (key : Key) (hash : Bytes) (n : Nat)
    (s : Bytes) (h : (sign cfg L alg key hash n).1 = .ok s) :
    SignSteps cfg L alg key hash n s := by
  obtain ⟨h1, h2, h3, h4, h5⟩ := openssl_sign_steps cfg L alg key hash n s h
  refine ⟨h1, h2, h3, by rw [← ecdsa_iff, ← pss_iff]; exact h4, ?_, ?_⟩
  · intro he
    rw [if_pos ((ecdsa_iff cfg alg).mpr he), derBufSize_eq] at h5
    obtain ⟨der, hp, hd⟩ := h5
    have hl := derToCose_sig hd
    cases hdi : L.d2i der with
    | none =>
      unfold derToCose at hd
      simp only [hdi] at hd
      cases hd
    | some rt =>
      obtain ⟨r, t⟩ := rt
      refine ⟨der, r, t, hp, hdi, hl.1, by omega, fun hr ht => ?_⟩
      rw [derToCose_spec hdi hr ht, if_pos hl.2] at hd
      injection hd with hd
      exact hd.symm
  · intro hp
    have hne := fun hc => ecdsa_not_pss hp ((ecdsa_iff cfg alg).mp hc)
    rw [if_neg hne] at h5
    obtain ⟨ha, h6, h7⟩ := settingsFor_pss hne ((pss_iff cfg alg).mpr hp)
    rw [h7] at h5
    exact ⟨ha, h6, h5⟩

/-- What must have happened in the library for `t_cose_crypto_verify` to succeed: it
accepted, for this key and hash and the settings of this algorithm, the
signature; for ECDSA, its own encoding of the two numbers the signature consists
of. -/
structure VerifySteps (cfg : Config) (L : Lib) (alg : Int) (key : Key) (hash sig : Bytes) :
    Prop where
  okKey : key.lib = .openssl ∧ key.k ≠ 0
  memory : L.ctxNew = true
  init : L.verifyInit = 1
  okAlg : IsEcdsa cfg alg ∨ IsPss cfg alg
  ecdsa : IsEcdsa cfg alg →
    ∃ r s der, sig = coseSig (keyOctets L key.k) r s ∧ r < 256 ^ keyOctets L key.k ∧
      s < 256 ^ keyOctets L key.k ∧ L.i2d r s = some der ∧ L.pkeyVerify key.k .plain der hash = 1
  pss : IsPss cfg alg → ∃ ha, hashOf alg = some ha ∧
    L.pkeyVerify key.k (.pss ha ha true) sig hash = 1

/-- **C34 (OpenSSL, verification).** -/
theorem C34_openssl_verify (cfg : Config) (L : Lib) (alg : Int) (key : Key) (hash sig : Bytes)
    (h : (verify cfg L alg key hash sig).1 = .ok ()) : VerifySteps cfg L alg key hash sig := by
  unfold verify at h
  split at h
  · cases h
  cases hk : keyConvert key with
  | error x => rw [hk] at h; cases h
  | ok k =>
  obtain ⟨hk1, hk2, rfl⟩ := keyConvert_ok hk
  rw [hk] at h
  simp only [] at h
  rcases hv : verifyConv cfg L alg key.k sig with ⟨res, log⟩
  rw [hv] at h
  cases res with
  | error x => cases h
  | ok osig =>
  simp only [] at h
  split at h
  · cases h
  rename_i hm
  split at h
  · cases h
  rename_i hi
  cases hc : configure cfg L alg with
  | error x => rw [hc] at h; cases h
  | ok pc =>
  rw [hc] at h
  obtain ⟨rfl, halg⟩ := configure_ok hc
  simp only [] at h
  split at h
  · cases h
  split at h
  · cases h
  rename_i hver
  have hver : L.pkeyVerify key.k (settingsFor cfg alg) osig hash = 1 := by simpa using hver
  refine ⟨⟨hk1, hk2⟩, by simpa using hm, by simpa using hi,
    by rw [← ecdsa_iff, ← pss_iff]; exact halg, fun he => ?_, fun hp => ?_⟩
  all_goals unfold verifyConv at hv
  · have he := (ecdsa_iff cfg alg).mpr he
    rw [if_pos he] at hv
    obtain ⟨r, s, hr, hs, hsig, hd⟩ := C37_cose_to_der L key.k sig (derBufSize cfg) osig
      (by rw [hv])
    have hset : settingsFor cfg alg = .plain := by unfold settingsFor; rw [if_pos he]
    rw [hset] at hver
    exact ⟨r, s, osig, hsig, hr, hs, hd, hver⟩
  · have he := fun hc => ecdsa_not_pss hp ((ecdsa_iff cfg alg).mp hc)
    rw [if_neg he, if_pos (halg.resolve_left he)] at hv
    injection hv with hv _
    injection hv with hv
    obtain ⟨ha, h6, h7⟩ := settingsFor_pss he ((pss_iff cfg alg).mpr hp)
    rw [h7] at hver
    exact ⟨ha, h6, by rw [hv]; exact hver⟩

/-- **C34 (OpenSSL, EdDSA).** -/
theorem C34_openssl_eddsa (L : Lib) (key : Key) (tbs sig : Bytes) (n : Nat) :
    ((Ossl.signEddsa L key tbs n).1 = .ok sig → key.lib = .openssl ∧ key.k ≠ 0 ∧
      L.mdCtxNew = true ∧ L.dsInit = 1 ∧ L.digestSign key.k tbs n = (1, sig)) ∧
    ((Ossl.verifyEddsa L key tbs sig).1 = .ok () → key.lib = .openssl ∧ key.k ≠ 0 ∧
      L.mdCtxNew = true ∧ L.dvInit = 1 ∧ L.digestVerify key.k sig tbs = 1) := by
  constructor
  · intro h
    unfold Ossl.signEddsa at h
    cases hk : keyConvert key with
    | error x => rw [hk] at h; cases h
    | ok k =>
    obtain ⟨hk1, hk2, rfl⟩ := keyConvert_ok hk
    rw [hk] at h
    simp only [] at h
    split at h
    · cases h
    rename_i hm
    split at h
    · cases h
    rename_i hi
    rcases hd : L.digestSign key.k tbs n with ⟨code, s⟩
    rw [hd] at h
    simp only [] at h
    split at h
    · cases h
    rename_i hc
    injection h with h
    have hc : code = 1 := by simpa using hc
    subst hc h
    exact ⟨hk1, hk2, by simpa using hm, by simpa using hi, rfl⟩
  · intro h
    unfold Ossl.verifyEddsa at h
    cases hk : keyConvert key with
    | error x => rw [hk] at h; cases h
    | ok k =>
    obtain ⟨hk1, hk2, rfl⟩ := keyConvert_ok hk
    rw [hk] at h
    simp only [] at h
    split at h
    · cases h
    rename_i hm
    split at h
    · cases h
    rename_i hi
    split at h
    · cases h
    split at h
    · cases h
    rename_i hc
    exact ⟨hk1, hk2, by simpa using hm, by simpa using hi, by simpa using hc⟩

/-- Feeding a digest context; `none` once an update returned 0. NULL pointers are
passed over. -/
def feed (L : Lib) : L.Md → List UB → Option L.Md
  | md, [] => some md
  | md, .null _ :: us => feed L md us
  | md, .data b :: us => if (L.digestUpdate md b).1 = 0 then none else feed L (L.digestUpdate md b).2 us

theorem updates_feed (L : Lib) (us : List UB) : ∀ h : HashCtx L, h.updateError ≠ 0 →
    match feed L h.md us with
    | some md => (us.foldl (hashUpdate L) h).updateError ≠ 0 ∧ (us.foldl (hashUpdate L) h).md = md
    | none => (us.foldl (hashUpdate L) h).updateError = 0 := by
  have stuck : ∀ (us : List UB) (h : HashCtx L), h.updateError = 0 →
      (us.foldl (hashUpdate L) h).updateError = 0 := by
    intro us
    induction us with
    | nil => intro h hh; exact hh
    | cons u us ih =>
      intro h hh
      rw [List.foldl_cons]
      apply ih
      unfold hashUpdate
      rw [if_pos hh]; exact hh
  induction us with
  | nil => intro h hh; exact ⟨hh, rfl⟩
  | cons u us ih =>
    intro h hh
    rw [List.foldl_cons]
    cases u with
    | null n =>
      have : hashUpdate L h (.null n) = h := by unfold hashUpdate; rw [if_neg hh]
      rw [this]
      exact ih h hh
    | data b =>
      have e : hashUpdate L h (.data b) = { h with
          updateError := (L.digestUpdate h.md b).1, md := (L.digestUpdate h.md b).2 } := by
        unfold hashUpdate; rw [if_neg hh]
      rw [e]
      by_cases hc : (L.digestUpdate h.md b).1 = 0
      · simp only [feed, if_pos hc]
        exact stuck us _ hc
      · simp only [feed, if_neg hc]
        exact ih { h with updateError := (L.digestUpdate h.md b).1, md := (L.digestUpdate h.md b).2 } hc

/-- **C34 (OpenSSL, hashing).** A hash is reported only if starting, every update and
finishing succeeded (did not return 0), and it is what the library computed from
everything fed in. An error of an update in the middle is not forgotten. -/
theorem C34_openssl_hash (cfg : Config) (L : Lib) (alg : Int) (h : HashCtx L) (us : List UB) (n : Nat)
    (d : Bytes) (hs : (hashStart cfg L alg).1 = .ok h)
    (hf : (hashFinish L (us.foldl (hashUpdate L) h) n).1 = .ok d) :
    (L.digestInit alg).1 ≠ 0 ∧ ∃ md, feed L (L.digestInit alg).2 us = some md ∧
      (L.digestFinal md).1 ≠ 0 ∧ d = (L.digestFinal md).2 := by
  unfold hashStart at hs
  split at hs
  · split at hs
    · cases hs
    split at hs
    · cases hs
    simp only [] at hs
    split at hs
    · cases hs
    rename_i hc
    injection hs with hs
    refine ⟨hc, ?_⟩
    have hu := updates_feed L us h (by rw [← hs]; exact Int.one_ne_zero)
    rw [show h.md = (L.digestInit alg).2 by rw [← hs]] at hu
    cases hfe : feed L (L.digestInit alg).2 us with
    | none =>
      rw [hfe] at hu
      unfold hashFinish at hf
      rw [if_pos hu] at hf
      cases hf
    | some md =>
      rw [hfe] at hu
      refine ⟨md, rfl, ?_⟩
      unfold hashFinish at hf
      rw [if_neg hu.1, hu.2] at hf
      simp only [] at hf
      split at hf
      · cases hf
      split at hf
      · rename_i hcc
        injection hf with hf
        exact ⟨hcc, hf.symm⟩
      · cases hf
  · cases hs

example : (sign Config.full (demoLib 256) algES256 ⟨.openssl, 1⟩ [7, 8] 64).1 =
      .ok (coseSig 32 1800 1801) ∧
    (verify Config.full (demoLib 256) algES256 ⟨.openssl, 1⟩ [7, 8] (coseSig 32 1800 1801)).1 = .ok () ∧
    (verify Config.full (demoLib 256) algES256 ⟨.openssl, 1⟩ [7, 8] (coseSig 32 1800 1802)).1 =
      .error .sigVerify := by decide +kernel

/-! ## C35 -/

/-- **C35 (OpenSSL).** `EVP_DigestFinal_ex` is not told the size of the buffer, but with
the buffer t_cose passes it does not write outside it: `hash_start` accepts only
algorithms whose digests fit. `A` is any invariant that tells the algorithm of a
context. -/
theorem C35_openssl (cfg : Config) (L : Lib) (D : Int → Bytes → Bytes)
    (A : L.Md → Int → Bytes → Prop) (hL : Digests L D A)
    (hlen : ∀ md alg b, A md alg b → (L.digestFinal md).2.length ≤ Spec.Ossl.digestLen alg)
    (alg : Int) (h : HashCtx L) (us : List UB) (hs : (hashStart cfg L alg).1 = .ok h) :
    (hashFinish L (us.foldl (hashUpdate L) h) (digestRoom cfg)).1 ≠ .error .modelUB := by
  rw [← maxHashSize_eq]
  unfold hashStart at hs
  split at hs
  · rename_i halg
    split at hs
    · cases hs
    split at hs
    · cases hs
    simp only [] at hs
    split at hs
    · cases hs
    rename_i hc
    injection hs with hs
    have hu := updates_feed L us h (by rw [← hs]; exact Int.one_ne_zero)
    rw [show h.md = (L.digestInit alg).2 by rw [← hs]] at hu
    have hA : ∀ (us : List UB) (md md' : L.Md) (b : Bytes), A md alg b → feed L md us = some md' →
        ∃ b', A md' alg b' := by
      intro us
      induction us with
      | nil => intro md md' b ha he; injection he with he; subst he; exact ⟨b, ha⟩
      | cons u us ih =>
        intro md md' b ha he
        cases u with
        | null n => exact ih md md' b ha he
        | data x =>
          simp only [feed] at he
          split at he
          · cases he
          · rename_i hne
            exact ih _ _ _ (hL.update md alg b x ha hne) he
    unfold hashFinish
    cases hfe : feed L (L.digestInit alg).2 us with
    | none => rw [hfe] at hu; rw [if_pos hu]; simp
    | some md =>
      rw [hfe] at hu
      rw [if_neg hu.1, hu.2]
      obtain ⟨b, hb⟩ := hA us _ _ _ (hL.init alg hc) hfe
      have hl := hlen _ _ _ hb
      have hmax : Spec.Ossl.digestLen alg ≤ maxHashSize cfg := by
        obtain ⟨d1, d2, d3, d4, d5, d6, d7, d8⟩ := cfg
        rcases halg with rfl | ⟨hd, rfl⟩ | ⟨hd, rfl⟩
        · revert d1 d2 d3 d4 d5 d6 d7 d8; decide
        · revert hd; revert d1 d2 d3 d4 d5 d6 d7 d8; decide
        · revert hd; revert d1 d2 d3 d4 d5 d6 d7 d8; decide
      simp only []
      rw [if_neg (by omega)]
      split <;> simp
  · cases hs

example : Digests (demoLib 256) demoDigest (fun md alg b => md = (alg, b)) := demo_digests 256
example : ∀ md alg b, md = (alg, b) →
    ((demoLib 256).digestFinal md).2.length ≤ Spec.Ossl.digestLen alg := by
  intro md alg b h; subst h; simp [demoLib, demoDigest]

/-! ## The adapter meets the contracts of `Spec.Crypto` -/

/-- Hashing computes the library's digest. -/
theorem openssl_streamHash (cfg : Config) (L : Lib) (D : Int → Bytes → Bytes)
    (A : L.Md → Int → Bytes → Prop) (hL : Digests L D A) : StreamHash (crypto cfg L) D := by
  refine ⟨fun (h : HashCtx L) alg b => h.updateError = 0 ∨ A h.md alg b, ?_, ?_, ?_, ?_⟩
  · intro alg (h : HashCtx L) hh
    right
    change (hashStart cfg L alg).1 = .ok h at hh
    unfold hashStart at hh
    split at hh
    · split at hh
      · cases hh
      split at hh
      · cases hh
      simp only [] at hh
      split at hh
      · cases hh
      rename_i hc
      injection hh with hh
      rw [← hh]
      exact hL.init alg hc
    · cases hh
  · intro (h : HashCtx L) alg b u hh
    change (hashUpdate L h (.data u)).updateError = 0 ∨ A (hashUpdate L h (.data u)).md alg (b ++ u)
    unfold hashUpdate
    by_cases hc : h.updateError = 0
    · rw [if_pos hc]; exact .inl hc
    · rw [if_neg hc]
      by_cases hc2 : (L.digestUpdate h.md u).1 = 0
      · exact .inl hc2
      · exact .inr (hL.update _ _ _ _ (hh.resolve_left hc) hc2)
  · intro (h : HashCtx L) alg b n hh
    change (hashUpdate L h (.null n)).updateError = 0 ∨ A (hashUpdate L h (.null n)).md alg b
    unfold hashUpdate
    split
    · exact hh
    · exact hh
  · intro (h : HashCtx L) alg b n r hh hf
    change (hashFinish L h n).1 = .ok r at hf
    unfold hashFinish at hf
    split at hf
    · cases hf
    rename_i hc
    simp only [] at hf
    split at hf
    · cases hf
    split at hf
    · rename_i hcc
      injection hf with hf
      rw [← hf]
      exact hL.final _ _ _ (hh.resolve_left hc) hcc
    · cases hf

theorem openssl_hashFits (cfg : Config) (L : Lib)
    (hne : ∀ md, (L.digestFinal md).1 ≠ 0 → (L.digestFinal md).2 ≠ []) :
    HashFits (crypto cfg L) := by
  intro (h : HashCtx L) n r hf
  change (hashFinish L h n).1 = .ok r at hf
  unfold hashFinish at hf
  split at hf
  · cases hf
  simp only [] at hf
  split at hf
  · cases hf
  rename_i hl
  split at hf
  · rename_i hcc
    injection hf with hf
    rw [← hf]
    exact ⟨hne _ hcc, by omega⟩
  · cases hf

theorem openssl_signFits (cfg : Config) (L : Lib) (hL : Fits L) : SignFits (crypto cfg L) where
  sign := by
    intro alg key h n s hs
    have := (openssl_sign_steps cfg L alg key h n s hs).signed
    split at this
    · obtain ⟨der, -, hd⟩ := this
      have := derToCose_sig hd
      omega
    · exact hL.pkey _ _ _ _ _ this
  eddsa := by
    intro key tbs n s hs
    exact hL.digest _ _ _ _ ((C34_openssl_eddsa L key tbs s n).1 hs).2.2.2.2

theorem openssl_sigSizeExact (cfg : Config) (L : Lib) (hL : ∀ k, Sizes L k (keyOctets L k)) :
    SigSizeExact (crypto cfg L) where
  sign := by
    intro alg key h n s hs
    obtain ⟨⟨hk1, hk2⟩, -, -, halg, hsig⟩ := openssl_sign_steps cfg L alg key h n s hs
    have hc : keyConvert key = .ok key.k := by
      unfold keyConvert; rw [if_neg (by simp [hk1]), if_neg hk2]
    change (sigSize cfg L alg key).1 = .ok s.length
    unfold sigSize
    rw [hc]
    simp only []
    by_cases he : algIsEcdsa cfg alg = true
    · rw [if_pos he] at hsig ⊢
      obtain ⟨der, -, hd⟩ := hsig
      rw [(derToCose_sig hd).1, Nat.mul_comm, keySize_eq]
    · rw [if_neg he] at hsig ⊢
      rw [if_pos (by simp [halg.resolve_left he])]
      unfold settingsFor at hsig
      rw [if_neg he] at hsig
      rw [(hL key.k).pss _ _ _ _ hsig]
  eddsa := by
    intro key tbs n s hs
    obtain ⟨hk1, hk2, -, -, h⟩ := (C34_openssl_eddsa L key tbs s n).1 hs
    have hc : keyConvert key = .ok key.k := by
      unfold keyConvert; rw [if_neg (by simp [hk1]), if_neg hk2]
    change (sigSize cfg L algEDDSA key).1 = .ok s.length
    have he : ¬ algIsEcdsa cfg algEDDSA = true := by
      rw [algIsEcdsa_iff]; simp [algEDDSA, algES256, algES384, algES512]
    unfold sigSize
    rw [hc]
    simp only []
    rw [if_neg he, if_pos (by simp), (hL key.k).eddsa _ _ _ h]

theorem coseToDer_works {L : Lib} {k : Nat} {n r s : Nat} (hw : Works L)
    (hr : r < 256 ^ keyOctets L k) (hs : s < 256 ^ keyOctets L k)
    (hi : L.i2d r s = some (derSig r s)) (hn : (derSig r s).length ≤ n) :
    (coseToDer L k (coseSig (keyOctets L k) r s) n).1 = .ok (derSig r s) := by
  obtain ⟨h3, h4⟩ := coseSig_halves hr hs
  have h2 : (coseSig (keyOctets L k) r s).length = 2 * keyOctets L k := by
    simp only [coseSig, List.length_append, netOrder_length]; omega
  unfold coseToDer
  simp only [keySize_eq, h2, h3, h4, hi, hw.bnR, hw.bnS, hw.sigNew, hw.set0]
  rw [if_neg (by omega)]
  simp only [Bool.true_eq_false, if_false]
  have hne : derSig r s ≠ [] := by simp [derSig]
  rw [if_neg (by simp), if_neg (by simp [hne]; omega)]

/-- What the adapter signs with one key it verifies with the other. The key has a size
the build was made for. -/
theorem openssl_signVerify (cfg : Config) (L : Lib) (sk pk : Nat) (hw : Works L)
    (hL : Verifies L sk pk (keyOctets L sk)) (hpk : pk ≠ 0) (hb : keyOctets L pk = keyOctets L sk)
    (hsize : keyOctets L sk ≤ Spec.Ossl.largestKey cfg) :
    SignVerify (crypto cfg L) ⟨.openssl, sk⟩ ⟨.openssl, pk⟩ where
  sign := by
    intro alg h n s kid hs
    obtain ⟨-, -, -, halg, hsig⟩ := openssl_sign_steps cfg L alg ⟨.openssl, sk⟩ h n s hs
    change (verify cfg L alg ⟨.openssl, pk⟩ h s).1 = .ok ()
    have hconv : ∃ osig log, verifyConv cfg L alg pk s = (.ok osig, log) ∧
        L.pkeyVerify pk (settingsFor cfg alg) osig h = 1 := by
      unfold verifyConv settingsFor
      by_cases he : algIsEcdsa cfg alg = true
      · simp only [if_pos he] at hsig ⊢
        obtain ⟨der, hp, hd⟩ := hsig
        obtain ⟨r, s', hdi, hr, hs', hver⟩ := hL.ecdsa _ _ _ hp
        have hn2 := (derToCose_sig hd).2
        rw [derToCose_spec hdi hr hs', if_pos hn2] at hd
        injection hd with hd
        subst hd
        have hm := largestKey_fits cfg
        have hl := derSig_length hr hs' (by omega)
        have := coseToDer_works (n := derBufSize cfg) hw (k := pk) (by rwa [hb]) (by rwa [hb])
          (hL.i2d r s') (by omega)
        rw [hb] at this
        rcases hx : coseToDer L pk (coseSig (keyOctets L sk) r s') (derBufSize cfg) with ⟨x, l⟩
        rw [hx] at this
        simp only [] at this
        subst this
        exact ⟨_, _, rfl, hver⟩
      · simp only [if_neg he] at hsig ⊢
        rw [if_pos (halg.resolve_left he)]
        unfold settingsFor at hsig
        rw [if_neg he] at hsig
        exact ⟨_, _, rfl, hL.pss _ _ _ _ hsig⟩
    obtain ⟨osig, log, h1, h2⟩ := hconv
    unfold verify
    rw [if_neg (by rcases halg with h | h <;> simp [h])]
    simp only [keyConvert, if_neg hpk]
    rw [if_neg (by simp)]
    simp only [h1, hw.ctxNew, hw.verifyInit, configure_works hw halg, h2]
    simp
  eddsa := by
    intro tbs n s kid hs
    obtain ⟨-, -, -, -, h⟩ := (C34_openssl_eddsa L ⟨.openssl, sk⟩ tbs s n).1 hs
    change (Ossl.verifyEddsa L ⟨.openssl, pk⟩ tbs s).1 = .ok ()
    unfold Ossl.verifyEddsa
    simp only [keyConvert, if_neg hpk]
    rw [if_neg (by simp)]
    simp only [hw.mdCtxNew, hw.dvInit, hL.eddsa _ _ _ h]
    simp

/-! ## The API on top of the adapter -/

/-- **C03 with the OpenSSL adapter.** If the library works and verifies what it signs,
messages made with the private key verify with the public key. -/
theorem C03_openssl (cfg : Config) (P : QParams) (L : Lib) (junk : Junk) (me me' : SignCtx)
    (vm : VerifyCtx) (sk pk : Nat) (hsk : me.key = ⟨.openssl, sk⟩) (hpk : vm.key = ⟨.openssl, pk⟩)
    (hw : Works L) (hf : Fits L) (hv : Verifies L sk pk (keyOctets L sk)) (hpk0 : pk ≠ 0)
    (hb : keyOctets L pk = keyOctets L sk) (hsize : keyOctets L sk ≤ Spec.Ossl.largestKey cfg)
    (hne : ∀ md, (L.digestFinal md).1 ≠ 0 → (L.digestFinal md).2 ≠ [])
    (payload : Bytes) (m : Bytes) (msg : UB) (e' : Enc)
    (hP1 : 1 ≤ P.maxTags) (hP4 : P.maxTags ≤ 4) (hct : me.contentTypeUint ≤ 65536)
    (hkc : KidConsistent cfg me)
    (hag : Agrees me vm (sigStructure (protectedHeader me.alg) [] payload).length)
    (h : sign1Sign cfg (crypto cfg L) me (.data payload) (.buf m) = (.ok msg, me', e'))
    (hlen : msg.len ≤ 4294967293) :
    let r := sign1Verify cfg P (crypto cfg L) junk vm msg.bytes true true
    r.res = .ok () ∧ r.ub = false ∧ (∃ b, r.payload = some b ∧ b.ub.bytes = payload) ∧
    ∃ p, r.params = some p ∧ ReturnsHeader cfg me p :=
  C03_round_trip_partial cfg P (crypto cfg L) junk me me' vm payload m msg e'
    (openssl_signFits cfg L hf) (openssl_hashFits cfg L hne)
    (by rw [hsk, hpk]; exact openssl_signVerify cfg L sk pk hw hv hpk0 hb hsize)
    hP1 hP4 hct hkc hag h hlen

/-- A library that hashes and signs without failing, into buffers that are large
enough (for ECDSA: for DER with two numbers of the size of the key), with key `k`. The digests have the length of the algorithm. -/
structure Signs (L : Lib) (A : L.Md → Int → Bytes → Prop) (k : Nat) : Prop where
  works : Works L
  init : ∀ alg, (L.digestInit alg).1 ≠ 0
  update : ∀ md u, (L.digestUpdate md u).1 ≠ 0
  final : ∀ md alg b, A md alg b → (L.digestFinal md).1 ≠ 0 ∧
    (L.digestFinal md).2.length ≤ Spec.Ossl.digestLen alg ∧ (L.digestFinal md).2 ≠ []
  ecdsa : ∀ h n, 2 * keyOctets L k + 9 ≤ n → ∃ der, L.pkeySign k .plain h n = (1, der)
  pss : ∀ md h n, L.size k ≤ n → ∃ s, L.pkeySign k (.pss md md true) h n = (1, s)
  eddsa : ∀ m n, L.size k ≤ n → ∃ s, L.digestSign k m n = (1, s)

theorem keyConvert_good {k : Nat} (hk : k ≠ 0) : keyConvert ⟨.openssl, k⟩ = .ok k := by
  unfold keyConvert
  rw [if_neg (by simp), if_neg hk]

theorem openssl_hash_total (cfg : Config) (L : Lib) (D : Int → Bytes → Bytes)
    (A : L.Md → Int → Bytes → Prop) (hL : Digests L D A) (k : Nat) (hs : Signs L A k) (alg : Int)
    (h : HashCtx L) (us : List UB) (hst : (hashStart cfg L alg).1 = .ok h) :
    ∃ d, d ≠ [] ∧ (hashFinish L (us.foldl (hashUpdate L) h) (maxHashSize cfg)).1 = .ok d := by
  have hub := C35_openssl cfg L (fun a b => if (L.digestFinal (L.digestInit a).2).1 = 0 then [] else D a b)
    (fun md a b => A md a b ∧ ∀ (_ : True), True)
    ⟨fun a h => ⟨hL.init a h, fun _ => trivial⟩, fun md a b u h1 h2 => ⟨hL.update md a b u h1.1 h2, fun _ => trivial⟩,
      fun md a b h1 h2 => by
        have := hs.final _ _ _ (hL.init a (hs.init a))
        rw [if_neg this.1]
        exact hL.final md a b h1.1 h2⟩
    (fun md a b h1 => (hs.final md a b h1.1).2.1) alg h us hst
  rw [← maxHashSize_eq] at hub
  have hfeed : ∀ (us : List UB) (md : L.Md) (b : Bytes), A md alg b →
      ∃ md' b', feed L md us = some md' ∧ A md' alg b' := by
    intro us
    induction us with
    | nil => intro md b ha; exact ⟨md, b, rfl, ha⟩
    | cons u us ih =>
      intro md b ha
      cases u with
      | null n => exact ih md b ha
      | data x =>
        simp only [feed, if_neg (hs.update md x)]
        exact ih _ _ (hL.update md alg b x ha (hs.update md x))
  have hstart : h = ⟨(L.digestInit alg).2, 1, alg⟩ := by
    unfold hashStart at hst
    split at hst
    · split at hst
      · cases hst
      split at hst
      · cases hst
      simp only [] at hst
      split at hst
      · cases hst
      injection hst with hst
      exact hst.symm
    · cases hst
  have hu := updates_feed L us h (by rw [hstart]; exact Int.one_ne_zero)
  rw [show h.md = (L.digestInit alg).2 by rw [hstart]] at hu
  obtain ⟨md, b, hf, ha⟩ := hfeed us _ _ (hL.init alg (hs.init alg))
  rw [hf] at hu
  unfold hashFinish at hub ⊢
  rw [if_neg hu.1, hu.2] at hub ⊢
  have hfin := hs.final md alg b ha
  simp only [] at hub ⊢
  split at hub
  · exact absurd rfl hub
  · rename_i hl
    rw [if_neg hl, if_pos hfin.1]
    exact ⟨_, hfin.2.2, rfl⟩

/-- The assumption of C08 holds for the adapter: it signs whenever it is given the room
it asks for. -/
theorem openssl_sizeAssm (cfg : Config) (L : Lib) (D : Int → Bytes → Bytes)
    (A : L.Md → Int → Bytes → Prop) (hL : Digests L D A) (k : Nat) (hs : Signs L A k)
    (hz : Sizes L k (keyOctets L k)) (hsize : keyOctets L k ≤ Spec.Ossl.largestKey cfg) (alg : Int) :
    SizeAssm cfg (crypto cfg L) alg ⟨.openssl, k⟩ where
  fin := fun ha h0 us _ hst => by
    rw [← maxHashSize_eq]
    exact openssl_hash_total cfg L D A hL k hs ha h0 us hst
  sign := by
    intro hne d n sz _ hsz hn
    change (sigSize cfg L alg ⟨.openssl, k⟩).1 = .ok sz at hsz
    change ∃ s, (sign cfg L alg ⟨.openssl, k⟩ d n).1 = .ok s
    unfold sigSize at hsz
    by_cases hk : k = 0
    · subst hk; cases hsz
    rw [keyConvert_good hk] at hsz
    simp only [] at hsz
    unfold sign
    simp only [keyConvert_good hk, hs.works.ctxNew, hs.works.signInit]
    by_cases he : algIsEcdsa cfg alg = true
    · rw [if_pos he] at hsz
      injection hsz with hsz
      rw [if_neg (by simp [he]), configure_works hs.works (.inl he)]
      have hset : settingsFor cfg alg = .plain := by unfold settingsFor; rw [if_pos he]
      simp only [hset, if_pos he]
      obtain ⟨der, hder⟩ := hs.ecdsa d (derBufSize cfg) (by have := largestKey_fits cfg; omega)
      obtain ⟨r, s, hd, hr, hs'⟩ := hz.ecdsa _ _ _ hder
      have hc := derToCose_spec (n := n) hd hr hs'
      rw [if_pos (by rw [keySize_eq] at hsz; omega)] at hc
      simp only [hder]
      rcases hx : derToCose L k der n with ⟨c, l⟩
      rw [hx] at hc
      simp only [] at hc
      subst hc
      exact ⟨_, rfl⟩
    · rw [if_neg he] at hsz
      split at hsz
      · rename_i hp
        injection hsz with hsz
        have hp : algIsPss cfg alg = true := by
          simp only [Bool.or_eq_true, beq_iff_eq] at hp
          exact hp.resolve_right hne
        rw [if_neg (by simp [hp]), configure_works hs.works (.inr hp)]
        have hset : settingsFor cfg alg = .pss (hashAlgOfSigAlg cfg alg) (hashAlgOfSigAlg cfg alg) true := by
          unfold settingsFor; rw [if_neg he]
        simp only [hset, if_neg he, if_pos hp]
        obtain ⟨s, hsig⟩ := hs.pss (hashAlgOfSigAlg cfg alg) d n (by omega)
        simp only [hsig]
        exact ⟨_, rfl⟩
      · cases hsz
  eddsa := by
    intro he t n sz hsz hn
    change (sigSize cfg L alg ⟨.openssl, k⟩).1 = .ok sz at hsz
    change ∃ s, (Ossl.signEddsa L ⟨.openssl, k⟩ t n).1 = .ok s
    unfold sigSize at hsz
    by_cases hk : k = 0
    · subst hk; cases hsz
    rw [keyConvert_good hk] at hsz
    simp only [] at hsz
    have hne : ¬ algIsEcdsa cfg alg = true := by
      rw [he, algIsEcdsa_iff]; simp [algEDDSA, algES256, algES384, algES512]
    rw [if_neg hne, if_pos (by rw [he]; simp [algEDDSA])] at hsz
    injection hsz with hsz
    unfold Ossl.signEddsa
    simp only [keyConvert_good hk, hs.works.mdCtxNew, hs.works.dsInit]
    obtain ⟨s, hsig⟩ := hs.eddsa t n (by omega)
    simp only [hsig]
    exact ⟨_, rfl⟩

/-- **C08 and C38 with the OpenSSL adapter.** After a size calculation that returned `n`,
signing into `n` octets or more succeeds with exactly `n` octets; in particular
the adapter does not write outside the buffer (compare `C38_api_witness`). -/
theorem C08_openssl (cfg : Config) (L : Lib) (D : Int → Bytes → Bytes)
    (A : L.Md → Int → Bytes → Prop) (hL : Digests L D A) (hf : Fits L)
    (hz : ∀ k, Sizes L k (keyOctets L k)) (me : SignCtx) (k : Nat) (hk : me.key = ⟨.openssl, k⟩)
    (hs : Signs L A k) (hsize : keyOctets L k ≤ Spec.Ossl.largestKey cfg)
    (det : Bool) (payload aad : Bytes) (aux0 aux1 : Mem)
    (haux : AuxOk me (Spec.protectedHeader me.alg) aad payload aux0 aux1) (cap : Nat) (r0 : UB)
    (h : (signAadInternal cfg (crypto cfg L) { me with aux := aux0 } det (.data payload) (.data aad)
      (.null cap)).1 = .ok r0) :
    ∃ n, r0 = .null n ∧ ∀ m : Bytes, n ≤ m.length → ∃ b, b.length = n ∧
      (signAadInternal cfg (crypto cfg L) { me with aux := aux1 } det (.data payload) (.data aad)
        (.buf m)).1 = .ok (.data b) := by
  obtain ⟨n, h1, h2⟩ := C08_size_then_sign cfg (crypto cfg L) (openssl_signFits cfg L hf)
    (openssl_sigSizeExact cfg L hz) me
    (by rw [hk]; exact openssl_sizeAssm cfg L D A hL k hs (hz k) hsize me.alg) det payload aad aux0 aux1 haux
    cap r0 h
  exact ⟨n, h1, fun m hm => (h2 m).1 hm⟩

theorem demo_signs (k : Nat) :
    Signs (demoLib 256) (fun md alg b => md = (alg, b) ∧ Spec.Ossl.digestLen alg ≠ 0) k where
  works := demo_works 256
  init := fun _ => Int.one_ne_zero
  update := fun _ _ => Int.one_ne_zero
  final := by
    intro md alg b h
    obtain ⟨rfl, h⟩ := h
    refine ⟨Int.one_ne_zero, by simp [demoLib, demoDigest], ?_⟩
    simpa [demoLib, demoDigest] using h
  ecdsa := by
    intro h n hn
    have := derSig_length (demoR_lt h) (demoS_lt h) (by omega)
    refine ⟨derSig (demoR h) (demoS h), ?_⟩
    show (if n < _ then _ else _) = _
    rw [if_neg (by have : keyOctets (demoLib 256) k = 32 := by simp [keyOctets, demoLib]
                   omega)]
  pss := by
    intro md h n hn
    refine ⟨List.replicate 64 (h.headD 0), ?_⟩
    show (if n < 64 then _ else _) = _
    rw [if_neg (by have : (demoLib 256).size k = 64 := rfl
                   omega)]
  eddsa := by
    intro m n hn
    refine ⟨List.replicate 64 (m.foldl (· + ·) 1), ?_⟩
    show (if n < 64 then _ else _) = _
    rw [if_neg (by have : (demoLib 256).size k = 64 := rfl
                   omega)]

-- the library contracts together, with a message
example : Works (demoLib 256) ∧ Fits (demoLib 256) ∧
    Verifies (demoLib 256) 1 2 (keyOctets (demoLib 256) 1) ∧ Sizes (demoLib 256) 1 (keyOctets (demoLib 256) 1) ∧
    keyOctets (demoLib 256) 1 ≤ Spec.Ossl.largestKey Config.full :=
  ⟨demo_works _, demo_fits _, demo_verifies 256 1 2, demo_sizes 256 1, by decide⟩

/-- **C10 with the OpenSSL adapter.** An accepted message (not decode-only, not
short-circuit signed) carries a signature that the library accepted, under the
configured key, over the library's digest of the Sig_structure: for ECDSA its DER
form. -/
theorem C10_openssl (cfg : Config) (P : QParams) (L : Lib) (junk : Junk) (me : VerifyCtx)
    (msg : Bytes) (aad : UB) (pay : VPayload) (want : Bool) (D : Int → Bytes → Bytes)
    (A : L.Md → Int → Bytes → Prop) (hL : Digests L D A) (hP : P.maxTags ≤ 4) (hargs : ArgsOk aad pay)
    (hdec : Spec.Opt.decodeOnly me.flags = false)
    (h : (verifyInternal cfg P (crypto cfg L) junk me msg aad pay want).res = .ok ()) :
    ∃ v, IsView P msg v ∧ ∃ payload, IsPayload pay v payload ∧
      ((cfg.disableShortCircuit = true ∨ v.kid.map (·.bytes) ≠ some scKid) →
        ∃ i a, v.alg = some i ∧ Int32Of i a ∧
          let tbs := sigStructure v.prot.bytes aad.bytes payload
          (me.key.lib = .openssl ∧ me.key.k ≠ 0) ∧
          if a = algEDDSA then L.digestVerify me.key.k v.sig.bytes tbs = 1
          else ∃ hal, hashOf a = some hal ∧ VerifySteps cfg L a me.key (D hal tbs) v.sig.bytes) := by
  have hdec : hasFlag me.flags optDecodeOnly = false := hdec
  obtain ⟨v, hv, payload, hpl, -, himp⟩ := C10_acceptance cfg P (crypto cfg L) junk me msg aad pay want D
    (openssl_streamHash cfg L D A hL) hP hargs hdec h
  refine ⟨v, hv, payload, hpl, fun hns => ?_⟩
  obtain ⟨i, a, h1, h2, hacc⟩ := himp hns
  refine ⟨i, a, h1, h2, ?_⟩
  rcases hacc with ⟨he, -, hver⟩ | ⟨hne, hal, hh, hver⟩
  · obtain ⟨k1, k2, -, -, k3⟩ := (C34_openssl_eddsa L me.key _ v.sig.bytes 0).2 hver
    refine ⟨⟨k1, k2⟩, ?_⟩
    rw [if_pos he]; exact k3
  · have hst := C34_openssl_verify cfg L a me.key _ _ hver
    refine ⟨hst.okKey, ?_⟩
    rw [if_neg hne]
    exact ⟨hal, hh, hst⟩

/-- **C46 at the API.** With a bad key signing never succeeds, nor does the size
calculation, unless short-circuit signing is used. -/
theorem C46_api_sign (cfg : Config) (L : Lib) (me : SignCtx) (det : Bool) (payload aad : UB)
    (hp : payload.wf) (out : Mem) (x : Err) (hkey : BadKey me.key x)
    (hns : Spec.Opt.shortCircuit me.flags = false) (r : UB) :
    (signAadInternal cfg (crypto cfg L) me det payload aad out).1 ≠ .ok r := by
  have hns : hasFlag me.flags optShortCircuit = false := hns
  intro h
  have hbad := C46_bad_key cfg L me.alg me.key x hkey
  obtain ⟨-, hst⟩ := C34_sign cfg (crypto cfg L) me det payload aad hp out r h
  rw [opt_shortCircuit, if_neg (by simp [hns])] at hst
  have hsz : ∀ n, (crypto cfg L).sigSize me.alg me.key ≠ .ok n := by
    intro n hn
    change (sigSize cfg L me.alg me.key).1 = .ok n at hn
    rw [(hbad [] [] 0).1] at hn; cases hn
  split at hst
  · obtain ⟨_, _, t, -, ⟨n, s, hs⟩ | ⟨n, hn⟩⟩ := hst
    · change (Ossl.signEddsa L me.key t.bytes n).1 = .ok s at hs
      rw [(hbad t.bytes [] n).2.1] at hs; cases hs
    · exact hsz n hn
  · obtain ⟨d, -, ⟨n, s, hs⟩ | ⟨n, hn⟩⟩ := hst
    · have := (C34_openssl_sign cfg L me.alg me.key d n s hs).okKey
      rcases hkey with ⟨h1, -⟩ | ⟨-, h1, -⟩
      · exact h1 this.1
      · exact this.2 h1
    · exact hsz n hn

/-- **C46 at the API.** With a bad key no message is accepted, unless decode-only, or by
the short-circuit rule. -/
theorem C46_api_verify (cfg : Config) (P : QParams) (L : Lib) (junk : Junk) (me : VerifyCtx)
    (msg : Bytes) (aad : UB) (pay : VPayload) (want : Bool) (D : Int → Bytes → Bytes)
    (A : L.Md → Int → Bytes → Prop) (hL : Digests L D A) (hP : P.maxTags ≤ 4) (hargs : ArgsOk aad pay)
    (hdec : Spec.Opt.decodeOnly me.flags = false) (x : Err) (hkey : BadKey me.key x)
    (h : (verifyInternal cfg P (crypto cfg L) junk me msg aad pay want).res = .ok ()) :
    cfg.disableShortCircuit = false ∧
      ∃ v, IsView P msg v ∧ v.kid.map (·.bytes) = some scKid := by
  have hdec : hasFlag me.flags optDecodeOnly = false := hdec
  obtain ⟨v, hv, payload, -, himp⟩ := C10_openssl cfg P L junk me msg aad pay want D A hL hP hargs hdec h
  by_cases hns : cfg.disableShortCircuit = true ∨ v.kid.map (·.bytes) ≠ some scKid
  · obtain ⟨_, _, _, _, ⟨k1, k2⟩, _⟩ := himp hns
    rcases hkey with ⟨h1, -⟩ | ⟨-, h1, -⟩
    · exact absurd k1 h1
    · exact absurd h1 k2
  · simp only [not_or, Bool.not_eq_true, ne_eq, Decidable.not_not] at hns
    exact ⟨hns.1, v, hv, hns.2⟩

end TCose.Props
