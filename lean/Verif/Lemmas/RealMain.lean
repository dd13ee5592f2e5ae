import Verif.TestCode.RealMain
import Verif.Spec.TestKeys
import Verif.Props.SignVerify
import Verif.Props.OpensslApi
import Verif.Props.Psa
import Verif.Props.Adapters

/-! Helper lemmas for C75: the adapters with libraries that work. -/

namespace TCose
open Spec Props TestMsg SuiteTest SignVerifyTest

/-- The hash of an algorithm of the build is one of SHA-2 that the adapters know and that fits. -/
def hashKnown (cfg : Config) (alg : Int) : Bool :=
  match hashFor cfg alg with
  | none => true
  | some ha =>
    decide ((ha = -16 ∨ ha = -43 ∨ ha = -44) ∧
      (ha = algSHA256 ∨ ((cfg.disableES384 = false ∨ cfg.disablePS384 = false) ∧ ha = algSHA384) ∨
        ((cfg.disableES512 = false ∨ cfg.disablePS512 = false) ∧ ha = algSHA512)) ∧
      digestSize ha ≤ digestRoom cfg ∧ 1 ≤ digestSize ha)

theorem hashKnown_all : ∀ b1 b2 b3 b4 b5 b6 b7 b8,
    ([-7, -35, -36, -37, -38, -39, -8] : List Int).all (hashKnown ⟨b1, b2, b3, b4, b5, b6, b7, b8⟩) =
      true := by decide +kernel

theorem hashFor_known {cfg : Config} {alg ha : Int} (h : hashFor cfg alg = some ha) :
    (ha = -16 ∨ ha = -43 ∨ ha = -44) ∧
      (ha = algSHA256 ∨ ((cfg.disableES384 = false ∨ cfg.disablePS384 = false) ∧ ha = algSHA384) ∨
        ((cfg.disableES512 = false ∨ cfg.disablePS512 = false) ∧ ha = algSHA512)) ∧
      digestSize ha ≤ digestRoom cfg ∧ 1 ≤ digestSize ha := by
  have he : algEnabled cfg alg := by
    unfold hashFor at h
    split at h
    · assumption
    · cases h
  have hm : alg ∈ ([-7, -35, -36, -37, -38, -39, -8] : List Int) := by
    have := enabled_cases he
    simp only [List.mem_cons, List.not_mem_nil, or_false]
    exact this
  have := List.all_eq_true.mp (hashKnown_all cfg.1 cfg.2 cfg.3 cfg.4 cfg.5 cfg.6 cfg.7 cfg.8) alg hm
  unfold hashKnown at this
  rw [show hashFor ⟨cfg.1, cfg.2, cfg.3, cfg.4, cfg.5, cfg.6, cfg.7, cfg.8⟩ alg = some ha from h] at this
  exact of_decide_eq_true this

theorem enabled_hash {cfg : Config} {alg : Int} (he : algEnabled cfg alg) (h8 : alg ≠ -8) :
    ∃ ha, hashFor cfg alg = some ha ∧ hashOf alg = some ha := by
  unfold hashFor
  rw [if_pos he]
  rcases enabled_cases he with h | h | h | h | h | h | h <;> subst h <;>
    first | exact ⟨_, rfl, rfl⟩ | exact absurd rfl h8

/-! ## OpenSSL -/

section
open Ossl Spec.Ossl
variable {cfg : Config} {L : Ossl.Lib} {D : Int → Bytes → Bytes} {A : L.Md → Int → Bytes → Prop}
  {alg : Int} {k : Nat}

theorem openssl_hashesUpTo (hw : Works L) (hL : Spec.Ossl.Hashing L D A) (N : Nat) {ha : Int}
    (h : hashFor cfg alg = some ha) :
    HashesUpTo N (Ossl.crypto cfg L) ha (digestRoom cfg) (D ha) ∧ ∀ b, D ha b ≠ [] := by
  obtain ⟨k1, k2, k3, k4⟩ := hashFor_known h
  refine ⟨⟨fun (h : Ossl.HashCtx L) b => h.updateError ≠ 0 ∧ A h.md ha b, ?_, ?_, ?_, ?_⟩, ?_⟩
  · refine ⟨(⟨(L.digestInit ha).2, 1, ha⟩ : Ossl.HashCtx L), ?_, Int.one_ne_zero,
      hL.digests.init ha (hL.known ha k1).2⟩
    show (Ossl.hashStart cfg L ha).1 = _
    unfold Ossl.hashStart
    rw [if_pos k2, if_neg (by rw [(hL.known ha k1).1]; simp), if_neg (by rw [hw.mdCtxNew]; simp)]
    dsimp only
    rw [if_neg (hL.known ha k1).2]
    rfl
  · rintro (h : Ossl.HashCtx L) b u - ⟨h1, h2⟩
    show (Ossl.hashUpdate L h (.data u)).updateError ≠ 0 ∧ A (Ossl.hashUpdate L h (.data u)).md ha (b ++ u)
    unfold Ossl.hashUpdate
    rw [if_neg h1]
    exact ⟨hL.update _ _ _ u h2, hL.digests.update _ _ _ u h2 (hL.update _ _ _ u h2)⟩
  · rintro (h : Ossl.HashCtx L) b n ⟨h1, h2⟩
    show (Ossl.hashUpdate L h (.null n)).updateError ≠ 0 ∧ A (Ossl.hashUpdate L h (.null n)).md ha b
    unfold Ossl.hashUpdate
    rw [if_neg h1]
    exact ⟨h1, h2⟩
  · rintro (h : Ossl.HashCtx L) b ⟨h1, h2⟩
    show (Ossl.hashFinish L h (digestRoom cfg)).1 = _
    have h3 := hL.final _ _ _ h2
    have h4 := hL.digests.final _ _ _ h2 h3
    unfold Ossl.hashFinish
    rw [if_neg h1]
    dsimp only
    rw [h4, if_neg (by rw [hL.len]; omega), if_pos h3]
  · intro b hb
    have := hL.len ha b
    rw [hb] at this
    simp only [List.length_nil] at this
    omega

theorem openssl_hashes (hw : Works L) (hL : Spec.Ossl.Hashing L D A) :
    Hashes 4294967295 cfg (Ossl.crypto cfg L) D alg := fun _ h => openssl_hashesUpTo hw hL _ h

theorem coordOf_cases {w : Nat} (h : coordOf alg = some w) : alg = -7 ∨ alg = -35 ∨ alg = -36 := by
  unfold coordOf at h
  split at h
  · omega
  split at h
  · omega
  split at h
  · omega
  · cases h

/-- ECDSA or PSS, as the adapter sees it. -/
theorem openssl_kind (he : algEnabled cfg alg) (h8 : alg ≠ -8) :
    (∃ w, coordOf alg = some w ∧ algIsEcdsa cfg alg = true ∧ w ≤ largestKey cfg) ∨
    (coordOf alg = none ∧ algIsEcdsa cfg alg = false ∧ algIsPss cfg alg = true) := by
  rcases enabled_cases he with h | h | h | h | h | h | h
  all_goals first
    | exact absurd h h8
    | (left
       have : algIsEcdsa cfg alg = true := (ecdsa_iff cfg alg).mpr ⟨by omega, he⟩
       subst h
       refine ⟨_, rfl, this, ?_⟩
       have h2 := (algIsEcdsa_iff cfg _).mp this
       simp only [algES256, algES384, algES512] at h2
       unfold largestKey
       cases h5 : cfg.disableES512 <;> cases h3 : cfg.disableES384 <;> simp [h5, h3] at h2 ⊢)
    | (right
       have : algIsPss cfg alg = true := (pss_iff cfg alg).mpr ⟨by omega, he⟩
       refine ⟨by subst h; rfl, ?_, this⟩
       cases hx : algIsEcdsa cfg alg with
       | false => rfl
       | true =>
         have := ((ecdsa_iff cfg alg).mp hx).1
         omega)

theorem openssl_verify_takes (hw : Works L) (hi : ∀ r s, L.i2d r s = some (derSig r s))
    (he : algEnabled cfg alg) (h8 : alg ≠ -8) (hk0 : k ≠ 0)
    (hoct : ∀ w, coordOf alg = some w → keyOctets L k = w) {ha : Int}
    (hha : hashOf alg = some ha) {h sig : Bytes}
    (h1 : ∀ w, coordOf alg = some w → ∃ r s, sig = coseSig w r s ∧ r < 256 ^ w ∧ s < 256 ^ w ∧
      L.pkeyVerify k .plain (derSig r s) h = 1)
    (h2 : coordOf alg = none → L.pkeyVerify k (.pss ha ha true) sig h = 1) :
    (Ossl.verify cfg L alg ⟨.openssl, k⟩ h sig).1 = .ok () := by
  unfold Ossl.verify
  rcases openssl_kind he h8 with ⟨w, c1, c2, c3⟩ | ⟨c1, c2, c3⟩
  · obtain ⟨r, s, e1, e2, e3, e4⟩ := h1 w c1
    have hw' := hoct w c1
    have hm := largestKey_fits cfg
    have hl := derSig_length e2 e3 (by omega)
    have hc := coseToDer_works (L := L) (k := k) (n := derBufSize cfg) hw (by rw [hw']; exact e2)
      (by rw [hw']; exact e3) (hi r s) (by omega)
    rw [hw', ← e1] at hc
    rw [if_neg (by simp [c2]), keyConvert_good hk0]
    dsimp only
    unfold Ossl.verifyConv
    rw [if_pos c2]
    rcases hx : coseToDer L k sig (derBufSize cfg) with ⟨x, l⟩
    rw [hx] at hc
    dsimp only at hc
    subst hc
    dsimp only
    rw [if_neg (by rw [hw.ctxNew]; simp), if_neg (fun h => h hw.verifyInit),
      configure_works hw (.inl c2)]
    dsimp only
    unfold settingsFor
    rw [if_pos c2, e4]
    rfl
  · rw [if_neg (by simp [c3]), keyConvert_good hk0]
    dsimp only
    unfold Ossl.verifyConv
    rw [if_neg (by rw [c2]; simp), if_pos c3]
    dsimp only
    obtain ⟨ha', s1, s2⟩ := settingsFor_pss (cfg := cfg) (alg := alg) (by rw [c2]; simp) c3
    rw [hha] at s1
    cases s1
    rw [if_neg (by rw [hw.ctxNew]; simp), if_neg (fun h => h hw.verifyInit),
      configure_works hw (.inr c3)]
    dsimp only
    rw [s2, h2 c1]
    rfl

theorem openssl_verify_good (hw : Works L) (hi : ∀ r s, L.i2d r s = some (derSig r s))
    (he : algEnabled cfg alg) (h8 : alg ≠ -8) (hk : KeyFor L k alg) {ha : Int}
    (hha : hashOf alg = some ha) {h sig : Bytes}
    (h1 : ∀ w, coordOf alg = some w → ∃ r s, sig = coseSig w r s ∧ r < 256 ^ w ∧ s < 256 ^ w ∧
      L.pkeyVerify k .plain (derSig r s) h = 1)
    (h2 : coordOf alg = none → L.pkeyVerify k (.pss ha ha true) sig h = 1) :
    (Ossl.verify cfg L alg ⟨.openssl, k⟩ h sig).1 = .ok () :=
  openssl_verify_takes hw hi he h8 hk.notNull (fun w hc => (hk.ec w ha hc hha).octets) hha h1 h2

theorem openssl_eddsa_good (hw : Works L) (hk : k ≠ 0) {t sig : Bytes}
    (h : L.digestVerify k sig t = 1) : (Ossl.verifyEddsa L ⟨.openssl, k⟩ t sig).1 = .ok () := by
  unfold Ossl.verifyEddsa
  rw [keyConvert_good hk]
  dsimp only
  rw [if_neg (by rw [hw.mdCtxNew]; simp), if_neg (fun h => h hw.dvInit), h]
  rfl

theorem openssl_accepts (hw : Works L) (hi : ∀ r s, L.i2d r s = some (derSig r s))
    (he : algEnabled cfg alg) (hk : KeyFor L k alg) {t sig : Bytes} (hacc : Spec.Ossl.Accepts L D k alg t sig)
    (kid : Option Bytes) :
    adapterVerify cfg (Ossl.crypto cfg L) D alg ⟨.openssl, k⟩ kid t sig = .ok () := by
  unfold adapterVerify
  by_cases h8 : alg = -8
  · rw [if_pos ⟨enabled_eddsa he h8, h8⟩]
    exact openssl_eddsa_good hw hk.notNull (hacc.ed h8)
  · obtain ⟨ha, e1, e2⟩ := enabled_hash he h8
    rw [if_neg (fun h => h8 h.2), e1]
    exact openssl_verify_good hw hi he h8 hk e2 (fun w hc => hacc.ec w ha hc e2)
      (fun hc => hacc.pss ha hc e2)

/-- A key for an algorithm works in the adapter. -/
theorem openssl_keyWorks (hw : Works L) (hi : ∀ r s, L.i2d r s = some (derSig r s))
    (hL : Spec.Ossl.Hashing L D A) (he : algEnabled cfg alg) (hk : KeyFor L k alg) :
    KeyWorks cfg (Ossl.crypto cfg L) D alg ⟨.openssl, k⟩ (sigOctets alg) := by
  by_cases h8 : alg = -8
  · subst h8
    have hE := hk.ed rfl
    refine ⟨he, openssl_hashes hw hL, ?_, by decide, fun t room hr => ?_⟩
    · show (Ossl.sigSize cfg L (-8) ⟨.openssl, k⟩).1 = _
      unfold Ossl.sigSize
      rw [keyConvert_good hk.notNull]
      dsimp only
      rw [if_neg, if_pos (by simp [algEDDSA])]
      · exact congrArg Except.ok hE.size
      · intro h
        have := ((ecdsa_iff cfg (-8)).mp h).1
        omega
    · obtain ⟨s, s1, s2, s3⟩ := hE.signs t room hr
      refine ⟨s, ?_, s2, fun kid => openssl_accepts hw hi he hk
        ⟨fun w ha h => (by cases h), fun ha _ h => (by cases h), fun _ => s3⟩ kid⟩
      unfold adapterSign
      rw [if_pos rfl]
      show (Ossl.signEddsa L ⟨.openssl, k⟩ t room).1 = _
      unfold Ossl.signEddsa
      rw [keyConvert_good hk.notNull]
      dsimp only
      rw [if_neg (by rw [hw.mdCtxNew]; simp), if_neg (fun h => h hw.dsInit), s1]
      rfl
  obtain ⟨ha, e1, e2⟩ := enabled_hash he h8
  have hlen : ∀ t, (D ha t).length = digestSize ha := hL.len ha
  have hsz : sigOctets alg ≤ 256 := by
    rcases enabled_cases he with h | h | h | h | h | h | h <;> subst h <;> decide
  rcases openssl_kind he h8 with ⟨w, c1, c2, c3⟩ | ⟨c1, c2, c3⟩
  · have hE := hk.ec w ha c1 e2
    have hso : sigOctets alg = 2 * w := by unfold sigOctets; rw [c1]
    refine ⟨he, openssl_hashes hw hL, ?_, hsz, fun t room hr => ?_⟩
    · show (Ossl.sigSize cfg L alg ⟨.openssl, k⟩).1 = _
      unfold Ossl.sigSize
      rw [keyConvert_good hk.notNull]
      dsimp only
      rw [if_pos c2, keySize_eq, hE.octets, hso, Nat.mul_comm]
    · obtain ⟨der, r, s, s1, s2, s3, s4, s5⟩ := hE.signs (D ha t) (derBufSize cfg) (hlen t)
        (by have := largestKey_fits cfg; omega)
      refine ⟨coseSig w r s, ?_, by simp [coseSig, netOrder_length]; omega, fun kid =>
        openssl_accepts hw hi he hk ⟨fun w' ha' h h' => ?_, fun ha' h => ?_, fun h => absurd h h8⟩ kid⟩
      · unfold adapterSign
        rw [if_neg h8, e1]
        show (Ossl.sign cfg L alg ⟨.openssl, k⟩ (D ha t) room).1 = _
        unfold Ossl.sign
        rw [if_neg (by simp [c2]), keyConvert_good hk.notNull]
        dsimp only
        rw [if_neg (by rw [hw.ctxNew]; simp), if_neg (fun h => h hw.signInit),
          configure_works hw (.inl c2)]
        dsimp only
        have hset : settingsFor cfg alg = .plain := by unfold settingsFor; rw [if_pos c2]
        rw [if_pos c2, hset, s1]
        have hd := derToCose_spec (L := L) (k := k) (n := room) s2 (by rw [hE.octets]; exact s3)
          (by rw [hE.octets]; exact s4)
        rw [hE.octets, if_pos (by omega)] at hd
        rcases hx : derToCose L k der room with ⟨x, l⟩
        rw [hx] at hd
        dsimp only at hd
        subst hd
        rfl
      · rw [c1] at h
        cases h
        rw [e2] at h'
        cases h'
        exact ⟨r, s, rfl, s3, s4, s5⟩
      · rw [c1] at h
        cases h
  · have hE := hk.pss ha c1 e2
    have hso : sigOctets alg = 256 := by unfold sigOctets; rw [c1]; exact if_neg h8
    refine ⟨he, openssl_hashes hw hL, ?_, hsz, fun t room hr => ?_⟩
    · show (Ossl.sigSize cfg L alg ⟨.openssl, k⟩).1 = _
      unfold Ossl.sigSize
      rw [keyConvert_good hk.notNull]
      dsimp only
      rw [if_neg (by rw [c2]; simp), if_pos (by rw [c3]; rfl), hE.size, hso]
    · obtain ⟨s, s1, s2, s3⟩ := hE.signs (D ha t) room (hlen t) (by omega)
      refine ⟨s, ?_, by omega, fun kid =>
        openssl_accepts hw hi he hk ⟨fun w' ha' h => ?_, fun ha' _ h => ?_, fun h => absurd h h8⟩ kid⟩
      · unfold adapterSign
        rw [if_neg h8, e1]
        show (Ossl.sign cfg L alg ⟨.openssl, k⟩ (D ha t) room).1 = _
        unfold Ossl.sign
        rw [if_neg (by simp [c3]), keyConvert_good hk.notNull]
        dsimp only
        obtain ⟨ha', q1, q2⟩ := settingsFor_pss (cfg := cfg) (alg := alg) (by rw [c2]; simp) c3
        rw [e2] at q1
        cases q1
        rw [if_neg (by rw [hw.ctxNew]; simp), if_neg (fun h => h hw.signInit),
          configure_works hw (.inr c3)]
        dsimp only
        rw [if_neg (by rw [c2]; simp), if_pos c3, q2, s1]
        rfl
      · rw [c1] at h
        cases h
      · rw [e2] at h
        cases h
        exact s3

end

theorem openssl_digests32 {cfg : Config} {L : Ossl.Lib} {D : Int → Bytes → Bytes}
    {A : L.Md → Int → Bytes → Prop} (hw : Spec.Ossl.Works L) (hL : Spec.Ossl.Hashing L D A)
    (hsha : D (-16) = Sha256.sha256) : Digests32 cfg (Ossl.crypto cfg L) Sha256.sha256 where
  as := by
    have := (openssl_hashesUpTo (cfg := cfg) (alg := -7) hw hL 4294967295 (by unfold hashFor hashOf; simp) :
      HashesUpTo _ _ (-16) _ _ ∧ _).1
    rwa [hsha] at this
  len := fun b => by
    have := hL.len (-16) b
    rw [hsha] at this
    exact this

/-! ## PSA -/

section
open Psa
variable {cfg : Config} {L : Psa.Lib} {D : HashAlg → Bytes → Bytes} {A : L.Op → HashAlg → Bytes → Prop}
  {alg : Int} {k : Nat}

theorem psa_hashesUpTo (hL : Spec.Psa.Hashing L D A) (N : Nat) {ha : Int}
    (h : hashFor cfg alg = some ha) :
    HashesUpTo N (Psa.crypto cfg L) ha (digestRoom cfg) (D (Spec.Psa.hashTable ha)) ∧
      ∀ b, D (Spec.Psa.hashTable ha) b ≠ [] := by
  obtain ⟨k1, k2, k3, k4⟩ := hashFor_known h
  have hal : hashAlg cfg ha = Spec.Psa.hashTable ha ∧ Spec.Psa.hashTable ha ≠ .bad ∧
      Spec.Psa.digestLen (Spec.Psa.hashTable ha) = digestSize ha := by
    unfold hashAlg
    rcases k1 with e | e | e <;> subst e <;>
      simp only [algSHA256, algSHA384, algSHA512, Int.reduceNeg, Int.reduceEq, and_true, and_false,
        false_or, or_false, true_or, reduceIte] at k2 ⊢
    · exact ⟨rfl, by decide, rfl⟩
    · rw [if_pos k2]; exact ⟨rfl, by decide, rfl⟩
    · rw [if_pos k2]; exact ⟨rfl, by decide, rfl⟩
  obtain ⟨q1, q2, q3⟩ := hal
  refine ⟨⟨fun (h : Psa.HashCtx L) b => h.status = success ∧ A h.op (Spec.Psa.hashTable ha) b,
    ?_, ?_, ?_, ?_⟩, ?_⟩
  · have h0 := hL.known _ q2
    refine ⟨hashStartCtx cfg L ha, ?_, ?_, ?_⟩
    · show Psa.hashStart cfg L ha = _
      unfold Psa.hashStart
      rw [show (hashStartCtx cfg L ha).status = success by unfold hashStartCtx; rw [q1]; exact h0]
      rfl
    · unfold hashStartCtx; rw [q1]; exact h0
    · unfold hashStartCtx; rw [q1]; exact hL.digests.init _ h0
  · rintro (h : Psa.HashCtx L) b u - ⟨h1, h2⟩
    show (Psa.hashUpdate L h (.data u)).status = success ∧ A (Psa.hashUpdate L h (.data u)).op _ (b ++ u)
    unfold Psa.hashUpdate
    rw [if_neg (fun hh => hh h1)]
    exact ⟨hL.update _ _ _ u h2, hL.digests.update _ _ _ u h2 (hL.update _ _ _ u h2)⟩
  · rintro (h : Psa.HashCtx L) b n ⟨h1, h2⟩
    show (Psa.hashUpdate L h (.null n)).status = success ∧ A (Psa.hashUpdate L h (.null n)).op _ b
    unfold Psa.hashUpdate
    rw [if_neg (fun hh => hh h1)]
    exact ⟨h1, h2⟩
  · rintro (h : Psa.HashCtx L) b ⟨h1, h2⟩
    show (Psa.hashFinishLog L h (digestRoom cfg)).1 = _
    have h3 := hL.final _ _ _ (digestRoom cfg) h2 (by omega)
    have h4 := hL.digests.final _ _ _ _ h2 h3
    unfold Psa.hashFinishLog
    rw [if_neg (fun hh => hh h1)]
    dsimp only
    rw [h3, h4]
    rfl
  · intro b hb
    have := hL.len (Spec.Psa.hashTable ha) b
    rw [hb] at this
    simp only [List.length_nil] at this
    omega

theorem psa_hashes (hL : Spec.Psa.Hashing L D A) :
    Hashes 4294967295 cfg (Psa.crypto cfg L) (fun ha => D (Spec.Psa.hashTable ha)) alg :=
  fun _ h => psa_hashesUpTo hL _ h

theorem psa_digests32 (hL : Spec.Psa.Hashing L D A) (hsha : D .sha256 = Sha256.sha256) :
    Digests32 cfg (Psa.crypto cfg L) Sha256.sha256 where
  as := by
    have := (psa_hashesUpTo (cfg := cfg) (alg := -7) hL 4294967295 (by unfold hashFor hashOf; simp) :
      HashesUpTo _ _ (-16) _ _ ∧ _).1
    rw [show Spec.Psa.hashTable (-16) = .sha256 from rfl, hsha] at this
    exact this
  len := fun b => by
    have := hL.len .sha256 b
    rw [hsha] at this
    exact this

/-- A key for an algorithm works in the adapter. -/
theorem psa_keyWorks (hL : Spec.Psa.Hashing L D A) (he : algEnabled cfg alg) (h8 : alg ≠ -8)
    (hk32 : k < 4294967296)
    (hk : Spec.Psa.KeyFor L k (Spec.Psa.sigId alg) (digestSize ((hashOf alg).getD 0)) (sigOctets alg)) :
    KeyWorks cfg (Psa.crypto cfg L) (fun ha => D (Spec.Psa.hashTable ha)) alg ⟨.psa, k⟩ (sigOctets alg) := by
  obtain ⟨ha, e1, e2⟩ := enabled_hash he h8
  have hmod : (⟨.psa, k⟩ : Key).k % 2 ^ 32 = k := Nat.mod_eq_of_lt hk32
  have hsz : sigOctets alg ≤ 256 := by
    rcases enabled_cases he with h | h | h | h | h | h | h <;> subst h <;> decide
  rw [e2] at hk
  obtain ⟨k1, k2, k3, k4⟩ := hashFor_known e1
  have hdl : ∀ t, (D (Spec.Psa.hashTable ha) t).length = digestSize ha := fun t => by
    rw [hL.len]
    rcases k1 with e | e | e <;> subst e <;> rfl
  refine ⟨he, psa_hashes hL, ?_, hsz, fun t room hr => ?_⟩
  · refine ((C34_psa cfg L alg ⟨.psa, k⟩ [] [] 0 (sigOctets alg)).2.2.1).mpr ⟨⟨he, h8⟩,
      (L.keyAttributes k).2.1, (L.keyAttributes k).2.2, ?_, hk.size.symm⟩
    rw [hmod]
    exact Prod.ext hk.attr rfl
  · obtain ⟨s1, s2, s3⟩ := hk.signs (D (Spec.Psa.hashTable ha) t) room (hdl t) hr
    refine ⟨_, ?_, s2, fun kid => ?_⟩
    · unfold adapterSign
      rw [if_neg h8, e1]
      refine ((C34_psa cfg L alg ⟨.psa, k⟩ _ _ room 0).1).mpr ⟨⟨he, h8⟩, ?_⟩
      rw [hmod]
      exact Prod.ext s1 rfl
    · unfold adapterVerify
      rw [if_neg (fun h => h8 h.2), e1]
      refine ((C34_psa cfg L alg ⟨.psa, k⟩ _ _ 0 0).2.1 kid).mpr ⟨⟨he, h8⟩, ?_⟩
      rw [hmod]
      exact s3

theorem psa_accepts (he : algEnabled cfg alg) (h8 : alg ≠ -8) (hk32 : k < 4294967296) {t sig : Bytes}
    (h : L.verifyHash k (Spec.Psa.sigId alg)
      (D (Spec.Psa.hashTable ((hashOf alg).getD 0)) t) sig = success) (kid : Option Bytes) :
    adapterVerify cfg (Psa.crypto cfg L) (fun ha => D (Spec.Psa.hashTable ha)) alg ⟨.psa, k⟩ kid t sig =
      .ok () := by
  obtain ⟨ha, e1, e2⟩ := enabled_hash he h8
  rw [e2] at h
  unfold adapterVerify
  rw [if_neg (fun h => h8 h.2), e1]
  refine ((C34_psa cfg L alg ⟨.psa, k⟩ _ _ 0 0).2.1 kid).mpr ⟨⟨he, h8⟩, ?_⟩
  rw [show (⟨.psa, k⟩ : Key).k % 2 ^ 32 = k from Nat.mod_eq_of_lt hk32]
  exact h

/-- EdDSA is refused. -/
theorem psa_no_eddsa (key : Key) (kid : Option Bytes) (t sig : Bytes) (D : Int → Bytes → Bytes) :
    adapterVerify cfg (Psa.crypto cfg L) D (-8) key kid t sig = .error .unsupportedSigningAlg := by
  unfold adapterVerify
  by_cases h : cfg.disableEDDSA = false
  · rw [if_pos ⟨h, rfl⟩]; rfl
  · rw [if_neg (fun hh => h hh.1)]
    have : hashFor cfg (-8) = none := by
      unfold hashFor
      split <;> rfl
    rw [this]

end
end TCose
