import Verif.Crypto.DemoOssl
import Verif.TCose.Sign
import Verif.Lemmas.Limits

/-!
# C37, C38, C39, C46: signatures, objects and keys in the OpenSSL adapter
-/

namespace TCose.Props
open Spec Spec.Ossl Ossl

/-! ## C37 -/

/-- **C37 (library to COSE).** For numbers of at most the octets of the key, and a
buffer of at least twice that, the result is the two numbers in fixed width:
exactly twice the octets of the key. -/
theorem C37_der_to_cose (L : Lib) (k : Nat) (der : Bytes) (n r s : Nat)
    (hd : L.d2i der = some (r, s)) (hr : r < 256 ^ keyOctets L k) (hs : s < 256 ^ keyOctets L k)
    (hn : 2 * keyOctets L k ≤ n) :
    (derToCose L k der n).1 = .sig (coseSig (keyOctets L k) r s) ∧
    (coseSig (keyOctets L k) r s).length = 2 * keyOctets L k := by
  rw [derToCose_spec hd hr hs, if_pos hn]
  refine ⟨rfl, ?_⟩
  simp only [coseSig, List.length_append, netOrder_length]; omega

/-- The size of a key in octets is that in bits, rounded up. -/
theorem C37_key_size (L : Lib) (k : Nat) :
    8 * keySize L k < L.bits k + 8 ∧ L.bits k ≤ 8 * keySize L k := by
  unfold keySize; split <;> omega

theorem coseSig_halves {w r s : Nat} (hr : r < 256 ^ w) (hs : s < 256 ^ w) :
    bin2bn ((coseSig w r s).take w) = r ∧
    bin2bn (((coseSig w r s).drop w).take w) = s := by
  unfold coseSig
  constructor
  · rw [List.take_append_of_le_length (by rw [netOrder_length]; omega),
      List.take_of_length_le (by rw [netOrder_length]; omega), bin2bn_netOrder, Nat.mod_eq_of_lt hr]
  · rw [List.drop_append_of_le_length (by rw [netOrder_length]; omega),
      List.drop_eq_nil_of_le (by rw [netOrder_length]; omega), List.nil_append,
      List.take_of_length_le (by rw [netOrder_length]; omega), bin2bn_netOrder, Nat.mod_eq_of_lt hs]

/-- **C37 (and back).** Converting the result back, with enough memory, hands the same
`r` and `s` to the library's encoder and returns its output. -/
theorem C37_round_trip (L L' : Lib) (k : Nat) (der : Bytes) (n m r s : Nat) (c der' : Bytes)
    (hd : L.d2i der = some (r, s)) (hr : r < 256 ^ keyOctets L k) (hs : s < 256 ^ keyOctets L k)
    (hn : 2 * keyOctets L k ≤ n) (hc : (derToCose L k der n).1 = .sig c)
    (hw : Works L') (hb : L'.bits k = L.bits k) (he : L'.i2d r s = some der')
    (hm : der'.length ≤ m) (hne : der' ≠ []) :
    (coseToDer L' k c m).1 = .ok der' := by
  obtain ⟨h1, h2⟩ := C37_der_to_cose L k der n r s hd hr hs hn
  rw [h1] at hc
  injection hc with hc
  subst hc
  have hk : keySize L' k = keyOctets L k := by rw [keySize_eq]; unfold keyOctets; rw [hb]
  obtain ⟨h3, h4⟩ := coseSig_halves hr hs
  unfold coseToDer
  simp only [hk, h2, h3, h4, he, hw.bnR, hw.bnS, hw.sigNew, hw.set0]
  rw [if_neg (by omega)]
  simp only [Bool.true_eq_false, if_false]
  rw [if_neg (by simp), if_neg (by simp [hne]; omega)]

/-- **C37 (COSE to library).** What the conversion returns is the library's encoding
of exactly the numbers in the signature: no other octets are accepted for them. -/
theorem C37_cose_to_der (L : Lib) (k : Nat) (sig : Bytes) (n : Nat) (der : Bytes)
    (h : (coseToDer L k sig n).1 = .ok der) :
    ∃ r s, r < 256 ^ keyOctets L k ∧ s < 256 ^ keyOctets L k ∧ sig = coseSig (keyOctets L k) r s ∧
      L.i2d r s = some der := by
  unfold coseToDer at h
  rw [keySize_eq] at h
  split at h
  · cases h
  rename_i hl
  split at h
  · cases h
  simp only [] at h
  split at h
  · cases h
  split at h
  · cases h
  split at h
  · cases h
  split at h
  · cases h
  rename_i d hd
  split at h
  · cases h
  injection h with h
  subst h
  have l1 : (sig.take (keyOctets L k)).length = keyOctets L k := by rw [List.length_take]; omega
  have l2 : ((sig.drop (keyOctets L k)).take (keyOctets L k)).length = keyOctets L k := by
    rw [List.length_take, List.length_drop]; omega
  refine ⟨_, _, ?_, ?_, ?_, hd⟩
  · have := bin2bn_lt (sig.take (keyOctets L k)); rwa [l1] at this
  · have := bin2bn_lt ((sig.drop (keyOctets L k)).take (keyOctets L k)); rwa [l2] at this
  · unfold coseSig
    have e1 := netOrder_bin2bn (sig.take (keyOctets L k))
    have e2 := netOrder_bin2bn ((sig.drop (keyOctets L k)).take (keyOctets L k))
    rw [l1] at e1
    rw [l2] at e2
    rw [e1, e2, List.take_of_length_le (i := keyOctets L k) (l := sig.drop _) (by
      rw [List.length_drop]; omega), List.take_append_drop]

/-- **C37 (other lengths).** A signature of another length is refused, before any
allocation. -/
theorem C37_length_refused (L : Lib) (k : Nat) (sig : Bytes) (n : Nat)
    (h : sig.length ≠ 2 * keyOctets L k) :
    coseToDer L k sig n = (.error .sigVerify, [.key k]) := by
  unfold coseToDer
  rw [keySize_eq]
  rw [if_pos (by omega)]

/-- The refusal reaches the caller of the adapter. -/
theorem C37_verify_length_refused (cfg : Config) (L : Lib) (alg : Int) (k : Nat) (hash sig : Bytes)
    (ha : IsEcdsa cfg alg) (hk : k ≠ 0) (h : sig.length ≠ 2 * keyOctets L k) :
    (verify cfg L alg ⟨.openssl, k⟩ hash sig).1 = .error .sigVerify := by
  have ha := (ecdsa_iff cfg alg).mpr ha
  have hv : verifyConv cfg L alg k sig = (.error .sigVerify, [.key k]) := by
    unfold verifyConv
    rw [if_pos ha]
    exact C37_length_refused L k sig _ h
  unfold verify
  rw [if_neg (by simp [ha])]
  simp only [keyConvert, if_neg hk]
  rw [if_neg (by simp)]
  simp only [hv]

-- a P-256 signature whose r starts with a zero octet
example : let L := demoLib 256
    L.d2i (derSig 5 (2 ^ 255)) = some (5, 2 ^ 255) ∧
    (derToCose L 1 (derSig 5 (2 ^ 255)) 64).1 = .sig (coseSig 32 5 (2 ^ 255)) ∧
    (coseToDer L 1 (coseSig 32 5 (2 ^ 255)) 80).1 = .ok (derSig 5 (2 ^ 255)) ∧
    (coseSig 32 5 (2 ^ 255)).length = 64 := by decide +kernel
-- P-521: 66 octets each
example : keyOctets (demoLib 521) 1 = 66 ∧
    (derToCose (demoLib 521) 1 (derSig (2 ^ 520) 3) 132).1 = .sig (coseSig 66 (2 ^ 520) 3) := by
  decide +kernel
example : (coseToDer (demoLib 256) 1 (coseSig 31 5 6) 80).1 = .error .sigVerify := by
  decide +kernel

/-! ## C38 -/

theorem needsOctets_iff (n a : Nat) : NeedsOctets n a ↔ a = (bn2bin n).length := by
  constructor
  · rintro ⟨h1, h2⟩
    have h3 := (bn2bin_length_le a n).mpr h1
    have h4 := h2 _ ((bn2bin_length_le _ n).mp (Nat.le_refl _))
    omega
  · rintro rfl
    exact ⟨(bn2bin_length_le _ n).mp (Nat.le_refl _), fun b hb => (bn2bin_length_le b n).mpr hb⟩

example : NeedsOctets 255 1 ∧ NeedsOctets 256 2 ∧ NeedsOctets 0 0 := by
  simp only [needsOctets_iff]; decide +kernel

/-- What C38 asks for. -/
def C38_claim : Prop :=
  ∀ (L : Lib) (k : Nat) (der : Bytes) (n r s : Nat), L.d2i der = some (r, s) →
    r < 256 ^ keyOctets L k → s < 256 ^ keyOctets L k → (derToCose L k der n).1 ≠ .ub

/-- **C38_partial.** For numbers of at most the octets of the key, the conversion
writes outside the buffer exactly if the buffer is smaller than twice the octets
of the key but not smaller than the octets of the two numbers without leading
zeros.

Missing: buffers in that range, see `C38_claim_false`. -/
theorem C38_in_bounds_partial (L : Lib) (k : Nat) (der : Bytes) (n r s : Nat)
    (hd : L.d2i der = some (r, s)) (hr : r < 256 ^ keyOctets L k) (hs : s < 256 ^ keyOctets L k)
    (a b : Nat) (ha : NeedsOctets r a) (hb : NeedsOctets s b) :
    (derToCose L k der n).1 = .ub ↔ a + b ≤ n ∧ n < 2 * keyOctets L k := by
  rw [needsOctets_iff] at ha hb
  subst ha hb
  rw [derToCose_spec hd hr hs]
  split
  · simp; omega
  · split
    · simp; omega
    · simp; omega

/-- A buffer as large as `t_cose_crypto_sig_size` says is never overrun, and one too
small by the octets of both numbers gives an error. -/
theorem C38_sized_buffer (L : Lib) (k : Nat) (der : Bytes) (n r s : Nat)
    (hd : L.d2i der = some (r, s)) (hr : r < 256 ^ keyOctets L k) (hs : s < 256 ^ keyOctets L k)
    (a b : Nat) (ha : NeedsOctets r a) (hb : NeedsOctets s b) :
    (2 * keyOctets L k ≤ n → (derToCose L k der n).1 = .sig (coseSig (keyOctets L k) r s)) ∧
    (n < a + b → (derToCose L k der n).1 = .null) := by
  rw [needsOctets_iff] at ha hb
  subst ha hb
  have lr := (bn2bin_length_le (keyOctets L k) r).mpr hr
  have ls := (bn2bin_length_le (keyOctets L k) s).mpr hs
  rw [derToCose_spec hd hr hs]
  constructor
  · intro h; rw [if_pos h]
  · intro h; rw [if_neg (by omega), if_pos h]

/-- The code violates C38: a P-256 signature whose r has 31 octets, 63 octets of
buffer. -/
theorem C38_claim_false : ¬ C38_claim := by
  intro h
  exact h (demoLib 256) 1 (derSig (2 ^ 247) (2 ^ 255)) 63 (2 ^ 247) (2 ^ 255)
    (by decide +kernel) (by decide +kernel) (by decide +kernel) (by decide +kernel)

/-- A key and a payload for the next theorem. -/
def demoSigner : SignCtx :=
  { SignCtx.init 0 algES256 with key := ⟨.openssl, 1⟩ }

/-- The violation can be reached from the API: signing three octets with ES256 when the
signature's r has 31 octets. The size calculation says 77 octets, and 77 are
enough. With 74 to 76 the result is TOO_SMALL, but 73 octets leave 63 for the
signature, which is written outside them; with 72 an error is returned. -/
theorem C38_api_witness :
    (signAadInternal Config.full (crypto Config.full (demoLib 256)) demoSigner false
      (.data [1, 2, 3]) .nil (.null 200)).1.toOption.map UB.len = some 77 ∧
    (signAadInternal Config.full (crypto Config.full (demoLib 256)) demoSigner false
      (.data [1, 2, 3]) .nil (.buf (List.replicate 77 0))).1.toOption.map UB.len = some 77 ∧
    (signAadInternal Config.full (crypto Config.full (demoLib 256)) demoSigner false
      (.data [1, 2, 3]) .nil (.buf (List.replicate 74 0))).1 = .error .tooSmall ∧
    (signAadInternal Config.full (crypto Config.full (demoLib 256)) demoSigner false
      (.data [1, 2, 3]) .nil (.buf (List.replicate 73 0))).1 = .error .modelUB ∧
    (signAadInternal Config.full (crypto Config.full (demoLib 256)) demoSigner false
      (.data [1, 2, 3]) .nil (.buf (List.replicate 72 0))).1 = .error .sigFail := by
  decide +kernel

/-! ## C39 -/

/-- What C39 asks for, of the functions that return with nothing held. -/
def C39_claim : Prop :=
  ∀ (cfg : Config) (L : Lib) (alg : Int) (key : Key) (hash sig : Bytes) (n : Nat),
    Clean (sigSize cfg L alg key).2 ∧ Clean (sign cfg L alg key hash n).2 ∧
    Clean (verify cfg L alg key hash sig).2 ∧ Clean (Ossl.signEddsa L key hash n).2 ∧
    Clean (Ossl.verifyEddsa L key hash sig).2

theorem derToCose_log (L : Lib) (k : Nat) (der : Bytes) (n : Nat) :
    (derToCose L k der n).2 = [.key k] ∨
    (derToCose L k der n).2 = [.key k, .alloc .ecdsaSig, .free .ecdsaSig] := by
  unfold derToCose
  split
  · exact .inl rfl
  · right
    simp only []
    split
    · rfl
    · split
      · rfl
      · split <;> rfl

/-- **C39 (sizes).** -/
theorem C39_sig_size (cfg : Config) (L : Lib) (alg : Int) (key : Key) :
    Clean (sigSize cfg L alg key).2 := by
  intro o
  unfold sigSize
  split
  · rfl
  · split
    · rfl
    · split <;> rfl

/-- **C39 (signing).** -/
theorem C39_sign (cfg : Config) (L : Lib) (alg : Int) (key : Key) (hash : Bytes) (n : Nat) :
    Clean (sign cfg L alg key hash n).2 := by
  intro o
  have small : ∀ k, track o false [.key k, .alloc .pkeyCtx, .free .pkeyCtx] = some false := by
    intro k; cases o <;> rfl
  unfold sign
  split
  · rfl
  · split
    · rfl
    · rename_i k _
      split
      · rfl
      · simp only []
        split
        · exact small k
        · split
          · exact small k
          · rename_i pc _
            split
            · split
              · exact small k
              · have hl := derToCose_log L k (L.pkeySign k pc hash (derBufSize cfg)).2 n
                split
                all_goals
                  rename_i heq
                  rw [heq] at hl
                  rcases hl with hl | hl <;> simp only [] at hl <;> subst hl <;> cases o <;> rfl
            · split
              · split
                · exact small k
                · exact small k
              · exact small k

/-- When `verify` loses an object: the conversion to DER has got all its memory, and
`ECDSA_SIG_set0` fails or the DER form does not fit its buffer. -/
structure Leaks (cfg : Config) (L : Lib) (alg : Int) (key : Key) (sig : Bytes) : Prop where
  alg : IsEcdsa cfg alg
  lib : key.lib = .openssl
  notNull : key.k ≠ 0
  len : sig.length = 2 * keyOctets L key.k
  mem : L.bnR = true ∧ L.bnS = true ∧ L.sigNew = true
  lost : L.set0 ≠ 1 ∨ ∃ r s der, r < 256 ^ keyOctets L key.k ∧ s < 256 ^ keyOctets L key.k ∧
    sig = coseSig (keyOctets L key.k) r s ∧ L.i2d r s = some der ∧
    (derRoom cfg < der.length ∨ der = [])

theorem derBufSize_eq (cfg : Config) : derBufSize cfg = derRoom cfg := by
  unfold derBufSize maxEcdsaSigSize derRoom largestKey
  cases cfg.disableES512 <;> cases cfg.disableES384 <;> simp

theorem cose_halves {w : Nat} {sig : Bytes} (h : sig.length = 2 * w) (p : Nat → Nat → Prop) :
    p (bin2bn (sig.take w)) (bin2bn (sig.drop w)) ↔
      ∃ r s, r < 256 ^ w ∧ s < 256 ^ w ∧ sig = coseSig w r s ∧ p r s := by
  have l1 : (sig.take w).length = w := by rw [List.length_take]; omega
  have l2 : (sig.drop w).length = w := by rw [List.length_drop]; omega
  constructor
  · intro hp
    refine ⟨_, _, ?_, ?_, ?_, hp⟩
    · have := bin2bn_lt (sig.take w); rwa [l1] at this
    · have := bin2bn_lt (sig.drop w); rwa [l2] at this
    · have e1 := netOrder_bin2bn (sig.take w)
      have e2 := netOrder_bin2bn (sig.drop w)
      rw [l1] at e1
      rw [l2] at e2
      unfold coseSig
      rw [e1, e2, List.take_append_drop]
  · rintro ⟨r, s, hr, hs, rfl, hp⟩
    obtain ⟨h1, h2⟩ := coseSig_halves hr hs
    rw [List.take_of_length_le (i := w) (l := List.drop _ _) (by omega)] at h2
    rw [h1, h2]
    exact hp

/-- The last condition, as the code computes it. -/
theorem lost_iff {L : Lib} {k : Nat} {sig : Bytes} {n : Nat} (h : sig.length = 2 * keyOctets L k) :
    (L.set0 ≠ 1 ∨ ∃ der, L.i2d (bin2bn (sig.take (keyOctets L k)))
      (bin2bn (sig.drop (keyOctets L k))) = some der ∧ (n < der.length ∨ der = [])) ↔
    (L.set0 ≠ 1 ∨ ∃ r s der, r < 256 ^ keyOctets L k ∧ s < 256 ^ keyOctets L k ∧
      sig = coseSig (keyOctets L k) r s ∧ L.i2d r s = some der ∧ (n < der.length ∨ der = [])) := by
  rw [cose_halves h fun r s => ∃ der, L.i2d r s = some der ∧ (n < der.length ∨ der = [])]
  constructor
  · rintro (h | ⟨r, s, h1, h2, h3, der, h4⟩)
    · exact .inl h
    · exact .inr ⟨r, s, der, h1, h2, h3, h4⟩
  · rintro (h | ⟨r, s, der, h1, h2, h3, h4⟩)
    · exact .inl h
    · exact .inr ⟨r, s, h1, h2, h3, der, h4⟩

theorem coseToDer_clean {L : Lib} {k : Nat} {sig : Bytes} {n : Nat}
    (h : L.bnR = true → L.bnS = true → L.sigNew = true → sig.length = 2 * keyOctets L k →
      ¬ (L.set0 ≠ 1 ∨ ∃ der, L.i2d (bin2bn (sig.take (keyOctets L k)))
        (bin2bn (sig.drop (keyOctets L k))) = some der ∧ (n < der.length ∨ der = [])))
    (o : Obj) (l : Log) :
    track o false ((coseToDer L k sig n).2 ++ l) = track o false l := by
  unfold coseToDer
  rw [keySize_eq]
  split
  · rfl
  rename_i hl
  split
  · rfl
  rename_i h1
  simp only []
  split
  · cases o <;> rfl
  rename_i h2
  split
  · cases o <;> rfl
  rename_i h3
  have h' := h (by simpa using h1) (by simpa using h2) (by simpa using h3) (by omega)
  rw [List.take_of_length_le (i := keyOctets L k) (l := sig.drop _) (by rw [List.length_drop]; omega)]
  split
  · rename_i h4; exact absurd (.inl h4) h'
  split
  · cases o <;> rfl
  · rename_i der hd
    split
    · rename_i h5; exact absurd (.inr ⟨der, hd, h5⟩) h'
    · cases o <;> rfl

theorem keyConvert_ok {key : Key} {k : Nat} (h : keyConvert key = .ok k) :
    key.lib = .openssl ∧ key.k ≠ 0 ∧ k = key.k := by
  unfold keyConvert at h
  split at h
  · cases h
  · rename_i h1
    split at h
    · cases h
    · rename_i h2
      injection h with h
      exact ⟨by simpa using h1, h2, h.symm⟩

/-- **C39_partial (verification).** Everything is freed exactly once, except in the
case `Leaks`.

Missing: that case; there an object is lost, see `C39_leak`. -/
theorem C39_verify_partial (cfg : Config) (L : Lib) (alg : Int) (key : Key) (hash sig : Bytes)
    (h : ¬ Leaks cfg L alg key sig) : Clean (verify cfg L alg key hash sig).2 := by
  intro o
  unfold verify
  split
  · rfl
  rename_i halg
  split
  · rfl
  rename_i k hk
  obtain ⟨hk1, hk2, rfl⟩ := keyConvert_ok hk
  have hconv : ∀ l, track o false ((verifyConv cfg L alg key.k sig).2 ++ l) = track o false l := by
    unfold verifyConv
    intro l
    split
    · rename_i ha
      apply coseToDer_clean
      intro m1 m2 m3 m4 m5
      rw [lost_iff m4, derBufSize_eq] at m5
      exact h ⟨(ecdsa_iff cfg alg).mp ha, hk1, hk2, m4, ⟨m1, m2, m3⟩, m5⟩
    · split <;> rfl
  simp only []
  generalize verifyConv cfg L alg key.k sig = conv at *
  obtain ⟨res, log⟩ := conv
  simp only [] at hconv
  cases res with
  | error x =>
    simp only []
    have := hconv []
    rw [List.append_nil] at this
    rw [this]; rfl
  | ok osig =>
    simp only []
    have small : track o false (log ++ [.key key.k, .alloc .pkeyCtx] ++ [.free .pkeyCtx]) =
        some false := by
      rw [List.append_assoc, hconv]; cases o <;> rfl
    split
    · rw [hconv]; rfl
    · split
      · exact small
      · split
        · exact small
        · split
          · exact small
          · split
            · exact small
            · exact small

/-- In the case `Leaks` an object is never freed: the signature object, or the DER
octets. -/
theorem C39_leak (cfg : Config) (L : Lib) (alg : Int) (key : Key) (hash sig : Bytes)
    (h : Leaks cfg L alg key sig) :
    track .ecdsaSig false (verify cfg L alg key hash sig).2 = some true ∨
    track .der false (verify cfg L alg key hash sig).2 = some true := by
  obtain ⟨ha, h1, h2, h3, ⟨m1, m2, m3⟩, h4⟩ := h
  rw [← derBufSize_eq, ← lost_iff h3] at h4
  have ha := (ecdsa_iff cfg alg).mpr ha
  have hc : keyConvert key = .ok key.k := by
    unfold keyConvert; rw [if_neg (by simp [h1]), if_neg h2]
  unfold verify
  simp only [ha, hc, verifyConv, if_true]
  rw [if_neg (by simp)]
  unfold coseToDer
  simp only [keySize_eq, m1, m2, m3, Bool.true_eq_false, if_false]
  rw [if_neg (by omega), List.take_of_length_le (i := keyOctets L key.k) (l := sig.drop _) (by
    rw [List.length_drop]; omega)]
  by_cases hs : L.set0 ≠ 1
  · rw [if_pos hs]; left; rfl
  · rw [if_neg hs]
    rcases h4 with h4 | ⟨der, hd, hlost⟩
    · exact absurd h4 hs
    · right
      rw [hd]
      simp only []
      rw [if_pos hlost]
      rfl

/-- The DER form of a signature fits the adapter's buffer for every curve the build has
an algorithm for. -/
theorem largestKey_fits (cfg : Config) :
    2 * Spec.Ossl.largestKey cfg + 9 ≤ derBufSize cfg ∧ Spec.Ossl.largestKey cfg ≤ 66 := by
  unfold Spec.Ossl.largestKey derBufSize maxEcdsaSigSize
  cases cfg.disableES512 <;> cases cfg.disableES384 <;> simp

/-- With a library whose `ECDSA_SIG_set0` works and that produces DER, and a key of
a size the build was made for, nothing is lost. -/
theorem C39_verify_der (cfg : Config) (L : Lib) (alg : Int) (key : Key) (hash sig : Bytes)
    (hset : L.set0 = 1) (hder : ∀ r s, L.i2d r s = some (derSig r s))
    (hk : keyOctets L key.k ≤ Spec.Ossl.largestKey cfg) :
    Clean (verify cfg L alg key hash sig).2 := by
  apply C39_verify_partial
  rintro ⟨-, -, -, h3, -, h4⟩
  rcases h4 with h4 | ⟨r, s, der, l1, l2, -, hd, hlost⟩
  · exact h4 hset
  · rw [hder] at hd
    injection hd with hd
    subst hd
    have hm := largestKey_fits cfg
    rw [derBufSize_eq] at hm
    have := derSig_length l1 l2 (by omega)
    rcases hlost with h | h
    · omega
    · simp [derSig] at h

/-- **C39 (EdDSA).** -/
theorem C39_sign_eddsa (L : Lib) (key : Key) (tbs : Bytes) (n : Nat) :
    Clean (Ossl.signEddsa L key tbs n).2 := by
  intro o
  unfold Ossl.signEddsa
  split
  · rfl
  · split
    · rfl
    · simp only []
      split
      · cases o <;> rfl
      · split <;> (cases o <;> rfl)

theorem C39_verify_eddsa (L : Lib) (key : Key) (tbs sig : Bytes) :
    Clean (Ossl.verifyEddsa L key tbs sig).2 := by
  intro o
  unfold Ossl.verifyEddsa
  split
  · rfl
  · split
    · rfl
    · simp only []
      split
      · cases o <;> rfl
      · split
        · cases o <;> rfl
        · split <;> (cases o <;> rfl)

/-- **C39 (hashing).** A hash that cannot be started holds nothing, and one that was
started is released by finishing it, whatever happened to it in between
(t_cose finishes every hash it starts, src/t_cose_util.c:171-238). -/
theorem C39_hash (cfg : Config) (L : Lib) (alg : Int) :
    (∀ x, (hashStart cfg L alg).1 = .error x → Clean (hashStart cfg L alg).2) ∧
    (∀ h, (hashStart cfg L alg).1 = .ok h → ∀ h' n,
      Clean ((hashStart cfg L alg).2 ++ (hashFinish L h' n).2)) := by
  have hfin : ∀ h' n, (hashFinish L h' n).2 = [.free .mdCtx] := by
    intro h' n
    unfold hashFinish
    split
    · rfl
    · simp only []
      split
      · rfl
      · split <;> rfl
  unfold hashStart
  split
  · split
    · exact ⟨fun x h o => by rfl, fun h hh => by cases hh⟩
    · split
      · exact ⟨fun x h o => by rfl, fun h hh => by cases hh⟩
      · simp only []
        split
        · exact ⟨fun x h o => by cases o <;> rfl, fun h hh => by cases hh⟩
        · refine ⟨fun x h => by (cases h), fun h _ h' n o => ?_⟩
          rw [hfin]; cases o <;> rfl
  · exact ⟨fun x h o => by rfl, fun h hh => by cases hh⟩

/-- A build without ES512 (buffer of 112 octets) and a P-521 key: `Leaks` holds for any
signature whose numbers are large. -/
theorem C39_leak_reachable :
    let cfg := { Config.full with disableES512 := true }
    let sig := coseSig 66 (2 ^ 520) (2 ^ 520)
    (verify cfg (demoLib 521) algES384 ⟨.openssl, 1⟩ (List.replicate 48 1) sig).1 = .error .sigFail ∧
    track .der false
      (verify cfg (demoLib 521) algES384 ⟨.openssl, 1⟩ (List.replicate 48 1) sig).2 = some true := by
  decide +kernel

/-- The code violates C39. -/
theorem C39_claim_false : ¬ C39_claim := by
  intro h
  have := (h { Config.full with disableES512 := true } (demoLib 521) algES384 ⟨.openssl, 1⟩
    (List.replicate 48 1) (coseSig 66 (2 ^ 520) (2 ^ 520)) 0).2.2.1 .der
  rw [C39_leak_reachable.2] at this
  cases this

-- `Leaks` fails, and much is allocated and freed
example : (verify Config.full (demoLib 256) algES256 ⟨.openssl, 1⟩ [1] (coseSig 32 1 2)).2.length = 12
    ∧ Clean (verify Config.full (demoLib 256) algES256 ⟨.openssl, 1⟩ [1] (coseSig 32 1 2)).2 := by
  decide +kernel
example : keyOctets (demoLib 521) 1 ≤ Spec.Ossl.largestKey Config.full := by decide +kernel

/-! ## C46 -/

/-- A key that is not marked as an OpenSSL key, or is NULL. -/
def BadKey (key : Key) (x : Err) : Prop :=
  (key.lib ≠ .openssl ∧ x = .incorrectKeyForLib) ∨
  (key.lib = .openssl ∧ key.k = 0 ∧ x = .emptyKey)

/-- **C46.** A key not marked as an OpenSSL key gives INCORRECT_KEY_FOR_LIB, a NULL key
EMPTY_KEY, from every operation, and no call into the library is made (the log is
empty). Algorithms that are neither ECDSA nor RSA PSS are refused before the key
is looked at. -/
theorem C46_bad_key (cfg : Config) (L : Lib) (alg : Int) (key : Key) (x : Err)
    (hkey : BadKey key x) (hash sig : Bytes) (n : Nat) :
    sigSize cfg L alg key = (.error x, []) ∧
    Ossl.signEddsa L key hash n = (.error x, []) ∧
    Ossl.verifyEddsa L key hash sig = (.error x, []) ∧
    (IsEcdsa cfg alg ∨ IsPss cfg alg →
      sign cfg L alg key hash n = (.error x, []) ∧
      verify cfg L alg key hash sig = (.error x, [])) ∧
    (¬ (IsEcdsa cfg alg ∨ IsPss cfg alg) →
      sign cfg L alg key hash n = (.error .unsupportedSigningAlg, []) ∧
      verify cfg L alg key hash sig = (.error .unsupportedSigningAlg, [])) := by
  rw [← ecdsa_iff, ← pss_iff]
  have hc : keyConvert key = .error x := by
    unfold keyConvert
    rcases hkey with ⟨h1, rfl⟩ | ⟨h1, h2, rfl⟩
    · rw [if_pos h1]
    · rw [if_neg (by simp [h1]), if_pos h2]
  refine ⟨?_, ?_, ?_, ?_, ?_⟩
  · unfold sigSize; rw [hc]
  · unfold Ossl.signEddsa; rw [hc]
  · unfold Ossl.verifyEddsa; rw [hc]
  · intro h
    have hb : (!algIsEcdsa cfg alg && !algIsPss cfg alg) = false := by
      rcases h with h | h <;> simp [h]
    unfold sign verify
    simp only [hb, hc]
    exact ⟨rfl, rfl⟩
  · intro h
    have hb : (!algIsEcdsa cfg alg && !algIsPss cfg alg) = true := by
      simp only [not_or] at h
      simp [h.1, h.2]
    unfold sign verify
    simp only [hb, if_true]
    exact ⟨trivial, trivial⟩

/-- A good key passes the check, is the one the library is called with, and determines the
size: twice its octets for ECDSA, the library's answer for RSA. -/
theorem C46_good_key (cfg : Config) (L : Lib) (alg : Int) (k : Nat) (hk : k ≠ 0)
    (ha : IsEcdsa cfg alg ∨ IsPss cfg alg) :
    sigSize cfg L alg ⟨.openssl, k⟩ =
      (.ok (if IsEcdsa cfg alg then 2 * keyOctets L k else L.size k), [.key k]) := by
  rw [← ecdsa_iff, ← pss_iff] at ha
  rw [show (if IsEcdsa cfg alg then 2 * keyOctets L k else L.size k) =
    if algIsEcdsa cfg alg = true then 2 * keyOctets L k else L.size k by
      by_cases h : IsEcdsa cfg alg
      · rw [if_pos h, if_pos ((ecdsa_iff cfg alg).mpr h)]
      · rw [if_neg h, if_neg (fun hc => h ((ecdsa_iff cfg alg).mp hc))]]
  unfold sigSize keyConvert
  simp only [if_neg hk]
  by_cases h : algIsEcdsa cfg alg = true
  · simp [h, keySize_eq]; omega
  · have : algIsPss cfg alg = true := by rcases ha with h' | h'; exact absurd h' h; exact h'
    simp [h, this]

example : BadKey ⟨.psa, 3⟩ .incorrectKeyForLib ∧ BadKey ⟨.openssl, 0⟩ .emptyKey ∧
    BadKey Key.null .incorrectKeyForLib := by
  refine ⟨.inl ⟨by decide, rfl⟩, .inr ⟨rfl, rfl, rfl⟩, .inl ⟨by decide, rfl⟩⟩

end TCose.Props
