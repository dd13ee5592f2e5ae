import Verif.Crypto.DemoPsa
import Verif.Props.SignSafety
import Verif.Props.RoundTrip
import Verif.Props.Sign
import Verif.Props.Verify

/-!
# The PSA adapter

Properties C34 (errors of the library never become success), C49 (hash
operations), C50 (keys), and the API on top of the adapter (C03, C08, C10).
-/

namespace TCose.Props
open TCose TCose.Psa TCose.Spec

/-! ## C34 -/

theorem signingError_none {st : Int} : signingError st = none ↔ st = success := by
  unfold signingError
  constructor
  · intro h
    split at h
    · assumption
    · repeat' (split at h; cases h)
      cases h
  · intro h; rw [if_pos h]

theorem hashError_none {st : Int} : hashError st = none ↔ st = success := by
  unfold hashError
  constructor
  · intro h
    split at h
    · assumption
    · repeat' (split at h; cases h)
      cases h
  · intro h; rw [if_pos h]

/-- The algorithms known to `cose_alg_id_to_psa_alg_id`: each enabled one but EdDSA. -/
theorem sigAlg_unsupported (cfg : Config) (alg : Int) :
    (sigAlg cfg alg).unsupported = false ↔ algEnabled cfg alg ∧ alg ≠ algEDDSA := by
  obtain ⟨d1, d2, d3, d4, d5, d6, d7, d8⟩ := cfg
  by_cases h1 : alg = -7
  · subst h1; revert d1 d2 d3 d4 d5 d6 d7 d8; decide
  by_cases h2 : alg = -35
  · subst h2; revert d1 d2 d3 d4 d5 d6 d7 d8; decide
  by_cases h3 : alg = -36
  · subst h3; revert d1 d2 d3 d4 d5 d6 d7 d8; decide
  by_cases h4 : alg = -37
  · subst h4; revert d1 d2 d3 d4 d5 d6 d7 d8; decide
  by_cases h5 : alg = -38
  · subst h5; revert d1 d2 d3 d4 d5 d6 d7 d8; decide
  by_cases h6 : alg = -39
  · subst h6; revert d1 d2 d3 d4 d5 d6 d7 d8; decide
  simp [sigAlg, algEnabled, algES256, algES384, algES512, algPS256, algPS384, algPS512, algEDDSA,
    h1, h2, h3, h4, h5, h6, SigAlg.unsupported]
  intro h; exact fun _ => h

/-- The table of PSA signature algorithms is right for the enabled ones. -/
theorem sigAlg_eq {cfg : Config} {alg : Int} (h : algEnabled cfg alg ∧ alg ≠ -8) :
    sigAlg cfg alg = Spec.Psa.sigId alg := by
  obtain ⟨d1, d2, d3, d4, d5, d6, d7, d8⟩ := cfg
  obtain ⟨h, hne⟩ := h
  rcases h with h | ⟨h, h'⟩ | ⟨h, h'⟩ | ⟨h, h'⟩ | ⟨h, h'⟩ | ⟨h, h'⟩ | ⟨h, h'⟩
  · subst h; rfl
  all_goals first | exact absurd h hne | (subst h; simp only [] at h'; subst h'; simp [sigAlg, Spec.Psa.sigId, algES256, algES384, algES512, algPS256, algPS384, algPS512])

theorem sigId_ne_zero {cfg : Config} {alg : Int} (h : algEnabled cfg alg ∧ alg ≠ -8) :
    Spec.Psa.sigId alg ≠ .zero := by
  rw [← sigAlg_eq h]
  intro e
  have := (sigAlg_unsupported cfg alg).2 h
  rw [e] at this
  cases this

theorem hashAlg_eq (cfg : Config) (alg : Int) : hashAlg cfg alg = Spec.Psa.hashId cfg alg := by
  obtain ⟨d1, d2, d3, d4, d5, d6, d7, d8⟩ := cfg
  by_cases h1 : alg = -16
  · subst h1; revert d1 d2 d3 d4 d5 d6 d7 d8; decide
  by_cases h2 : alg = -43
  · subst h2; revert d1 d2 d3 d4 d5 d6 d7 d8; decide
  by_cases h3 : alg = -44
  · subst h3; revert d1 d2 d3 d4 d5 d6 d7 d8; decide
  have : Spec.Psa.hashTable alg = .bad := by simp [Spec.Psa.hashTable, h1, h2, h3]
  simp [Spec.Psa.hashId, this, hashAlg, algSHA256, algSHA384, algSHA512, h1, h2, h3]

/-- What the adapter asks of the library, with the ids it uses. -/
theorem psa_calls (cfg : Config) (L : Lib) (alg : Int) (key : Key) (hash sig : Bytes) (n sz : Nat) :
    ((crypto cfg L).sign alg key hash n = .ok sig ↔ (algEnabled cfg alg ∧ alg ≠ algEDDSA) ∧
      L.signHash (key.k % 2 ^ 32) (sigAlg cfg alg) hash n = (0, sig)) ∧
    (∀ kid, (crypto cfg L).verify alg key kid hash sig = .ok () ↔
      (algEnabled cfg alg ∧ alg ≠ algEDDSA) ∧
      L.verifyHash (key.k % 2 ^ 32) (sigAlg cfg alg) hash sig = 0) ∧
    ((crypto cfg L).sigSize alg key = .ok sz ↔ (algEnabled cfg alg ∧ alg ≠ algEDDSA) ∧
      ∃ ty bits, L.keyAttributes (key.k % 2 ^ 32) = (0, ty, bits) ∧
        sz = L.signOutputSize ty bits (sigAlg cfg alg)) ∧
    (∀ t, (crypto cfg L).signEddsa key t n ≠ .ok sig) ∧
    (∀ t kid, (crypto cfg L).verifyEddsa key kid t sig ≠ .ok ()) := by
  rw [← sigAlg_unsupported]
  change ((Psa.sign cfg L alg key hash n = .ok sig ↔ _) ∧ (∀ kid, Psa.verify cfg L alg key hash sig = .ok () ↔ _) ∧
    (Psa.sigSize cfg L alg key = .ok sz ↔ _) ∧ _)
  rw [show (2 : Nat) ^ 32 = 4294967296 from rfl]
  refine ⟨?_, fun _ => ?_, ?_, (fun _ h => by cases h), (fun _ _ h => by cases h)⟩
  · unfold Psa.sign Psa.keyId
    cases h : (sigAlg cfg alg).unsupported
    · rw [if_neg (by simp)]
      rcases hs : L.signHash (key.k % 4294967296) (sigAlg cfg alg) hash n with ⟨st, s⟩
      cases he : signingError st with
      | none =>
        have := signingError_none.1 he
        simp [this, success]
      | some x =>
        have : st ≠ 0 := fun hh => by rw [signingError_none.2 hh] at he; cases he
        simp [this]
    · simp
  · unfold Psa.verify Psa.keyId
    cases h : (sigAlg cfg alg).unsupported
    · rw [if_neg (by simp)]
      cases he : signingError (L.verifyHash (key.k % 4294967296) (sigAlg cfg alg) hash sig) with
      | none =>
        have := signingError_none.1 he
        rw [this]; simp [success]
      | some x =>
        have : L.verifyHash (key.k % 4294967296) (sigAlg cfg alg) hash sig ≠ 0 :=
          fun hh => by rw [signingError_none.2 hh] at he; cases he
        simp [this]
    · simp
  · unfold Psa.sigSize Psa.keyId
    cases h : (sigAlg cfg alg).unsupported
    · rw [if_neg (by simp)]
      rcases hs : L.keyAttributes (key.k % 4294967296) with ⟨st, ty, bits⟩
      cases he : signingError st with
      | none =>
        have := signingError_none.1 he
        subst this
        simp only [success, Except.ok.injEq, true_and, Prod.mk.injEq]
        constructor
        · intro e; exact ⟨ty, bits, ⟨rfl, rfl⟩, e.symm⟩
        · rintro ⟨_, _, ⟨rfl, rfl⟩, e⟩; exact e.symm
      | some x =>
        have : st ≠ 0 := fun hh => by rw [signingError_none.2 hh] at he; cases he
        simp [this]
    · simp

/-- **C34 (PSA, signing and verification).** Success is reported exactly if the algorithm
is enabled and not EdDSA, and the library reported `PSA_SUCCESS` for the key, the
algorithm, the hash and the buffer or signature given; and the signature is the
library's. -/
theorem C34_psa (cfg : Config) (L : Lib) (alg : Int) (key : Key) (hash sig : Bytes) (n sz : Nat) :
    ((crypto cfg L).sign alg key hash n = .ok sig ↔ (algEnabled cfg alg ∧ alg ≠ -8) ∧
      L.signHash (key.k % 2 ^ 32) (Spec.Psa.sigId alg) hash n = (0, sig)) ∧
    (∀ kid, (crypto cfg L).verify alg key kid hash sig = .ok () ↔
      (algEnabled cfg alg ∧ alg ≠ -8) ∧
      L.verifyHash (key.k % 2 ^ 32) (Spec.Psa.sigId alg) hash sig = 0) ∧
    ((crypto cfg L).sigSize alg key = .ok sz ↔ (algEnabled cfg alg ∧ alg ≠ -8) ∧
      ∃ ty bits, L.keyAttributes (key.k % 2 ^ 32) = (0, ty, bits) ∧
        sz = L.signOutputSize ty bits (Spec.Psa.sigId alg)) ∧
    (∀ t, (crypto cfg L).signEddsa key t n ≠ .ok sig) ∧
    (∀ t kid, (crypto cfg L).verifyEddsa key kid t sig ≠ .ok ()) := by
  obtain ⟨h1, h2, h3, h4, h5⟩ := psa_calls cfg L alg key hash sig n sz
  refine ⟨h1.trans (and_congr_right fun ha => ?_), fun kid => (h2 kid).trans (and_congr_right fun ha => ?_),
    h3.trans (and_congr_right fun ha => ?_), h4, h5⟩ <;> rw [sigAlg_eq ha]

/-- Feeding a hash operation; `none` once an update failed. NULL pointers are passed
over. -/
def psaFeed (L : Lib) : L.Op → List UB → Option L.Op
  | op, [] => some op
  | op, .null _ :: us => psaFeed L op us
  | op, .data b :: us =>
    if (L.hashUpdate op b).1 = 0 then psaFeed L (L.hashUpdate op b).2 us else none

theorem psaFeed_updates (L : Lib) (us : List UB) : ∀ h : HashCtx L, h.status = 0 →
    Spec.Psa.live false h.calls = true →
    Spec.Psa.live false (us.foldl (hashUpdate L) h).calls = true ∧
    match psaFeed L h.op us with
    | some op => (us.foldl (hashUpdate L) h).status = 0 ∧ (us.foldl (hashUpdate L) h).op = op
    | none => (us.foldl (hashUpdate L) h).status ≠ 0 := by
  have stuck : ∀ (us : List UB) (h : HashCtx L), h.status ≠ 0 → us.foldl (hashUpdate L) h = h := by
    intro us
    induction us with
    | nil => intro h _; rfl
    | cons u us ih =>
      intro h hh
      rw [List.foldl_cons]
      have : hashUpdate L h u = h := by unfold hashUpdate; exact if_pos hh
      rw [this]; exact ih h hh
  have liveAppend : ∀ (l : List OpCall) (b : Bool) (st : Int),
      Spec.Psa.live b (l ++ [.update st]) = Spec.Psa.live b l := by
    intro l
    induction l with
    | nil => intro b st; rfl
    | cons c l ih => intro b st; cases c <;> exact ih _ _
  induction us with
  | nil => intro h hh hl; exact ⟨hl, hh, rfl⟩
  | cons u us ih =>
    intro h hh hl
    rw [List.foldl_cons]
    have hs : ¬ h.status ≠ success := fun hne => hne hh
    cases u with
    | null n =>
      have : hashUpdate L h (.null n) = h := by unfold hashUpdate; rw [if_neg hs]
      rw [this]
      exact ih h hh hl
    | data b =>
      have e : hashUpdate L h (.data b) = ⟨(L.hashUpdate h.op b).2, (L.hashUpdate h.op b).1,
          h.calls ++ [.update (L.hashUpdate h.op b).1]⟩ := by
        unfold hashUpdate; rw [if_neg hs]
      rw [e]
      by_cases hc : (L.hashUpdate h.op b).1 = 0
      · simp only [psaFeed, if_pos hc]
        exact ih ⟨_, _, _⟩ hc (by simp only [liveAppend]; exact hl)
      · simp only [psaFeed, if_neg hc]
        rw [stuck us _ hc]
        exact ⟨by simp only [liveAppend]; exact hl, hc⟩

theorem psaStart_ok {cfg : Config} {L : Lib} {alg : Int} {h : HashCtx L}
    (hs : hashStart cfg L alg = .ok h) :
    (L.hashSetup (hashAlg cfg alg)).1 = 0 ∧
      h = ⟨(L.hashSetup (hashAlg cfg alg)).2, 0, [.setup 0]⟩ := by
  unfold hashStart at hs
  cases he : hashError (hashStartCtx cfg L alg).status with
  | some x => rw [he] at hs; cases hs
  | none =>
    rw [he] at hs
    injection hs with hs
    have h0 : (L.hashSetup (hashAlg cfg alg)).1 = 0 := hashError_none.1 he
    refine ⟨h0, ?_⟩
    rw [← hs]
    unfold hashStartCtx
    simp only [h0]

/-- **C34 (PSA, hashing).** A hash is reported exactly if set-up, every update and
finishing reported success, and it is what the library computed from everything
fed in. -/
theorem C34_psa_hash (cfg : Config) (L : Lib) (alg : Int) (h : HashCtx L) (us : List UB) (n : Nat)
    (d : Bytes) (hs : hashStart cfg L alg = .ok h) :
    hashFinish L (us.foldl (hashUpdate L) h) n = .ok d ↔
      (L.hashSetup (Spec.Psa.hashId cfg alg)).1 = 0 ∧
      ∃ op, psaFeed L (L.hashSetup (Spec.Psa.hashId cfg alg)).2 us = some op ∧ L.hashFinish op n = (0, d) := by
  rw [← hashAlg_eq]
  obtain ⟨h0, he⟩ := psaStart_ok hs
  subst he
  have hu := (psaFeed_updates L us ⟨(L.hashSetup (hashAlg cfg alg)).2, 0, [.setup 0]⟩ rfl rfl).2
  simp only [h0, true_and]
  unfold hashFinish hashFinishLog
  cases hf : psaFeed L (L.hashSetup (hashAlg cfg alg)).2 us with
  | none =>
    simp only [hf] at hu
    rw [if_pos (show _ ≠ success from hu)]
    cases hx : hashError (us.foldl (hashUpdate L) ⟨(L.hashSetup (hashAlg cfg alg)).2, 0, [.setup 0]⟩).status with
    | none => exact absurd (hashError_none.1 hx) hu
    | some x => simp
  | some op =>
    simp only [hf] at hu
    rw [if_neg (fun hne => hne hu.1), hu.2]
    rcases hr : L.hashFinish op n with ⟨st, b⟩
    simp only []
    cases hx : hashError st with
    | none => have : st = 0 := hashError_none.1 hx; simp [this, hr]
    | some x =>
      have : st ≠ 0 := fun hh => by rw [hashError_none.2 hh] at hx; cases hx
      simp [hr, this]

/-- **C34 (PSA).** Hashing cannot be started if set-up fails. -/
theorem C34_psa_start (cfg : Config) (L : Lib) (alg : Int) :
    (∃ h, hashStart cfg L alg = .ok h) ↔ (L.hashSetup (Spec.Psa.hashId cfg alg)).1 = 0 := by
  rw [← hashAlg_eq]
  constructor
  · rintro ⟨h, hs⟩; exact (psaStart_ok hs).1
  · intro h
    refine ⟨hashStartCtx cfg L alg, ?_⟩
    unfold hashStart
    have : hashError (hashStartCtx cfg L alg).status = none := hashError_none.2 h
    rw [this]

example : Psa.sign Config.full (demoPsa fun _ => false) algPS384 ⟨.psa, 5⟩ [9] 64 =
      .ok (List.replicate 64 9) ∧
    Psa.sign Config.full (demoPsa fun _ => false) algPS384 ⟨.psa, 5⟩ [9] 63 = .error .sigFail ∧
    Psa.verify Config.full (demoPsa fun _ => false) algPS384 ⟨.psa, 5⟩ [9] (List.replicate 64 9) = .ok () ∧
    Psa.verify Config.full (demoPsa fun _ => false) algPS384 ⟨.psa, 5⟩ [8] (List.replicate 64 9) =
      .error .sigVerify := by decide +kernel

/-! ## C49 -/

/-- **C49 (intended).** Whenever t_cose is done with a hash, the PSA hash operation is not
active any more, so that no resources of the library are held. -/
def C49_claim : Prop := ∀ (cfg : Config) (L : Lib) (alg : Int) (h : HashCtx L) (us : List UB) (n : Nat),
  hashStart cfg L alg = .ok h →
    Spec.Psa.live false (hashFinishLog L (us.foldl (hashUpdate L) h) n).2 = false

/-- **C49.** The operation is released exactly if the hash was computed: after an error
of an update or of finishing it stays active, since the adapter never calls
`psa_hash_abort`. -/
theorem C49_released_iff_partial (cfg : Config) (L : Lib) (alg : Int) (h : HashCtx L) (us : List UB) (n : Nat)
    (hs : hashStart cfg L alg = .ok h) :
    Spec.Psa.live false (hashFinishLog L (us.foldl (hashUpdate L) h) n).2 = false ↔
      ∃ d, hashFinish L (us.foldl (hashUpdate L) h) n = .ok d := by
  obtain ⟨h0, he⟩ := psaStart_ok hs
  subst he
  have hu := psaFeed_updates L us ⟨(L.hashSetup (hashAlg cfg alg)).2, 0, [.setup 0]⟩ rfl rfl
  have liveFin : ∀ (l : List OpCall) (b : Bool) (st : Int),
      Spec.Psa.live b (l ++ [.finish st]) = (Spec.Psa.live b l && st != success) := by
    intro l
    induction l with
    | nil => intro b st; simp [Spec.Psa.live]
    | cons c l ih => intro b st; cases c <;> exact ih _ _
  unfold hashFinish hashFinishLog
  by_cases hst : (us.foldl (hashUpdate L) ⟨(L.hashSetup (hashAlg cfg alg)).2, 0, [.setup 0]⟩).status ≠ success
  · rw [if_pos hst]
    simp only [hu.1]
    cases hx : hashError (us.foldl (hashUpdate L) ⟨(L.hashSetup (hashAlg cfg alg)).2, 0, [.setup 0]⟩).status with
    | none => exact absurd (hashError_none.1 hx) hst
    | some x => simp
  · rw [if_neg hst]
    simp only [liveFin, hu.1]
    generalize L.hashFinish _ n = r
    obtain ⟨st, b⟩ := r
    simp only []
    cases hx : hashError st with
    | none => have : st = 0 := hashError_none.1 hx; simp [this, success]
    | some x =>
      have : st ≠ success := fun hh => by rw [hashError_none.2 hh] at hx; cases hx
      simp [this]

/-- Hashing that could not be started holds nothing. -/
theorem C49_not_started (cfg : Config) (L : Lib) (alg : Int) (x : Err)
    (hs : hashStart cfg L alg = .error x) :
    Spec.Psa.live false (hashStartCtx cfg L alg).calls = false := by
  unfold hashStart at hs
  cases he : hashError (hashStartCtx cfg L alg).status with
  | none => rw [he] at hs; cases hs
  | some y =>
    have : (L.hashSetup (hashAlg cfg alg)).1 ≠ success := fun hh => by
      have := hashError_none.2 hh
      unfold hashStartCtx at he
      rw [this] at he; cases he
    simp [hashStartCtx, Spec.Psa.live, this]

theorem C49_claim_false : ¬ C49_claim := by
  intro h
  have := h Config.full (demoPsa fun u => u.length == 3) algSHA256 _ [.data [1], .data [1, 2, 3], .data [4]] 32 rfl
  revert this
  decide +kernel

example : Spec.Psa.live false (hashFinishLog (demoPsa fun _ => false)
    ([UB.data [1], .data [1, 2, 3]].foldl (hashUpdate _)
      (hashStartCtx Config.full (demoPsa fun _ => false) algSHA256)) 32).2 = false := by decide +kernel

/-! ## C50 -/

/-- **C50 (intended).** A key made for another library is refused, and keys with
different handles are different keys: the library is asked for the key with the
handle given. -/
def C50_claim : Prop := ∀ (cfg : Config) (L : Lib) (alg : Int) (key : Key) (hash sig : Bytes),
  key.k < 2 ^ 64 → (crypto cfg L).verify alg key none hash sig = .ok () →
    key.lib = .psa ∧ L.verifyHash key.k (Spec.Psa.sigId alg) hash sig = 0

/-- **C50.** For handles below 2^32 the library is asked for that very key. (The
`crypto_lib` mark of the key is not looked at.) -/
theorem C50_handle_partial (cfg : Config) (L : Lib) (alg : Int) (key : Key) (hash sig : Bytes) (n : Nat)
    (hk : key.k < 2 ^ 32) :
    ((crypto cfg L).verify alg key none hash sig = .ok () →
      L.verifyHash key.k (Spec.Psa.sigId alg) hash sig = 0) ∧
    ((crypto cfg L).sign alg key hash n = .ok sig →
      L.signHash key.k (Spec.Psa.sigId alg) hash n = (0, sig)) := by
  have := C34_psa cfg L alg key hash sig n 0
  rw [Nat.mod_eq_of_lt hk] at this
  exact ⟨fun h => ((this.2.1 none).1 h).2, fun h => (this.1.1 h).2⟩

/-- The mark of the library and the upper half of the handle have no influence at all. -/
theorem C50_mark_and_upper_half_ignored (cfg : Config) (L : Lib) (alg : Int) (lib lib' : CryptoLib)
    (k k' : Nat) (h : k % 2 ^ 32 = k' % 2 ^ 32) :
    (crypto cfg L).verify alg ⟨lib, k⟩ = (crypto cfg L).verify alg ⟨lib', k'⟩ ∧
    (crypto cfg L).sign alg ⟨lib, k⟩ = (crypto cfg L).sign alg ⟨lib', k'⟩ ∧
    (crypto cfg L).sigSize alg ⟨lib, k⟩ = (crypto cfg L).sigSize alg ⟨lib', k'⟩ := by
  have e : keyId ⟨lib, k⟩ = keyId ⟨lib', k'⟩ := h
  refine ⟨?_, ?_, ?_⟩
  · funext kid hash sig
    show Psa.verify cfg L alg ⟨lib, k⟩ hash sig = Psa.verify cfg L alg ⟨lib', k'⟩ hash sig
    unfold Psa.verify
    rw [e]
  · funext hash n
    show Psa.sign cfg L alg ⟨lib, k⟩ hash n = Psa.sign cfg L alg ⟨lib', k'⟩ hash n
    unfold Psa.sign
    rw [e]
  · show Psa.sigSize cfg L alg ⟨lib, k⟩ = Psa.sigSize cfg L alg ⟨lib', k'⟩
    unfold Psa.sigSize
    rw [e]

theorem C50_claim_false : ¬ C50_claim := by
  intro h
  have := h Config.full (demoPsa fun _ => false) algES256 ⟨.openssl, 4294967301⟩ [9] (List.replicate 64 9)
    (by decide) (by decide +kernel)
  exact absurd this.1 (by decide)

/-- The library has no key 2^32 + 5, yet a signature is accepted with that handle. -/
example : (demoPsa fun _ => false).verifyHash 4294967301 (.ecdsa .sha256) [9] (List.replicate 64 9) = -136 ∧
    Psa.verify Config.full (demoPsa fun _ => false) algES256 ⟨.psa, 4294967301⟩ [9] (List.replicate 64 9) =
      .ok () := by decide +kernel

/-! ## The adapter meets the contracts of `Spec.Crypto` -/

theorem psa_streamHash (cfg : Config) (L : Lib) (D : HashAlg → Bytes → Bytes)
    (A : L.Op → HashAlg → Bytes → Prop) (hL : Spec.Psa.Digests L D A) :
    StreamHash (crypto cfg L) (fun alg => D (Spec.Psa.hashId cfg alg)) := by
  have : (fun alg => D (Spec.Psa.hashId cfg alg)) = fun alg => D (hashAlg cfg alg) :=
    funext fun a => by rw [hashAlg_eq]
  rw [this]
  refine ⟨fun (h : HashCtx L) alg b => h.status ≠ 0 ∨ A h.op (hashAlg cfg alg) b, ?_, ?_, ?_, ?_⟩
  · intro alg (h : HashCtx L) hh
    obtain ⟨h0, he⟩ := psaStart_ok (cfg := cfg) hh
    subst he
    exact .inr (hL.init _ h0)
  · intro (h : HashCtx L) alg b u hh
    change (hashUpdate L h (.data u)).status ≠ 0 ∨ A (hashUpdate L h (.data u)).op _ (b ++ u)
    unfold hashUpdate
    by_cases hc : h.status ≠ success
    · rw [if_pos hc]; exact .inl hc
    · rw [if_neg hc]
      by_cases hc2 : (L.hashUpdate h.op u).1 = success
      · exact .inr (hL.update _ _ _ _ (hh.resolve_left hc) hc2)
      · exact .inl hc2
  · intro (h : HashCtx L) alg b n hh
    change (hashUpdate L h (.null n)).status ≠ 0 ∨ A (hashUpdate L h (.null n)).op _ b
    unfold hashUpdate
    split <;> exact hh
  · intro (h : HashCtx L) alg b n r hh hf
    change hashFinish L h n = .ok r at hf
    unfold hashFinish hashFinishLog at hf
    by_cases hc : h.status ≠ success
    · rw [if_pos hc] at hf
      cases hx : hashError h.status with
      | none => exact absurd (hashError_none.1 hx) hc
      | some x => simp [hx] at hf
    · rw [if_neg hc] at hf
      simp only [] at hf
      cases hx : hashError (L.hashFinish h.op n).1 with
      | some x => simp [hx] at hf
      | none =>
        rw [hx] at hf
        injection hf with hf
        rw [← hf]
        exact hL.final _ _ _ _ (hh.resolve_left hc) (hashError_none.1 hx)

theorem psa_hashFits (cfg : Config) (L : Lib) (hL : Spec.Psa.Fits L) : HashFits (crypto cfg L) := by
  intro (h : HashCtx L) n r hf
  change hashFinish L h n = .ok r at hf
  unfold hashFinish hashFinishLog at hf
  by_cases hc : h.status ≠ success
  · rw [if_pos hc] at hf
    cases hx : hashError h.status with
    | none => exact absurd (hashError_none.1 hx) hc
    | some x => simp [hx] at hf
  · rw [if_neg hc] at hf
    simp only [] at hf
    cases hx : hashError (L.hashFinish h.op n).1 with
    | some x => simp [hx] at hf
    | none =>
      rw [hx] at hf
      injection hf with hf
      rw [← hf]
      exact hL.hash _ _ (hashError_none.1 hx)

theorem psa_signFits (cfg : Config) (L : Lib) (hL : Spec.Psa.Fits L) : SignFits (crypto cfg L) where
  sign := by
    intro alg key h n s hs
    have := ((C34_psa cfg L alg key h s n 0).1.1 hs).2
    have h2 := hL.sign (key.k % 2 ^ 32) (Spec.Psa.sigId alg) h n (by rw [this]; rfl)
    rw [this] at h2; exact h2
  eddsa := fun key tbs n s hs => by cases hs

theorem psa_sigSizeExact (cfg : Config) (L : Lib) (hL : Spec.Psa.Sizes L) : SigSizeExact (crypto cfg L) where
  sign := by
    intro alg key h n s hs
    obtain ⟨h1, h2⟩ := (C34_psa cfg L alg key h s n 0).1.1 hs
    obtain ⟨h3, h4⟩ := hL (key.k % 2 ^ 32) (Spec.Psa.sigId alg) h n (by rw [h2]; rfl)
    rw [h2] at h4
    refine (C34_psa cfg L alg key h s n _).2.2.1.2 ⟨h1, _, _, ?_, h4⟩
    rw [← show _ = (0 : Int) from h3]
  eddsa := fun key tbs n s hs => by cases hs

theorem psa_signVerify (cfg : Config) (L : Lib) (sk pk : Key)
    (hL : Spec.Psa.Verifies L (sk.k % 2 ^ 32) (pk.k % 2 ^ 32)) : SignVerify (crypto cfg L) sk pk where
  sign := by
    intro alg h n s kid hs
    obtain ⟨h1, h2⟩ := (C34_psa cfg L alg sk h s n 0).1.1 hs
    have h3 := hL (Spec.Psa.sigId alg) h n (by rw [h2]; rfl)
    rw [h2] at h3
    exact ((C34_psa cfg L alg pk h s n 0).2.1 kid).2 ⟨h1, h3⟩
  eddsa := fun tbs n s kid hs => by cases hs

/-! ## The API on top of the adapter -/

/-- **C03 with the PSA adapter.** If the library verifies what it signs, messages made
with one key handle verify with the other. -/
theorem C03_psa (cfg : Config) (P : QParams) (L : Lib) (junk : Junk) (me me' : SignCtx)
    (vm : VerifyCtx) (hf : Spec.Psa.Fits L)
    (hv : Spec.Psa.Verifies L (me.key.k % 2 ^ 32) (vm.key.k % 2 ^ 32))
    (payload : Bytes) (m : Bytes) (msg : UB) (e' : Enc)
    (hP1 : 1 ≤ P.maxTags) (hP4 : P.maxTags ≤ 4) (hct : me.contentTypeUint ≤ 65536)
    (hkc : KidConsistent cfg me)
    (hag : Agrees me vm (sigStructure (protectedHeader me.alg) [] payload).length)
    (h : sign1Sign cfg (crypto cfg L) me (.data payload) (.buf m) = (.ok msg, me', e'))
    (hlen : msg.len ≤ 4294967293) :
    let r := sign1Verify cfg P (crypto cfg L) junk vm msg.bytes true true
    r.res = .ok () ∧ r.ub = false ∧ (∃ b, r.payload = some b ∧ b.ub.bytes = payload) ∧
    ∃ p, r.params = some p ∧ ReturnsHeader cfg me p :=
  C03_round_trip_partial cfg P (crypto cfg L) junk me me' vm payload m msg e'
    (psa_signFits cfg L hf) (psa_hashFits cfg L hf) (psa_signVerify cfg L me.key vm.key hv)
    hP1 hP4 hct hkc hag h hlen

/-- The algorithms t_cose hashes with have digests that fit `maxHashSize`. -/
theorem psa_digestLen (cfg : Config) (alg : Int) :
    Spec.Psa.digestLen (hashAlg cfg alg) ≤ maxHashSize cfg := by
  obtain ⟨d1, d2, d3, d4, d5, d6, d7, d8⟩ := cfg
  by_cases h1 : alg = algSHA256
  · subst h1; revert d1 d2 d3 d4 d5 d6 d7 d8; decide
  by_cases h2 : alg = algSHA384
  · subst h2; revert d1 d2 d3 d4 d5 d6 d7 d8; decide
  by_cases h3 : alg = algSHA512
  · subst h3; revert d1 d2 d3 d4 d5 d6 d7 d8; decide
  simp [hashAlg, h1, h2, h3, Spec.Psa.digestLen]

theorem psa_sizeAssm (cfg : Config) (L : Lib) (D : HashAlg → Bytes → Bytes)
    (A : L.Op → HashAlg → Bytes → Prop) (hL : Spec.Psa.Digests L D A) (hf : Spec.Psa.Fits L) (alg : Int)
    (key : Key) (hs : Spec.Psa.Signs L A (key.k % 2 ^ 32)) : SizeAssm cfg (crypto cfg L) alg key where
  fin := by
    intro ha (h0 : HashCtx L) us _ hst
    rw [← maxHashSize_eq]
    change hashStart cfg L _ = .ok h0 at hst
    have hA : ∀ (us : List UB) (op : L.Op) (b : Bytes), A op (hashAlg cfg ha) b →
        ∃ op' b', psaFeed L op us = some op' ∧ A op' (hashAlg cfg ha) b' := by
      intro us
      induction us with
      | nil => intro op b ha; exact ⟨op, b, rfl, ha⟩
      | cons u us ih =>
        intro op b ha
        cases u with
        | null n => exact ih op b ha
        | data x =>
          have := hs.update op x
          simp only [psaFeed, if_pos (show (L.hashUpdate op x).1 = 0 from this)]
          exact ih _ _ (hL.update _ _ _ _ ha this)
    have h1 := (psaStart_ok hst).1
    obtain ⟨op, b, h2, h3⟩ := hA us _ _ (hL.init _ h1)
    have h4 := hs.final op _ b (maxHashSize cfg) h3 (psa_digestLen cfg _)
    refine ⟨(L.hashFinish op (maxHashSize cfg)).2, (hf.hash _ _ h4).1, ?_⟩
    refine (C34_psa_hash cfg L _ h0 us (maxHashSize cfg) _ hst).2 ⟨by rw [← hashAlg_eq]; exact h1, op, by rw [← hashAlg_eq]; exact h2, ?_⟩
    rw [← show _ = (0 : Int) from h4]
  sign := by
    intro _ d n sz _ hsz hn
    obtain ⟨h1, ty, bits, h2, h3⟩ := (C34_psa cfg L alg key d [] n sz).2.2.1.1 hsz
    have := hs.sign (Spec.Psa.sigId alg) d n (sigId_ne_zero h1) (by rw [h2]; simp only []; omega)
    refine ⟨(L.signHash (key.k % 2 ^ 32) (Spec.Psa.sigId alg) d n).2,
      (C34_psa cfg L alg key d _ n 0).1.2 ⟨h1, ?_⟩⟩
    rw [← show _ = (0 : Int) from this]
  eddsa := by
    intro he t n sz hsz _
    have := ((C34_psa cfg L alg key [] [] n sz).2.2.1.1 hsz).1.2
    exact absurd he this

/-- **C08 with the PSA adapter.** -/
theorem C08_psa (cfg : Config) (L : Lib) (D : HashAlg → Bytes → Bytes)
    (A : L.Op → HashAlg → Bytes → Prop) (hL : Spec.Psa.Digests L D A) (hf : Spec.Psa.Fits L)
    (hz : Spec.Psa.Sizes L) (me : SignCtx) (hs : Spec.Psa.Signs L A (me.key.k % 2 ^ 32))
    (det : Bool) (payload aad : Bytes) (aux0 aux1 : Mem)
    (haux : AuxOk me (Spec.protectedHeader me.alg) aad payload aux0 aux1) (cap : Nat) (r0 : UB)
    (h : (signAadInternal cfg (crypto cfg L) { me with aux := aux0 } det (.data payload) (.data aad)
      (.null cap)).1 = .ok r0) :
    ∃ n, r0 = .null n ∧ ∀ m : Bytes, n ≤ m.length → ∃ b, b.length = n ∧
      (signAadInternal cfg (crypto cfg L) { me with aux := aux1 } det (.data payload) (.data aad)
        (.buf m)).1 = .ok (.data b) := by
  obtain ⟨n, h1, h2⟩ := C08_size_then_sign cfg (crypto cfg L) (psa_signFits cfg L hf)
    (psa_sigSizeExact cfg L hz) me (psa_sizeAssm cfg L D A hL hf me.alg me.key hs) det payload aad aux0 aux1
    haux cap r0 h
  exact ⟨n, h1, fun m hm => (h2 m).1 hm⟩

/-- **C10 with the PSA adapter.** An accepted message (not decode-only, not short-circuit
signed) carries a signature that `psa_verify_hash` accepted, for the configured key,
over the library's digest of the Sig_structure. -/
theorem C10_psa (cfg : Config) (P : QParams) (L : Lib) (junk : Junk) (me : VerifyCtx)
    (msg : Bytes) (aad : UB) (pay : VPayload) (want : Bool) (D : HashAlg → Bytes → Bytes)
    (A : L.Op → HashAlg → Bytes → Prop) (hL : Spec.Psa.Digests L D A) (hP : P.maxTags ≤ 4)
    (hargs : ArgsOk aad pay) (hdec : Spec.Opt.decodeOnly me.flags = false)
    (h : (verifyInternal cfg P (crypto cfg L) junk me msg aad pay want).res = .ok ()) :
    ∃ v, IsView P msg v ∧ ∃ payload, IsPayload pay v payload ∧
      ((cfg.disableShortCircuit = true ∨ v.kid.map (·.bytes) ≠ some scKid) →
        ∃ i a hal, v.alg = some i ∧ Int32Of i a ∧ hashOf a = some hal ∧
          L.verifyHash (me.key.k % 2 ^ 32) (Spec.Psa.sigId a)
            (D (Spec.Psa.hashId cfg hal) (sigStructure v.prot.bytes aad.bytes payload)) v.sig.bytes = 0) := by
  have hdec : hasFlag me.flags optDecodeOnly = false := hdec
  obtain ⟨v, hv, payload, hpl, -, himp⟩ := C10_acceptance cfg P (crypto cfg L) junk me msg aad pay want
    _ (psa_streamHash cfg L D A hL) hP hargs hdec h
  refine ⟨v, hv, payload, hpl, fun hns => ?_⟩
  obtain ⟨i, a, h1, h2, hacc⟩ := himp hns
  rcases hacc with ⟨he, -, hver⟩ | ⟨hne, hal, hh, hver⟩
  · cases hver
  · exact ⟨i, a, hal, h1, h2, hh, (((C34_psa cfg L a me.key _ _ 0 0).2.1 _).1 hver).2⟩

-- the library contracts together
example : Spec.Psa.Digests (demoPsa fun _ => false) psaDigest (fun op a b => op = (a, b)) ∧
    Spec.Psa.Fits (demoPsa fun _ => false) ∧ Spec.Psa.Sizes (demoPsa fun _ => false) ∧
    Spec.Psa.Verifies (demoPsa fun _ => false) 5 5 ∧
    Spec.Psa.Signs (demoPsa fun _ => false) (fun op a b => op = (a, b) ∧ a ≠ .bad) 5 :=
  ⟨demoPsa_digests _, demoPsa_fits _, demoPsa_sizes _, demoPsa_verifies _, demoPsa_signs⟩

end TCose.Props
