import Verif.Spec.AdapterCodes
import Verif.Spec.Codes
import Verif.Props.Adapters

/-!
# C66: the result codes of the OpenSSL and PSA adapters
-/

namespace TCose.Props
open Spec

/-! ## Decision lists -/

theorem settled_nil {α : Type} (r : α) : settled [] r = .ok r := rfl

theorem settled_cons {α : Type} (b : Bool) (x : Err) (l : List (Bool × Err)) (r : α) :
    settled ((b, x) :: l) r = if b = true then .error x else settled l r := by
  unfold settled
  cases b <;> rfl

/-! ## PSA -/

section Psa
open TCose.Psa

theorem signingError_coded {α : Type} (st : Int) (r : α) :
    (match signingError st with | some x => Except.error x | none => .ok r) =
      Spec.Psa.coded Spec.Psa.signTable .sigFail st r := by
  unfold signingError Spec.Psa.coded Spec.Psa.signTable success errInvalidSignature errNotSupported
    errInsufficientMemory errCorruptionDetected
  by_cases h0 : st = 0
  · simp [h0]
  by_cases h1 : st = -149
  · simp [h1]
  by_cases h2 : st = -134
  · simp [h2, List.lookup]
  by_cases h3 : st = -141
  · simp [h3, List.lookup]
  by_cases h4 : st = -151
  · simp [h4, List.lookup]
  have e : ∀ n : Int, st ≠ n → (st == n) = false := fun n h => by simpa using h
  simp [h0, h1, h2, h3, h4, List.lookup, e]

theorem hashError_coded {α : Type} (st : Int) (r : α) :
    (match hashError st with | some x => Except.error x | none => .ok r) =
      Spec.Psa.coded Spec.Psa.hashTableCodes .hashGeneralFail st r := by
  unfold hashError Spec.Psa.coded Spec.Psa.hashTableCodes success errInvalidArgument errNotSupported
    errBufferTooSmall
  by_cases h0 : st = 0
  · simp [h0]
  by_cases h1 : st = -134
  · simp [h1]
  by_cases h2 : st = -135
  · simp [h2, List.lookup]
  by_cases h3 : st = -138
  · simp [h3, List.lookup]
  have e : ∀ n : Int, st ≠ n → (st == n) = false := fun n h => by simpa using h
  simp [h0, h1, h2, h3, List.lookup, e]

/-- **C66 (PSA, keys).** Verifying, signing and asking for the signature size with the
PSA adapter: an algorithm the build does not have is refused as such; otherwise the
status of the one library call decides, by the table. EdDSA is always refused. -/
theorem C66_psa (cfg : Config) (L : Lib) (alg : Int) (key : Key) (kid : Option Bytes)
    (hash sig tbs : Bytes) (n : Nat) :
    (crypto cfg L).verify alg key kid hash sig =
      (if algEnabled cfg alg ∧ alg ≠ -8 then
        Spec.Psa.coded Spec.Psa.signTable .sigFail
          (L.verifyHash (key.k % 2 ^ 32) (Spec.Psa.sigId alg) hash sig) ()
      else .error .unsupportedSigningAlg) ∧
    (crypto cfg L).sign alg key hash n =
      (if algEnabled cfg alg ∧ alg ≠ -8 then
        Spec.Psa.coded Spec.Psa.signTable .sigFail
          (L.signHash (key.k % 2 ^ 32) (Spec.Psa.sigId alg) hash n).1
          (L.signHash (key.k % 2 ^ 32) (Spec.Psa.sigId alg) hash n).2
      else .error .unsupportedSigningAlg) ∧
    (crypto cfg L).sigSize alg key =
      (if algEnabled cfg alg ∧ alg ≠ -8 then
        Spec.Psa.coded Spec.Psa.signTable .sigFail (L.keyAttributes (key.k % 2 ^ 32)).1
          (L.signOutputSize (L.keyAttributes (key.k % 2 ^ 32)).2.1
            (L.keyAttributes (key.k % 2 ^ 32)).2.2 (Spec.Psa.sigId alg))
      else .error .unsupportedSigningAlg) ∧
    (crypto cfg L).verifyEddsa key kid tbs sig = .error .unsupportedSigningAlg ∧
    (crypto cfg L).signEddsa key tbs n = .error .unsupportedSigningAlg := by
  rw [show (2 : Nat) ^ 32 = 4294967296 from rfl]
  by_cases h : algEnabled cfg alg ∧ alg ≠ -8
  · have hu : (sigAlg cfg alg).unsupported = false := (sigAlg_unsupported cfg alg).2 h
    rw [if_pos h, if_pos h, if_pos h, ← sigAlg_eq h]
    refine ⟨?_, ?_, ?_, rfl, rfl⟩
    · show Psa.verify cfg L alg key hash sig = _
      unfold Psa.verify Psa.keyId
      rw [if_neg (by simp [hu]), ← signingError_coded]
      rfl
    · show Psa.sign cfg L alg key hash n = _
      unfold Psa.sign Psa.keyId
      rw [if_neg (by simp [hu]), ← signingError_coded]
      rfl
    · show Psa.sigSize cfg L alg key = _
      unfold Psa.sigSize Psa.keyId
      rw [if_neg (by simp [hu]), ← signingError_coded]
      rfl
  · have hu : (sigAlg cfg alg).unsupported = true := by
      cases hc : (sigAlg cfg alg).unsupported
      · exact absurd ((sigAlg_unsupported cfg alg).1 hc) h
      · rfl
    rw [if_neg h, if_neg h, if_neg h]
    refine ⟨?_, ?_, ?_, rfl, rfl⟩
    · show Psa.verify cfg L alg key hash sig = _
      unfold Psa.verify
      rw [if_pos hu]
    · show Psa.sign cfg L alg key hash n = _
      unfold Psa.sign
      rw [if_pos hu]
    · show Psa.sigSize cfg L alg key = _
      unfold Psa.sigSize
      rw [if_pos hu]

/- A key the library does not have, and one of another algorithm. -/
example :
    (crypto Config.full (demoPsa fun _ => false)).verify (-7) ⟨.psa, 5⟩ none [9] [1] = .error .sigVerify ∧
    (crypto Config.full (demoPsa fun _ => false)).verify (-7) ⟨.psa, 6⟩ none [9] [1] = .error .sigFail ∧
    (crypto Config.full (demoPsa fun _ => false)).sign (-8) ⟨.psa, 5⟩ [9] 64 =
      .error .unsupportedSigningAlg ∧
    (crypto Config.full { demoPsa (fun _ => false) with verifyHash := fun _ _ _ _ => -151 }).verify
      (-7) ⟨.psa, 5⟩ none [9] [1] = .error .tamperingDetected := by decide +kernel

theorem psa_stuck (L : Lib) (us : List UB) : ∀ h : HashCtx L, h.status ≠ 0 →
    us.foldl (hashUpdate L) h = h := by
  induction us with
  | nil => intro h _; rfl
  | cons u us ih =>
    intro h hs
    rw [List.foldl_cons, show hashUpdate L h u = h from by unfold hashUpdate; exact if_pos hs]
    exact ih h hs

theorem psa_updates (L : Lib) (us : List UB) : ∀ h : HashCtx L, h.status = 0 →
    match Spec.Psa.fedAll L h.op (given us) with
    | .ok op => (us.foldl (hashUpdate L) h).status = 0 ∧ (us.foldl (hashUpdate L) h).op = op
    | .error st => (us.foldl (hashUpdate L) h).status = st ∧ st ≠ 0 := by
  induction us with
  | nil => intro h hs; exact ⟨hs, rfl⟩
  | cons u us ih =>
    intro h hs
    rw [List.foldl_cons]
    cases u with
    | null n =>
      have : hashUpdate L h (.null n) = h := by
        unfold hashUpdate; rw [if_neg (by simp [hs, success])]
      rw [this]
      exact ih h hs
    | data b =>
      have e : hashUpdate L h (.data b) = ⟨(L.hashUpdate h.op b).2, (L.hashUpdate h.op b).1,
          h.calls ++ [.update (L.hashUpdate h.op b).1]⟩ := by
        unfold hashUpdate; rw [if_neg (by simp [hs, success])]
      have g : given (UB.data b :: us) = b :: given us := rfl
      rw [e, g]
      unfold Spec.Psa.fedAll
      by_cases hz : (L.hashUpdate h.op b).1 = 0
      · rw [if_pos hz]
        exact ih ⟨(L.hashUpdate h.op b).2, (L.hashUpdate h.op b).1, _⟩ hz
      · rw [if_neg hz, psa_stuck L us _ hz]
        exact ⟨rfl, hz⟩

theorem psa_hash_run (cfg : Config) (L : Lib) (alg : Int) (us : List UB) (n : Nat) :
    (match (crypto cfg L).hashStart alg with
      | Except.error x => Except.error x
      | Except.ok h => (crypto cfg L).hashFinish (us.foldl (crypto cfg L).hashUpdate h) n) =
    Spec.Psa.coded Spec.Psa.hashTableCodes .hashGeneralFail
      (Spec.Psa.hashRun L (Spec.Psa.hashId cfg alg) (given us) n).1
      (Spec.Psa.hashRun L (Spec.Psa.hashId cfg alg) (given us) n).2 := by
  rw [← hashAlg_eq]
  unfold Spec.Psa.hashRun
  have hst : (hashStartCtx cfg L alg).status = (L.hashSetup (hashAlg cfg alg)).1 := rfl
  by_cases h0 : (L.hashSetup (hashAlg cfg alg)).1 = 0
  · rw [if_neg (by simp [h0])]
    have : (crypto cfg L).hashStart alg = .ok (hashStartCtx cfg L alg) := by
      show hashStart cfg L alg = _
      unfold hashStart
      rw [hst, hashError_none.2 h0]
      rfl
    rw [this]
    show hashFinish L (us.foldl (hashUpdate L) (hashStartCtx cfg L alg)) n = _
    have hu := psa_updates L us (hashStartCtx cfg L alg) h0
    rw [show (hashStartCtx cfg L alg).op = (L.hashSetup (hashAlg cfg alg)).2 from rfl] at hu
    unfold hashFinish hashFinishLog
    cases hf : Spec.Psa.fedAll L (L.hashSetup (hashAlg cfg alg)).2 (given us) with
    | ok op =>
      rw [hf] at hu
      simp only [] at hu ⊢
      rw [if_neg (by simp [hu.1, success]), hu.2, ← hashError_coded]
      rfl
    | error st =>
      rw [hf] at hu
      simp only [] at hu ⊢
      rw [if_pos (by simp [hu.1, success, hu.2]), hu.1, ← hashError_coded]
      rfl
  · rw [if_pos h0, ← hashError_coded]
    cases hx : hashError (L.hashSetup (hashAlg cfg alg)).1 with
    | none => exact absurd (hashError_none.1 hx) h0
    | some x =>
      have : (crypto cfg L).hashStart alg = .error x := by
        show hashStart cfg L alg = _
        unfold hashStart
        rw [hst, hx]
        rfl
      rw [this]

end Psa

/-- The strings the hash of the to-be-signed bytes is computed over, one after the
other. -/
theorem tbs_parts {prot aad pay : UB} (hp : prot.len = prot.bytes.length)
    (ha : aad.len = aad.bytes.length) (hw : pay.len = pay.bytes.length) :
    (given (tbsChunks prot aad pay)).flatten = sigStructure prot.bytes aad.bytes pay.bytes := by
  rw [← tbsChunks_bytes hp ha hw]
  generalize tbsChunks prot aad pay = us
  induction us with
  | nil => rfl
  | cons u us ih =>
    cases u with
    | null n => simpa [given, UB.bytes] using ih
    | data b => simpa [given, UB.bytes] using ih

theorem hashId_of_hashFor {cfg : Config} {alg h : Int} (hh : hashFor cfg alg = some h) :
    Spec.Psa.hashId cfg h = Spec.Psa.hashTable h := by
  unfold Spec.Psa.hashId
  rw [if_pos]
  rw [← hh]
  apply List.mem_map.mpr
  refine ⟨alg, ?_, rfl⟩
  unfold hashFor at hh
  split at hh
  · unfold hashOf at hh
    repeat' split at hh
    all_goals first
      | (rename_i h; simp only [List.mem_cons]; omega)
      | cases hh
  · cases hh

/-- **C66 (PSA, hash).** The hash of the to-be-signed bytes is computed over parts that
make up the Sig_structure and depend on nothing else, and the first library call
that fails gives the result code, by the table. -/
theorem C66_psa_hash (prot aad pay : UB) (hp : prot.len = prot.bytes.length)
    (ha : aad.len = aad.bytes.length) (hw : pay.len = pay.bytes.length) :
    ∃ parts : List Bytes, parts.flatten = sigStructure prot.bytes aad.bytes pay.bytes ∧
      ∀ (cfg : Config) (L : Psa.Lib) (alg : Int) (room : Nat),
        createTbsHash cfg (Psa.crypto cfg L) alg prot aad pay room =
          match hashFor cfg alg with
          | none => .error .unsupportedSigningAlg
          | some h => Spec.Psa.coded Spec.Psa.hashTableCodes .hashGeneralFail
              (Spec.Psa.hashRun L (Spec.Psa.hashTable h) parts room).1
              (Spec.Psa.hashRun L (Spec.Psa.hashTable h) parts room).2 := by
  refine ⟨given (tbsChunks prot aad pay), tbs_parts hp ha hw, fun cfg L alg room => ?_⟩
  rw [createTbsHash_eq]
  cases hh : hashFor cfg alg with
  | none => rw [if_pos (hashFor_none.mp hh)]
  | some h =>
    obtain ⟨h1, h2⟩ := hashFor_some hh
    rw [if_neg h2, h1]
    have := psa_hash_run cfg L h (tbsChunks prot aad pay) room
    rw [hashId_of_hashFor hh] at this
    simp only []
    rw [← this]
    cases (Psa.crypto cfg L).hashStart h <;> rfl

/- A library that fails on one of the strings, one without the hash, too small a
buffer, and one that works. -/
example :
    createTbsHash Config.full (Psa.crypto Config.full (Psa.demoPsa fun b => b = [1, 2])) (-7) (.data [0])
      .nil (.data [1, 2]) 32 = .error .hashGeneralFail ∧
    createTbsHash Config.full (Psa.crypto Config.full { Psa.demoPsa (fun _ => false) with
      hashSetup := fun a => (-135, (a, [])) }) (-7) (.data [0]) .nil (.data [1, 2]) 32 =
        .error .unsupportedHash ∧
    createTbsHash Config.full (Psa.crypto Config.full (Psa.demoPsa fun _ => false)) (-7) (.data [0])
      .nil (.data [1, 2]) 31 = .error .hashBufferSize ∧
    (createTbsHash Config.full (Psa.crypto Config.full (Psa.demoPsa fun _ => false)) (-7) (.data [0])
      .nil (.data [1, 2]) 32).isOk := by decide +kernel

/-! ## OpenSSL -/

section Ossl
open TCose.Ossl

theorem keyConvert_settled (key : Key) : keyConvert key = settled (Spec.Ossl.keyFaults key) key.k := by
  unfold keyConvert Spec.Ossl.keyFaults
  simp only [settled_cons, settled_nil]
  by_cases h1 : key.lib = .openssl
  · by_cases h2 : key.k = 0 <;> simp [h1, h2]
  · simp [h1]

/-- A list of faults read from the front: the head decides or the rest does. -/
theorem settled_append {α : Type} (l l' : List (Bool × Err)) (r : α) :
    settled (l ++ l') r = match settled l () with
      | .error x => .error x
      | .ok () => settled l' r := by
  induction l with
  | nil => rfl
  | cons f l ih =>
    obtain ⟨b, x⟩ := f
    rw [List.cons_append, settled_cons, settled_cons, ih]
    cases b <;> rfl

theorem configure_ecdsa {cfg : Config} {L : Lib} {alg : Int} (h : IsEcdsa cfg alg) :
    configure cfg L alg = .ok .plain := by
  unfold configure
  rw [if_pos ((ecdsa_iff cfg alg).mpr h)]

theorem configure_pss {cfg : Config} {L : Lib} {alg h : Int} (ha : IsPss cfg alg)
    (hh : hashOf alg = some h) :
    configure cfg L alg = settled (Spec.Ossl.pssFaults L) (.pss h h true) := by
  have he : ¬ algIsEcdsa cfg alg = true := fun hc => ecdsa_not_pss ha ((ecdsa_iff cfg alg).mp hc)
  unfold configure Spec.Ossl.pssFaults
  rw [if_neg he, if_pos ((pss_iff cfg alg).mpr ha)]
  have hm : (if alg = algPS256 then some algSHA256 else if alg = algPS384 then some algSHA384
      else if alg = algPS512 then some algSHA512 else none) = some h := by
    rw [← hh]
    rcases ha.1 with e | e | e <;> subst e <;> rfl
  simp only [hm, settled_cons, settled_nil, decide_eq_true_eq]

theorem verifyConv_der {cfg : Config} {L : Lib} {alg : Int} {k r s : Nat} (ha : IsEcdsa cfg alg)
    (hr : r < 256 ^ Spec.Ossl.keyOctets L k) (hs : s < 256 ^ Spec.Ossl.keyOctets L k) :
    (verifyConv cfg L alg k (coseSig (Spec.Ossl.keyOctets L k) r s)).1 =
      settled (Spec.Ossl.derFaults cfg L ((L.i2d r s).getD [])) ((L.i2d r s).getD []) := by
  unfold verifyConv Spec.Ossl.derFaults
  rw [if_pos ((ecdsa_iff cfg alg).mpr ha), derBufSize_eq]
  obtain ⟨h3, h4⟩ := coseSig_halves hr hs
  unfold coseToDer
  simp only [keySize_eq, h3, h4]
  rw [if_neg (by simp only [coseSig, List.length_append, netOrder_length]; omega)]
  simp only [settled_cons, settled_nil]
  cases L.bnR
  · rfl
  cases L.bnS
  · rfl
  cases L.sigNew
  · rfl
  simp only [Bool.true_eq_false, if_false, Bool.not_true, Bool.false_eq_true]
  by_cases h0 : L.set0 = 1
  · simp only [h0, ne_eq, not_true_eq_false, if_false, decide_false, Bool.false_eq_true]
    cases hi : L.i2d r s with
    | none => rfl
    | some der =>
      simp only [Option.getD_some, decide_eq_true_eq]
      by_cases hd : der = []
      · simp [hd]
      · by_cases hl : Spec.Ossl.derRoom cfg < der.length
        · simp [hl]
        · simp [hl, hd]
  · simp [h0]

theorem settled_key {α : Type} (key : Key) (l : List (Bool × Err)) (r : α) :
    settled (Spec.Ossl.keyFaults key ++ l) r =
      match keyConvert key with
      | .error x => .error x
      | .ok _ => settled l r := by
  unfold keyConvert Spec.Ossl.keyFaults
  simp only [List.cons_append, List.nil_append, settled_cons]
  by_cases h1 : key.lib = .openssl
  · by_cases h2 : key.k = 0 <;> simp [h1, h2]
  · simp [h1]

/-- **C66 (OpenSSL, ECDSA verification).** For a signature of the right length, holding
`r` and `s`, the first of these decides: the key is of another library or empty; the
conversion to DER fails; no context; no set-up; the library says it is not valid (only
then, SIG_VERIFY); it cannot tell. -/
theorem C66_openssl_verify_ecdsa (cfg : Config) (L : Lib) (alg : Int) (key : Key)
    (kid : Option Bytes) (hash : Bytes) (r s : Nat) (ha : IsEcdsa cfg alg)
    (hr : r < 256 ^ Spec.Ossl.keyOctets L key.k) (hs : s < 256 ^ Spec.Ossl.keyOctets L key.k) :
    (crypto cfg L).verify alg key kid hash (coseSig (Spec.Ossl.keyOctets L key.k) r s) =
      settled (Spec.Ossl.keyFaults key ++ Spec.Ossl.derFaults cfg L ((L.i2d r s).getD []) ++
        [(!L.ctxNew, .insufficientMemory), (L.verifyInit ≠ 1, .sigFail)] ++
        Spec.Ossl.verdictFaults (L.pkeyVerify key.k .plain ((L.i2d r s).getD []) hash)) () := by
  show (verify cfg L alg key hash _).1 = _
  rw [List.append_assoc, List.append_assoc, settled_key, settled_append]
  unfold verify
  rw [if_neg (by simp [(ecdsa_iff cfg alg).mpr ha])]
  cases hk : keyConvert key with
  | error x => rfl
  | ok k =>
    have hkk : k = key.k := (keyConvert_ok hk).2.2
    subst hkk
    simp only []
    have hv := verifyConv_der (k := key.k) ha hr hs
    generalize (L.i2d r s).getD [] = der at hv ⊢
    generalize coseSig (Spec.Ossl.keyOctets L key.k) r s = sig at hv ⊢
    rcases hc : verifyConv cfg L alg key.k sig with ⟨res, log⟩
    rw [hc] at hv
    simp only [] at hv
    subst hv
    unfold settled
    cases hd : (Spec.Ossl.derFaults cfg L der).find? (·.1) with
    | some f => rfl
    | none =>
      simp only []
      cases L.ctxNew
      · rfl
      by_cases hi : L.verifyInit = 1
      · simp only [hi, configure_ecdsa ha]
        by_cases h0 : L.pkeyVerify key.k .plain der hash = 0
        · simp [h0, Spec.Ossl.verdictFaults]
        · by_cases h1 : L.pkeyVerify key.k .plain der hash = 1
          · simp [h1, Spec.Ossl.verdictFaults]
          · simp [h0, h1, Spec.Ossl.verdictFaults]
      · simp [hi]

/- A key of another library, a set-up that fails, a signature that is not valid, and a
library that cannot tell. -/
example : IsEcdsa Config.full (-7) ∧ (5 : Nat) < 256 ^ Spec.Ossl.keyOctets (demoLib 256) 1 ∧
    (crypto Config.full (demoLib 256)).verify (-7) ⟨.psa, 1⟩ none [9] (coseSig 32 5 6) =
      .error .incorrectKeyForLib ∧
    (crypto Config.full { demoLib 256 with verifyInit := 0 }).verify (-7) ⟨.openssl, 1⟩ none [9]
      (coseSig 32 5 6) = .error .sigFail ∧
    (crypto Config.full (demoLib 256)).verify (-7) ⟨.openssl, 1⟩ none [9] (coseSig 32 5 6) =
      .error .sigVerify ∧
    (crypto Config.full { demoLib 256 with pkeyVerify := fun _ _ _ _ => -1 }).verify (-7)
      ⟨.openssl, 1⟩ none [9] (coseSig 32 5 6) = .error .sigFail := by decide +kernel

/-- **C66 (OpenSSL, ECDSA signature of another length).** After the key was found to be
good, it is not valid. -/
theorem C66_openssl_length (cfg : Config) (L : Lib) (alg : Int) (key : Key)
    (kid : Option Bytes) (hash sig : Bytes) (ha : IsEcdsa cfg alg)
    (hl : sig.length ≠ 2 * Spec.Ossl.keyOctets L key.k) :
    (crypto cfg L).verify alg key kid hash sig =
      settled (Spec.Ossl.keyFaults key ++ [(true, .sigVerify)]) () := by
  show (verify cfg L alg key hash _).1 = _
  rw [settled_key]
  unfold verify
  rw [if_neg (by simp [(ecdsa_iff cfg alg).mpr ha])]
  cases hk : keyConvert key with
  | error x => rfl
  | ok k =>
    have hkk : k = key.k := (keyConvert_ok hk).2.2
    subst hkk
    simp only []
    unfold verifyConv
    rw [if_pos ((ecdsa_iff cfg alg).mpr ha), C37_length_refused L key.k sig _ hl]
    rfl

example : [1, 2, 3].length ≠ 2 * Spec.Ossl.keyOctets (demoLib 256) 1 ∧
    (crypto Config.full (demoLib 256)).verify (-7) ⟨.openssl, 1⟩ none [9] [1, 2, 3] = .error .sigVerify ∧
    (crypto Config.full (demoLib 256)).verify (-7) ⟨.openssl, 0⟩ none [9] [1, 2, 3] = .error .emptyKey := by
  decide +kernel

/-- **C66 (OpenSSL, RSASSA-PSS verification).** -/
theorem C66_openssl_verify_pss (cfg : Config) (L : Lib) (alg h : Int) (key : Key)
    (kid : Option Bytes) (hash sig : Bytes) (ha : IsPss cfg alg) (hh : hashOf alg = some h) :
    (crypto cfg L).verify alg key kid hash sig =
      settled (Spec.Ossl.keyFaults key ++
        [(!L.ctxNew, .insufficientMemory), (L.verifyInit ≠ 1, .sigFail)] ++ Spec.Ossl.pssFaults L ++
        Spec.Ossl.verdictFaults (L.pkeyVerify key.k (.pss h h true) sig hash)) () := by
  show (verify cfg L alg key hash _).1 = _
  rw [List.append_assoc, List.append_assoc, settled_key]
  have he : algIsEcdsa cfg alg = false := by
    cases hc : algIsEcdsa cfg alg
    · rfl
    · exact absurd ((ecdsa_iff cfg alg).mp hc) (ecdsa_not_pss ha)
  have hp := (pss_iff cfg alg).mpr ha
  unfold verify verifyConv
  rw [if_neg (by simp [hp])]
  cases hk : keyConvert key with
  | error x => rfl
  | ok k =>
    have hkk : k = key.k := (keyConvert_ok hk).2.2
    subst hkk
    simp only [he, hp, Bool.false_eq_true, if_false, if_true, configure_pss ha hh]
    rw [List.cons_append, List.cons_append, List.nil_append, settled_cons, settled_cons, settled_append]
    cases L.ctxNew
    · rfl
    by_cases hi : L.verifyInit = 1
    · simp only [hi]
      unfold settled
      cases hd : (Spec.Ossl.pssFaults L).find? (·.1) with
      | some f => simp [hd]
      | none =>
        by_cases h0 : L.pkeyVerify key.k (.pss h h true) sig hash = 0
        · simp [h0, Spec.Ossl.verdictFaults, hd]
        · by_cases h1 : L.pkeyVerify key.k (.pss h h true) sig hash = 1
          · simp [h1, Spec.Ossl.verdictFaults, hd]
          · simp [h0, h1, Spec.Ossl.verdictFaults, hd]
    · simp [hi]

example : IsPss Config.full (-37) ∧ hashOf (-37) = some (-16) ∧
    (crypto Config.full { demoLib 256 with setSalt := 0 }).verify (-37) ⟨.openssl, 1⟩ none [9] [1] =
      .error .sigFail ∧
    (crypto Config.full (demoLib 256)).verify (-37) ⟨.openssl, 1⟩ none [9] [1] = .error .sigVerify ∧
    (crypto Config.full (demoLib 256)).verify (-37) ⟨.openssl, 1⟩ none [9] (List.replicate 64 9) = .ok () := by
  decide +kernel

/-- **C66 (OpenSSL, other algorithms).** -/
theorem C66_openssl_unsupported (cfg : Config) (L : Lib) (alg : Int) (key : Key)
    (kid : Option Bytes) (hash sig : Bytes) (n : Nat) (h1 : ¬ IsEcdsa cfg alg) (h2 : ¬ IsPss cfg alg) :
    (crypto cfg L).verify alg key kid hash sig = .error .unsupportedSigningAlg ∧
    (crypto cfg L).sign alg key hash n = .error .unsupportedSigningAlg := by
  have e1 : algIsEcdsa cfg alg = false := by
    cases hc : algIsEcdsa cfg alg
    · rfl
    · exact absurd ((ecdsa_iff cfg alg).mp hc) h1
  have e2 : algIsPss cfg alg = false := by
    cases hc : algIsPss cfg alg
    · rfl
    · exact absurd ((pss_iff cfg alg).mp hc) h2
  constructor
  · show (verify cfg L alg key hash _).1 = _
    unfold verify
    rw [if_pos (by simp [e1, e2])]
  · show (sign cfg L alg key hash _).1 = _
    unfold sign
    rw [if_pos (by simp [e1, e2])]

example : ¬ IsEcdsa Config.full (-8) ∧ ¬ IsPss Config.full (-8) ∧
    ¬ IsEcdsa { Config.full with disableES384 := true } (-35) := by decide +kernel

/-- **C66 (OpenSSL, ECDSA signing).** With `r` and `s` what the library signed with (in
range, if it did) and room for them. -/
theorem C66_openssl_sign_ecdsa (cfg : Config) (L : Lib) (alg : Int) (key : Key)
    (hash : Bytes) (n r s : Nat) (ha : IsEcdsa cfg alg)
    (hrs : ∀ r' s', L.d2i (L.pkeySign key.k .plain hash (Spec.Ossl.derRoom cfg)).2 = some (r', s') →
      r' = r ∧ s' = s ∧ r < 256 ^ Spec.Ossl.keyOctets L key.k ∧ s < 256 ^ Spec.Ossl.keyOctets L key.k)
    (hn : 2 * Spec.Ossl.keyOctets L key.k ≤ n) :
    (crypto cfg L).sign alg key hash n =
      settled (Spec.Ossl.keyFaults key ++
        [(!L.ctxNew, .insufficientMemory), (L.signInit ≠ 1, .sigFail),
         ((L.pkeySign key.k .plain hash (Spec.Ossl.derRoom cfg)).1 ≠ 1, .sigFail),
         ((L.d2i (L.pkeySign key.k .plain hash (Spec.Ossl.derRoom cfg)).2).isNone, .sigFail)])
        (coseSig (Spec.Ossl.keyOctets L key.k) r s) := by
  show (sign cfg L alg key hash _).1 = _
  rw [settled_key]
  have he := (ecdsa_iff cfg alg).mpr ha
  unfold sign
  rw [if_neg (by simp [he])]
  cases hk : keyConvert key with
  | error x => rfl
  | ok k =>
    have hkk : k = key.k := (keyConvert_ok hk).2.2
    subst hkk
    simp only [he, if_true, configure_ecdsa ha, derBufSize_eq]
    simp only [settled_cons, settled_nil]
    cases L.ctxNew
    · rfl
    by_cases hi : L.signInit = 1
    · simp only [hi]
      by_cases h1 : (L.pkeySign key.k .plain hash (Spec.Ossl.derRoom cfg)).1 = 1
      · simp only [h1]
        cases hd : L.d2i (L.pkeySign key.k .plain hash (Spec.Ossl.derRoom cfg)).2 with
        | none => simp [derToCose, hd]
        | some p =>
          obtain ⟨r', s'⟩ := p
          obtain ⟨e1, e2, hr, hs⟩ := hrs r' s' hd
          subst e1 e2
          have := derToCose_spec (n := n) hd hr hs
          rw [if_pos hn] at this
          rcases hx : derToCose L key.k (L.pkeySign key.k .plain hash (Spec.Ossl.derRoom cfg)).2 n with ⟨c, l⟩
          rw [hx] at this
          simp only [] at this
          subst this
          simp
      · simp [h1]
    · simp [hi]

/- The first number of this signature begins with zero octets. -/
example : (∀ r' s', (demoLib 256).d2i ((demoLib 256).pkeySign 1 .plain [9, 9]
      (Spec.Ossl.derRoom Config.full)).2 = some (r', s') →
      r' = 2313 ∧ s' = 2314 ∧ 2313 < 256 ^ Spec.Ossl.keyOctets (demoLib 256) 1 ∧
        2314 < 256 ^ Spec.Ossl.keyOctets (demoLib 256) 1) ∧
    2 * Spec.Ossl.keyOctets (demoLib 256) 1 ≤ 64 ∧
    (crypto Config.full (demoLib 256)).sign (-7) ⟨.openssl, 1⟩ [9, 9] 64 = .ok (coseSig 32 2313 2314) ∧
    (crypto Config.full { demoLib 256 with ctxNew := false }).sign (-7) ⟨.openssl, 1⟩ [9, 9] 64 =
      .error .insufficientMemory := by
  refine ⟨?_, by decide +kernel, by decide +kernel, by decide +kernel⟩
  have : (demoLib 256).d2i ((demoLib 256).pkeySign 1 .plain [9, 9]
      (Spec.Ossl.derRoom Config.full)).2 = some (2313, 2314) := by decide +kernel
  rw [this]
  intro r' s' h
  cases h
  decide +kernel

/-- **C66 (OpenSSL, RSASSA-PSS signing).** -/
theorem C66_openssl_sign_pss (cfg : Config) (L : Lib) (alg h : Int) (key : Key)
    (hash : Bytes) (n : Nat) (ha : IsPss cfg alg) (hh : hashOf alg = some h) :
    (crypto cfg L).sign alg key hash n =
      settled (Spec.Ossl.keyFaults key ++
        [(!L.ctxNew, .insufficientMemory), (L.signInit ≠ 1, .sigFail)] ++ Spec.Ossl.pssFaults L ++
        [(decide ((L.pkeySign key.k (.pss h h true) hash n).1 ≠ 1), .sigFail)])
        (L.pkeySign key.k (.pss h h true) hash n).2 := by
  show (sign cfg L alg key hash _).1 = _
  rw [List.append_assoc, List.append_assoc, settled_key]
  have he : algIsEcdsa cfg alg = false := by
    cases hc : algIsEcdsa cfg alg
    · rfl
    · exact absurd ((ecdsa_iff cfg alg).mp hc) (ecdsa_not_pss ha)
  have hp := (pss_iff cfg alg).mpr ha
  unfold sign
  rw [if_neg (by simp [hp])]
  cases hk : keyConvert key with
  | error x => rfl
  | ok k =>
    have hkk : k = key.k := (keyConvert_ok hk).2.2
    subst hkk
    simp only [he, hp, Bool.false_eq_true, if_false, if_true, configure_pss ha hh]
    rw [settled_append, settled_append (Spec.Ossl.pssFaults L)]
    simp only [settled_cons, settled_nil]
    cases L.ctxNew
    · rfl
    by_cases hi : L.signInit = 1
    · simp only [hi]
      unfold settled
      cases hd : (Spec.Ossl.pssFaults L).find? (·.1) with
      | some f => simp
      | none =>
        by_cases h1 : (L.pkeySign key.k (.pss h h true) hash n).1 = 1
        · simp [h1, hd]
        · simp [h1, hd]
    · simp [hi]

example :
    (crypto Config.full (demoLib 256)).sign (-37) ⟨.openssl, 1⟩ [9] 64 = .ok (List.replicate 64 9) ∧
    (crypto Config.full (demoLib 256)).sign (-37) ⟨.openssl, 1⟩ [9] 63 = .error .sigFail := by
  decide +kernel

/-- **C66 (OpenSSL, EdDSA).** -/
theorem C66_openssl_eddsa (cfg : Config) (L : Lib) (key : Key) (kid : Option Bytes)
    (tbs sig : Bytes) (n : Nat) :
    (crypto cfg L).verifyEddsa key kid tbs sig =
      settled (Spec.Ossl.keyFaults key ++ [(!L.mdCtxNew, .insufficientMemory), (L.dvInit ≠ 1, .sigFail)] ++
        Spec.Ossl.verdictFaults (L.digestVerify key.k sig tbs)) () ∧
    (crypto cfg L).signEddsa key tbs n =
      settled (Spec.Ossl.keyFaults key ++ [(!L.mdCtxNew, .insufficientMemory), (L.dsInit ≠ 1, .sigFail),
        ((L.digestSign key.k tbs n).1 ≠ 1, .sigFail)]) (L.digestSign key.k tbs n).2 := by
  constructor
  · show (Ossl.verifyEddsa L key tbs sig).1 = _
    rw [List.append_assoc, settled_key]
    unfold Ossl.verifyEddsa Spec.Ossl.verdictFaults
    cases hk : keyConvert key with
    | error x => rfl
    | ok k =>
      have hkk : k = key.k := (keyConvert_ok hk).2.2
      subst hkk
      simp only [List.cons_append, List.nil_append, settled_cons, settled_nil]
      cases L.mdCtxNew
      · rfl
      by_cases hi : L.dvInit = 1
      · by_cases h0 : L.digestVerify key.k sig tbs = 0
        · simp [h0, hi]
        · by_cases h1 : L.digestVerify key.k sig tbs = 1
          · simp [h1, hi]
          · simp [h0, h1, hi]
      · simp [hi]
  · show (Ossl.signEddsa L key tbs n).1 = _
    rw [settled_key]
    unfold Ossl.signEddsa
    cases hk : keyConvert key with
    | error x => rfl
    | ok k =>
      have hkk : k = key.k := (keyConvert_ok hk).2.2
      subst hkk
      simp only [settled_cons, settled_nil]
      cases L.mdCtxNew
      · rfl
      by_cases hi : L.dsInit = 1
      · by_cases h1 : (L.digestSign key.k tbs n).1 = 1
        · simp [h1, hi]
        · simp [h1, hi]
      · simp [hi]

example :
    (crypto Config.full (demoLib 256)).verifyEddsa ⟨.openssl, 1⟩ none [1, 2] [7] = .error .sigVerify ∧
    (crypto Config.full { demoLib 256 with dvInit := 0 }).verifyEddsa ⟨.openssl, 1⟩ none [1, 2] [7] =
      .error .sigFail ∧
    (crypto Config.full (demoLib 256)).signEddsa ⟨.openssl, 1⟩ [1, 2] 64 = .ok (List.replicate 64 4) := by
  decide +kernel

/-- **C66 (OpenSSL, signature size).** -/
theorem C66_openssl_size (cfg : Config) (L : Lib) (alg : Int) (key : Key) :
    (crypto cfg L).sigSize alg key =
      settled (Spec.Ossl.keyFaults key ++
        [(decide (¬ (IsEcdsa cfg alg ∨ IsPss cfg alg ∨ alg = -8)), .unsupportedSigningAlg)])
        (if IsEcdsa cfg alg then 2 * Spec.Ossl.keyOctets L key.k else L.size key.k) := by
  show (sigSize cfg L alg key).1 = _
  rw [settled_key]
  unfold sigSize
  cases hk : keyConvert key with
  | error x => rfl
  | ok k =>
    have hkk : k = key.k := (keyConvert_ok hk).2.2
    subst hkk
    simp only [settled_cons, settled_nil, keySize_eq]
    by_cases h1 : IsEcdsa cfg alg
    · simp [h1, (ecdsa_iff cfg alg).mpr h1, Nat.mul_comm]
    · have e1 : algIsEcdsa cfg alg = false := by
        cases hc : algIsEcdsa cfg alg
        · rfl
        · exact absurd ((ecdsa_iff cfg alg).mp hc) h1
      by_cases h2 : IsPss cfg alg
      · simp [h1, h2, e1, (pss_iff cfg alg).mpr h2]
      · have e2 : algIsPss cfg alg = false := by
          cases hc : algIsPss cfg alg
          · rfl
          · exact absurd ((pss_iff cfg alg).mp hc) h2
        by_cases h3 : alg = -8
        · subst h3; simp [h1, h2, e1, e2, algEDDSA]
        · simp [h1, h2, e1, e2, h3, algEDDSA]

example :
    (crypto Config.full (demoLib 521)).sigSize (-36) ⟨.openssl, 1⟩ = .ok 132 ∧
    (crypto Config.full (demoLib 521)).sigSize (-5) ⟨.openssl, 1⟩ = .error .unsupportedSigningAlg ∧
    (crypto Config.full (demoLib 521)).sigSize (-5) ⟨.openssl, 0⟩ = .error .emptyKey := by
  decide +kernel

theorem feed_given (L : Lib) (us : List UB) : ∀ md : L.Md,
    feed L md us = Spec.Ossl.fedAll L md (given us) := by
  induction us with
  | nil => intro md; rfl
  | cons u us ih =>
    intro md
    cases u with
    | null n => exact ih md
    | data b =>
      show (if _ then _ else _) = _
      rw [show given (UB.data b :: us) = b :: given us from rfl]
      unfold Spec.Ossl.fedAll
      by_cases h : (L.digestUpdate md b).1 = 0
      · simp [h]
      · simp only [h, if_false]
        exact ih _

theorem ossl_hash_run (cfg : Config) (L : Lib) (sa alg : Int) (us : List UB) (n : Nat)
    (ha : hashFor cfg sa = some alg)
    (hlen : ∀ md, Spec.Ossl.fedAll L (L.digestInit alg).2 (given us) = some md →
      (L.digestFinal md).2.length ≤ n) :
    (match (crypto cfg L).hashStart alg with
      | Except.error x => Except.error x
      | Except.ok h => (crypto cfg L).hashFinish (us.foldl (crypto cfg L).hashUpdate h) n) =
    Spec.Ossl.hashRun L alg (given us) := by
  have hk : alg = algSHA256 ∨
      ((cfg.disableES384 = false ∨ cfg.disablePS384 = false) ∧ alg = algSHA384) ∨
      ((cfg.disableES512 = false ∨ cfg.disablePS512 = false) ∧ alg = algSHA512) := by
    unfold hashFor at ha
    split at ha
    · rename_i he
      unfold hashOf at ha
      simp only [algSHA256, algSHA384, algSHA512]
      rcases he with h | ⟨h, h'⟩ | ⟨h, h'⟩ | ⟨h, h'⟩ | ⟨h, h'⟩ | ⟨h, h'⟩ | ⟨h, h'⟩ <;> subst h <;>
        simp at ha <;> subst ha <;> first | (simp; done) | simp [h']
    · cases ha
  have hs : (crypto cfg L).hashStart alg =
      (if L.digestByNid alg = false then .error .unsupportedHash
       else if L.mdCtxNew = false then .error .insufficientMemory
       else if (L.digestInit alg).1 = 0 then .error .hashGeneralFail
       else .ok (⟨(L.digestInit alg).2, 1, alg⟩ : HashCtx L)) := by
    show (Ossl.hashStart cfg L alg).1 = _
    unfold Ossl.hashStart
    rw [if_pos hk]
    cases L.digestByNid alg
    · rfl
    cases L.mdCtxNew
    · rfl
    by_cases h : (L.digestInit alg).1 = 0 <;> simp [h] <;> rfl
  rw [hs]
  unfold Spec.Ossl.hashRun
  have hu := updates_feed L us ⟨(L.digestInit alg).2, 1, alg⟩ (show (1 : Int) ≠ 0 by decide)
  rw [show (⟨(L.digestInit alg).2, 1, alg⟩ : HashCtx L).md = (L.digestInit alg).2 from rfl, feed_given] at hu
  cases L.digestByNid alg
  · cases Spec.Ossl.fedAll L (L.digestInit alg).2 (given us) <;> rfl
  cases L.mdCtxNew
  · cases Spec.Ossl.fedAll L (L.digestInit alg).2 (given us) <;> rfl
  simp only [Bool.true_eq_false, if_false, Bool.not_true, settled_cons, settled_nil, Bool.false_eq_true,
    decide_eq_true_eq]
  by_cases hi : (L.digestInit alg).1 = 0
  · simp only [hi, if_true]
    cases Spec.Ossl.fedAll L (L.digestInit alg).2 (given us) <;> rfl
  simp only [hi, if_false]
  show (Ossl.hashFinish L (us.foldl (Ossl.hashUpdate L) ⟨(L.digestInit alg).2, 1, alg⟩) n).1 = _
  unfold Ossl.hashFinish
  cases hf : Spec.Ossl.fedAll L (L.digestInit alg).2 (given us) with
  | none =>
    rw [hf] at hu
    simp only [] at hu
    rw [if_pos hu]
    rfl
  | some md =>
    rw [hf] at hu
    simp only [] at hu
    rw [if_neg hu.1, hu.2]
    have := hlen md hf
    simp only []
    rw [if_neg (by omega)]
    by_cases h0 : (L.digestFinal md).1 = 0
    · simp [h0]
    · simp [h0]

end Ossl

/-- **C66 (OpenSSL, hash).** The same for OpenSSL, if no digest is longer than the
room for it. -/
theorem C66_openssl_hash (prot aad pay : UB) (hp : prot.len = prot.bytes.length)
    (ha : aad.len = aad.bytes.length) (hw : pay.len = pay.bytes.length) :
    ∃ parts : List Bytes, parts.flatten = sigStructure prot.bytes aad.bytes pay.bytes ∧
      ∀ (cfg : Config) (L : Ossl.Lib) (alg : Int) (room : Nat),
        (∀ md, (L.digestFinal md).2.length ≤ room) →
        createTbsHash cfg (Ossl.crypto cfg L) alg prot aad pay room =
          match hashFor cfg alg with
          | none => .error .unsupportedSigningAlg
          | some h => Spec.Ossl.hashRun L h parts := by
  refine ⟨given (tbsChunks prot aad pay), tbs_parts hp ha hw, fun cfg L alg room hr => ?_⟩
  rw [createTbsHash_eq]
  cases hh : hashFor cfg alg with
  | none => rw [if_pos (hashFor_none.mp hh)]
  | some h =>
    obtain ⟨h1, h2⟩ := hashFor_some hh
    rw [if_neg h2, h1]
    have := ossl_hash_run cfg L alg h (tbsChunks prot aad pay) room hh (fun md _ => hr md)
    simp only []
    rw [← this]
    cases (Ossl.crypto cfg L).hashStart h <;> rfl

/- Such a library, one that cannot make a context, and one whose final call fails. -/
example : (∀ md, ((Ossl.demoLib 256).digestFinal md).2.length ≤ 64) ∧
    (createTbsHash Config.full (Ossl.crypto Config.full (Ossl.demoLib 256)) (-7) (.data [0])
      .nil (.data [1, 2]) 64).isOk ∧
    createTbsHash Config.full (Ossl.crypto Config.full { Ossl.demoLib 256 with mdCtxNew := false }) (-7)
      (.data [0]) .nil (.data [1, 2]) 64 = .error .insufficientMemory ∧
    createTbsHash Config.full (Ossl.crypto Config.full { Ossl.demoLib 256 with
      digestFinal := fun _ => (0, []) }) (-7) (.data [0]) .nil (.data [1, 2]) 64 =
        .error .hashGeneralFail := by
  refine ⟨?_, by decide +kernel, by decide +kernel, by decide +kernel⟩
  intro md
  simp only [Ossl.demoLib, Ossl.demoDigest, List.length_replicate]
  unfold Spec.Ossl.digestLen
  repeat' split
  all_goals omega

end TCose.Props
