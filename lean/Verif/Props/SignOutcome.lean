import Verif.Props.SignSafety
import Verif.Props.AdapterCodes
import Verif.Props.ShortCircuit
import Verif.Lemmas.SignAux
import Verif.Lemmas.Expected

/-!
# C67: the outcome of every signing call

The counterpart of C65 for the one-call signing functions: a decision procedure
that says for every context, payload, external data and buffer how the call ends,
with the octets of the message or the error code.
-/

namespace TCose.Props
open TCose Spec

variable (cfg : Config) (C : Crypto) (D : Int → Bytes → Bytes) (me : SignCtx) (det : Bool)
  (payload aad : Bytes)

/-- The message with signature `s`. -/
def finished (s : Bytes) : Bytes :=
  (coseSign1 (!Spec.Opt.omitTag me.flags) me.alg (specKid me) (specCt cfg me)
    (if det then none else some payload) s).enc

/-- Octets in the buffer when the signature is about to be made: everything but the
head of the array, which is put in front at the end, and the signature (here the
empty one, of one octet). -/
def begun : Nat := (finished cfg me det payload []).length - 2

/-- What is to be signed. -/
def toBeSigned : Bytes := sigStructure (protectedHeader me.alg) aad payload

/-- Octets of a short-circuit signature. -/
def scOctets (alg : Int) : Nat :=
  if alg = -7 then 64 else if alg = -35 then 96 else if alg = -36 then 132 else 0

/-- The hash of what is to be signed, if the algorithm has one. -/
def toBeSignedHash : Except Err Bytes :=
  match hashFor cfg me.alg with
  | none => .error .unsupportedSigningAlg
  | some ha => .ok (D ha (toBeSigned me payload aad))

variable (digest : Except Err Bytes)

/-- Making the signature with room for `n` octets; `digest` is the hash of what is to be
signed, or the error of hashing. -/
def makeSig (n : Nat) : Except Err Bytes :=
  if Spec.Opt.shortCircuit me.flags then
    match digest with
    | .error x => .error x
    | .ok d =>
      if n < scOctets me.alg then .error .sigBufferSize
      else .ok ((List.replicate (scOctets me.alg) d).flatten.take (scOctets me.alg))
  else if me.alg = -8 then
    if me.aux.cap < (toBeSigned me payload aad).length then .error .auxiliaryBufferSize
    else if me.aux.isNull then .error .needAuxiliaryBuffer
    else C.signEddsa me.key (toBeSigned me payload aad) n
  else
    match digest with
    | .error x => .error x
    | .ok d => C.sign me.alg me.key d n

/-- Asking for the size of the signature. -/
def askSize : Except Err Nat :=
  if Spec.Opt.shortCircuit me.flags then
    match digest with
    | .error x => .error x
    | .ok _ => .ok (scOctets me.alg)
  else if me.alg = -8 then
    if me.aux.cap < (toBeSigned me payload aad).length then .error .auxiliaryBufferSize
    else C.sigSize me.alg me.key
  else
    match digest with
    | .error x => .error x
    | .ok _ => C.sigSize me.alg me.key

/-- What the context can be refused for. -/
def ctxFault : Option Err :=
  if ¬ algEnabled cfg me.alg then some .unsupportedSigningAlg
  else if Spec.Opt.shortCircuit me.flags = true ∧ cfg.disableShortCircuit = true then
    some .shortCircuitSigDisabled
  else if cfg.disableContentType = false ∧ me.contentTypeUint ≠ noContentType ∧
      me.contentTypeTstr ≠ none then some .duplicateParameter
  else none

/-- How signing into a buffer of `n` octets ends. -/
def outcome (n : Nat) : Except Err Bytes :=
  match ctxFault cfg me with
  | some x => .error x
  | none =>
    if n < begun cfg me det payload then .error .tooSmall
    else if n = begun cfg me det payload then
      match askSize C me payload aad digest with
      | .error x => .error x
      | .ok _ => .error .tooSmall
    else
      match makeSig C me payload aad digest (n - begun cfg me det payload) with
      | .error x => .error x
      | .ok s =>
        if n < (finished cfg me det payload s).length then .error .tooSmall
        else .ok (finished cfg me det payload s)

/-- How a size query with a NULL buffer said to have `n` octets ends. -/
def queryOutcome (n : Nat) : Except Err Nat :=
  match ctxFault cfg me with
  | some x => .error x
  | none =>
    if n < begun cfg me det payload then .error .tooSmall
    else
      match askSize C me payload aad digest with
      | .error x => .error x
      | .ok k =>
        if n < (finished cfg me det payload (List.replicate k 0)).length then .error .tooSmall
        else .ok (finished cfg me det payload (List.replicate k 0)).length

/-! ## Lemmas -/

variable {cfg C D me det payload aad digest}

theorem ctxFault_none (h : ctxFault cfg me = none) : SignPre cfg me := by
  unfold ctxFault at h
  split at h
  · cases h
  rename_i h1
  split at h
  · cases h
  rename_i h2
  split at h
  · cases h
  rename_i h3
  refine ⟨(C32_supported_iff cfg me.alg).mpr (Classical.not_not.mp h1), by simpa [opt_shortCircuit] using h2, ?_⟩
  intro hb
  exact h3 (ctArg_both.mp hb)

theorem ctxFault_params {x : Err} (h : ctxFault cfg me = some x) (det : Bool) (e : Enc) :
    (encodeParametersInternal cfg me det e).1 = .error x := by
  unfold ctxFault at h
  split at h
  · rename_i h1
    cases h
    rw [params_unsupported]
    cases hs : sigAlgSupported cfg me.alg
    · rfl
    · exact absurd ((C32_supported_iff cfg me.alg).mp hs) h1
  · rename_i h1
    have h1 : sigAlgSupported cfg me.alg = true := (C32_supported_iff cfg me.alg).mpr (Classical.not_not.mp h1)
    split at h
    · rename_i h2
      cases h
      exact params_scDisabled h1 h2.1 h2.2
    · rename_i h2
      split at h
      · rename_i h3
        cases h
        exact params_bothCt h1 h2 h3.1 h3.2.1 h3.2.2
      · cases h

theorem ctxFault_some {x : Err} (h : ctxFault cfg me = some x) (C : Crypto) (det : Bool)
    (payload aad : UB) (out : Mem) : (signAadInternal cfg C me det payload aad out).1 = .error x :=
  sign_error_pre (ctxFault_params h _ _)

theorem finished_eq (hct : ctArg cfg me ≠ .both) (s : Bytes) :
    finished cfg me det payload s = msgBytes cfg me det payload s :=
  (msgBytes_spec hct det payload s).symm

theorem begun_eq (hct : ctArg cfg me ≠ .both) :
    begun cfg me det payload = (preSig cfg me det payload).length := by
  unfold begun
  rw [finished_eq hct]
  have h1 : (encodeHead 4 4).length = 1 := by decide
  have h2 : (bstrBytes []).length = 1 := by decide
  simp only [msgBytes, preSig, List.length_append, h1, h2]
  omega

theorem scSigSize_octets (alg : Int) : scSigSize alg = .ok (scOctets alg) := rfl

theorem scSign_octets {alg : Int} {d : Bytes} (hd : d ≠ []) (n : Nat) :
    scSign alg d n = if n < scOctets alg then .error .sigBufferSize
      else .ok ((List.replicate (scOctets alg) d).flatten.take (scOctets alg)) := by
  unfold scSign
  rw [scSigSize_octets]
  generalize scOctets alg = k
  simp only
  by_cases h : n < k
  · rw [if_pos h, if_pos h]
  · rw [if_neg h, if_neg h]
    obtain ⟨b, hb⟩ := scLoop_some hd k k 0 (List.replicate k 0) (by omega)
    have hl := scLoop_length (by simp) hb
    rw [hb]
    simp only [Except.ok.injEq]
    apply List.ext_getElem?
    intro j
    rw [List.getElem?_take, List.getElem?_take]
    by_cases hj : j < k
    · rw [if_pos hj, if_pos hj]
      rw [scLoop_get hd (by simp) (by simp) (fun j h _ => absurd h (by omega)) hb j hj]
      symm
      have hp : 0 < d.length := List.length_pos_iff.mpr hd
      have : ∀ (k j : Nat), j < k * d.length → (List.replicate k d).flatten[j]? = d[j % d.length]? := by
        intro k
        induction k with
        | zero => intro j hj; omega
        | succ k ih =>
          intro j hj
          rw [List.replicate_succ, List.flatten_cons]
          by_cases h : j < d.length
          · rw [List.getElem?_append_left h, Nat.mod_eq_of_lt h]
          · rw [List.getElem?_append_right (by omega), ih _ (by rw [Nat.succ_mul] at hj; omega)]
            conv => rhs; rw [Nat.mod_eq_sub_mod (by omega)]
      exact this k j (Nat.lt_of_lt_of_le hj (Nat.le_mul_of_pos_right k hp))
    · rw [if_neg hj, if_neg hj]

/-- Hashing works for the algorithm of the context, for pieces of up to `N` octets. -/
def Hashes (N : Nat) (cfg : Config) (C : Crypto) (D : Int → Bytes → Bytes) (alg : Int) : Prop :=
  ∀ ha, hashFor cfg alg = some ha →
    HashesUpTo N C ha (digestRoom cfg) (D ha) ∧ ∀ b, D ha b ≠ []

variable {N : Nat}

theorem tbs_hash (hD : Hashes N cfg C D me.alg) {a : UB} (ha : a.wf)
    (hN : PiecesUpTo N (protectedHeader me.alg) a.bytes payload) :
    createTbsHash cfg C me.alg (.data (protMap me.alg)) a (.data payload) (maxHashSize cfg) =
      toBeSignedHash cfg D me payload a.bytes := by
  unfold toBeSignedHash
  cases hh : hashFor cfg me.alg with
  | none => rw [createTbsHash_eq, if_pos (hashFor_none.mp hh)]
  | some h =>
    obtain ⟨g1, g2⟩ := hashFor_some hh
    have hd : HashesUpTo N C (hashAlgOfSigAlg cfg me.alg) (maxHashSize cfg) (D h) := by
      rw [g1, maxHashSize_eq]; exact (hD h hh).1
    rw [createTbsHash_works (p := .data _) (w := .data _) g2 hd rfl ha rfl
      (by rw [protectedHeader_eq] at hN; exact hN)]
    unfold toBeSigned
    rw [protectedHeader_eq]
    rfl

theorem tbs_hash_any (hD : Hashes N cfg C D me.alg) (p a w : UB)
    (hN : PiecesUpTo N p.bytes a.bytes w.bytes) :
    match toBeSignedHash cfg D me payload aad with
    | .error x => createTbsHash cfg C me.alg p a w (maxHashSize cfg) = .error x
    | .ok _ => ∃ d, createTbsHash cfg C me.alg p a w (maxHashSize cfg) = .ok d := by
  unfold toBeSignedHash
  cases hh : hashFor cfg me.alg with
  | none => rw [createTbsHash_eq, if_pos (hashFor_none.mp hh)]
  | some h =>
    obtain ⟨g1, g2⟩ := hashFor_some hh
    obtain ⟨Abs, ⟨h0, k1, k1'⟩, k2, k3, k4⟩ := (hD h hh).1
    rw [createTbsHash_eq, if_neg g2, g1, k1, maxHashSize_eq]
    exact ⟨_, k4 _ _ (hashesUpTo_foldl k2 k3 (tbsChunks p a w) (tbsChunks_le hN) h0 _ k1')⟩

theorem toBeSignedHash_ne (hD : Hashes N cfg C D me.alg) {d : Bytes}
    (h : toBeSignedHash cfg D me payload aad = .ok d) : d ≠ [] := by
  unfold toBeSignedHash at h
  split at h
  · cases h
  · rename_i ha hh
    cases h
    exact (hD ha hh).2 _

theorem eddsa_on (hpre : SignPre cfg me) (halg : me.alg = algEDDSA) : cfg.disableEDDSA = false := by
  have := hpre.alg
  rw [halg] at this
  cases hq : cfg.disableEDDSA with
  | false => rfl
  | true =>
    unfold sigAlgSupported at this
    rw [hq] at this
    simp [algEDDSA, algES256, algES384, algES512, algPS256, algPS384, algPS512] at this

theorem dispatch_make (hpre : SignPre cfg me) {a : UB} (ha : a.wf)
    (hdig : createTbsHash cfg C me.alg (.data (protMap me.alg)) a (.data payload) (maxHashSize cfg) =
      digest) (hne : ∀ d, digest = .ok d → d ≠ []) (pp : Enc.PRef) (n : Nat) :
    ∃ me', signDispatch cfg C { me with protectedParams := pp } (.data (protMap me.alg)) a
      (.data payload) (.room n) = ((makeSig C me payload a.bytes digest n).map UB.data, me', false) := by
  unfold makeSig
  rw [opt_shortCircuit]
  by_cases hsc : hasFlag me.flags optShortCircuit = true
  · have hdis : cfg.disableShortCircuit = false := by
      cases h : cfg.disableShortCircuit
      · rfl
      · exact absurd ⟨hsc, h⟩ hpre.sc
    rw [if_pos hsc]
    unfold signDispatch
    rw [if_pos (by simp [hsc, hdis])]
    unfold signShortCircuit
    refine ⟨_, Prod.ext ?_ rfl⟩
    simp only [hdig]
    cases hd : digest with
    | error x => rfl
    | ok d =>
      simp only
      rw [scSign_octets (hne d hd)]
  · rw [if_neg hsc]
    have hsc : hasFlag me.flags optShortCircuit = false := by simpa using hsc
    by_cases hal : me.alg = -8
    · rw [if_pos hal]
      have hc := eddsa_on hpre hal
      have := signDispatch_eddsa (cfg := cfg) (C := C) (me := { me with protectedParams := pp })
        (aad := a) (det := false) (nul := false) (w := payload) (place := .room n)
        hc hal hsc ha (by simp) (protMap me.alg)
      rw [show seen false (protMap me.alg) = UB.data (protMap me.alg) from rfl,
        show paySeen false false payload = UB.data payload from rfl] at this
      rw [this]
      unfold toBeSigned
      rw [protectedHeader_eq]
      by_cases h1 : me.aux.cap < (sigStructure (protMap me.alg) a.bytes payload).length
      · have h1' : ({ me with protectedParams := pp } : SignCtx).aux.cap <
          (sigStructure (protMap me.alg) a.bytes payload).length := h1
        rw [if_pos h1', if_pos h1]; exact ⟨_, rfl⟩
      · have h1' : ¬ ({ me with protectedParams := pp } : SignCtx).aux.cap <
          (sigStructure (protMap me.alg) a.bytes payload).length := h1
        rw [if_neg h1', if_neg h1]
        cases me.aux.isNull
        · exact ⟨_, rfl⟩
        · exact ⟨_, rfl⟩
    · rw [if_neg hal]
      unfold signDispatch
      rw [if_neg (by simp [hsc]), if_neg (by simp [algEDDSA, hal])]
      unfold signDefault
      refine ⟨_, Prod.ext ?_ rfl⟩
      simp only [hdig]
      cases digest <;> rfl

theorem dispatch_ask (hpre : SignPre cfg me) {a : UB} (ha : a.wf) (pp : Enc.PRef) (nul det : Bool)
    (hd : match digest with
      | .error x => createTbsHash cfg C me.alg (seen nul (protMap me.alg)) a (paySeen det nul payload)
          (maxHashSize cfg) = .error x
      | .ok _ => ∃ d, createTbsHash cfg C me.alg (seen nul (protMap me.alg)) a
          (paySeen det nul payload) (maxHashSize cfg) = .ok d)
    (hx : Spec.Opt.shortCircuit me.flags = false → me.alg = -8 → nul = true → me.aux.isNull = true) :
    ∃ me', signDispatch cfg C { me with protectedParams := pp } (seen nul (protMap me.alg)) a
      (paySeen det nul payload) .null = ((askSize C me payload a.bytes digest).map UB.null, me', false) := by
  unfold askSize
  rw [opt_shortCircuit] at hx ⊢
  by_cases hsc : hasFlag me.flags optShortCircuit = true
  · have hdis : cfg.disableShortCircuit = false := by
      cases h : cfg.disableShortCircuit
      · rfl
      · exact absurd ⟨hsc, h⟩ hpre.sc
    rw [if_pos hsc]
    unfold signDispatch
    rw [if_pos (by simp [hsc, hdis])]
    unfold signShortCircuit
    refine ⟨_, Prod.ext ?_ rfl⟩
    simp only
    cases hh : digest with
    | error x => rw [hh] at hd; simp only at hd; rw [hd]; rfl
    | ok d => rw [hh] at hd; obtain ⟨d', hd⟩ := hd; rw [hd]; rfl
  · rw [if_neg hsc]
    have hsc : hasFlag me.flags optShortCircuit = false := by simpa using hsc
    by_cases hal : me.alg = -8
    · rw [if_pos hal]
      have hc := eddsa_on hpre hal
      have := signDispatch_eddsa (cfg := cfg) (C := C) (me := { me with protectedParams := pp })
        (aad := a) (det := det) (nul := nul) (w := payload) (place := .null)
        hc hal hsc ha (hx hsc hal) (protMap me.alg)
      rw [this]
      unfold toBeSigned
      rw [protectedHeader_eq]
      by_cases h1 : me.aux.cap < (sigStructure (protMap me.alg) a.bytes payload).length
      · have h1' : ({ me with protectedParams := pp } : SignCtx).aux.cap <
          (sigStructure (protMap me.alg) a.bytes payload).length := h1
        rw [if_pos h1', if_pos h1]; exact ⟨_, rfl⟩
      · have h1' : ¬ ({ me with protectedParams := pp } : SignCtx).aux.cap <
          (sigStructure (protMap me.alg) a.bytes payload).length := h1
        rw [if_neg h1', if_neg h1]
        exact ⟨_, rfl⟩
    · rw [if_neg hal]
      unfold signDispatch
      rw [if_neg (by simp [hsc]), if_neg (by simp [algEDDSA, hal])]
      unfold signDefault
      refine ⟨_, Prod.ext ?_ rfl⟩
      simp only
      cases hh : digest with
      | error x => rw [hh] at hd; simp only at hd; rw [hd]; rfl
      | ok d => rw [hh] at hd; obtain ⟨d', hd⟩ := hd; rw [hd]

theorem payArg_wf {det : Bool} {p : UB} (hp : p.wf) (hd : det = true → p.isNull = false) (nul : Bool) :
    PayArg det nul p p.bytes := by
  unfold PayArg
  cases det
  · exact UB.wf_src hp nul
  · cases p with
    | data b => rfl
    | null n => cases hd rfl

theorem hdr_le (cfg : Config) (me : SignCtx) (det : Bool) (payload : Bytes) :
    (tagPart me ++ hdrBytes cfg me).length ≤ (preSig cfg me det payload).length := by
  simp only [preSig, List.length_append]
  omega

theorem hash_any {r : Except Err Bytes} : r = digest →
    match digest with
    | .error x => r = .error x
    | .ok _ => ∃ d, r = .ok d := by
  intro h
  subst h
  cases r with
  | error x => rfl
  | ok d => exact ⟨d, rfl⟩

theorem fedAll_error_ne {L : Psa.Lib} {st : Int} : ∀ {parts : List Bytes} {op : L.Op},
    Spec.Psa.fedAll L op parts = .error st → st ≠ 0 := by
  intro parts
  induction parts with
  | nil => intro op h; cases h
  | cons b bs ih =>
    intro op h
    unfold Spec.Psa.fedAll at h
    split at h
    · exact ih h
    · cases h; assumption

theorem makeSig_fits (hfit : SignFits C) {n : Nat} {s : Bytes}
    (h : makeSig C me payload aad digest n = .ok s) : s.length ≤ n := by
  unfold makeSig at h
  repeat' split at h
  all_goals first
    | (cases h; done)
    | (cases h; simp only [List.length_take]; omega)
    | exact hfit.eddsa _ _ _ _ h
    | exact hfit.sign _ _ _ _ _ h

variable (cfg C D me det) (payload aad : UB)

theorem sign_outcome (hfit : SignFits C) (m : Bytes)
    (hp : payload.wf) (ha : aad.wf) (hd : det = true → payload.isNull = false)
    (hdig : createTbsHash cfg C me.alg (.data (protMap me.alg)) aad (.data payload.bytes)
      (maxHashSize cfg) = digest) (hne : ∀ d, digest = .ok d → d ≠ [])
    (hlim : begun cfg me det payload.bytes < 2 ^ 32 - 9) :
    (signAadInternal cfg C me det payload aad (.buf m)).1 =
      (outcome cfg C me det payload.bytes aad.bytes digest m.length).map UB.data := by
  unfold outcome
  cases hf : ctxFault cfg me with
  | some x => exact ctxFault_some hf _ _ _ _ _
  | none =>
    simp only
    have hpre := ctxFault_none hf
    rw [begun_eq hpre.ct] at hlim ⊢
    have hlim : (preSig cfg me det payload.bytes).length < Enc.maxStart := by unfold Enc.maxStart; omega
    obtain ⟨h1, h2⟩ := sign_run cfg C me det payload aad payload.bytes (.buf m) hpre
      (payArg_wf hp hd _) (.inr (Nat.lt_of_le_of_lt (hdr_le _ _ _ _) hlim))
    simp only [Mem.cap, Mem.isNull] at h1 h2
    by_cases hc : m.length < (preSig cfg me det payload.bytes).length
    · rw [if_pos hc]
      obtain ⟨e', me', h⟩ := h1 hc
      rw [h]; rfl
    rw [if_neg hc]
    obtain ⟨pp, -, h2⟩ := h2 (by omega)
    have hps : paySeen det false payload.bytes = .data payload.bytes := by cases det <;> rfl
    have hany := hash_any (digest := digest) (r := createTbsHash cfg C me.alg (seen false (protMap me.alg)) aad
      (paySeen det false payload.bytes) (maxHashSize cfg)) (by rw [hps]; exact hdig)
    by_cases he : m.length = (preSig cfg me det payload.bytes).length
    · rw [if_pos he]
      rw [show placeOf m.length false (preSig cfg me det payload.bytes).length = .null by
        unfold placeOf; simp [he]] at h2
      obtain ⟨me', hdis⟩ := dispatch_ask (payload := payload.bytes) (digest := digest) hpre ha pp false det
        hany (by simp)
      rw [hdis] at h2
      cases hq : askSize C me payload.bytes aad.bytes digest with
      | error x =>
        rw [hq] at h2
        obtain ⟨e', h2⟩ := h2
        rw [h2]; rfl
      | ok k =>
        rw [hq] at h2
        obtain ⟨e', r, h2, h3⟩ := h2
        rw [h2]
        obtain ⟨-, -, h4, -⟩ := h3 (List.replicate k 0) (.inr ⟨by simp, .inr (by omega)⟩) rfl
        have := preSig_lt_msg cfg me det payload.bytes (List.replicate k 0)
        exact h4 (by omega) hlim
    · rw [if_neg he]
      rw [show placeOf m.length false (preSig cfg me det payload.bytes).length =
        .room (m.length - (preSig cfg me det payload.bytes).length) by
        unfold placeOf; simp; omega] at h2
      obtain ⟨me', hdis⟩ := dispatch_make (payload := payload.bytes) hpre ha hdig hne pp
        (m.length - (preSig cfg me det payload.bytes).length)
      rw [hps, show seen false (protMap me.alg) = UB.data (protMap me.alg) from rfl, hdis] at h2
      cases hq : makeSig C me payload.bytes aad.bytes digest (m.length - (preSig cfg me det payload.bytes).length) with
      | error x =>
        rw [hq] at h2
        obtain ⟨e', h2⟩ := h2
        rw [h2]; rfl
      | ok s =>
        rw [hq] at h2
        obtain ⟨e', r, h2, h3⟩ := h2
        rw [h2]
        obtain ⟨-, -, h4, -, h5⟩ := h3 s (.inl ⟨rfl, rfl, makeSig_fits hfit hq⟩) rfl
        simp only
        rw [finished_eq hpre.ct]
        by_cases hl : m.length < (msgBytes cfg me det payload.bytes s).length
        · rw [if_pos hl]; exact h4 hl hlim
        · rw [if_neg hl]; exact h5 (by omega) hlim

/-- **C67.** For every context, payload, external data and buffer: signing ends as
`outcome` says, with the octets of the message or the code of the error, for
messages that begin within QCBOR's limit of 4 GiB less 9 octets.  The adapter need
only hash pieces as long as those of this message. -/
theorem C67_sign (hfit : SignFits C) (hD : Hashes N cfg C D me.alg) (m : Bytes)
    (hp : payload.wf) (ha : aad.wf)
    (hN : PiecesUpTo N (protectedHeader me.alg) aad.bytes payload.bytes) (hd : det = true → payload.isNull = false)
    (hlim : begun cfg me det payload.bytes < 2 ^ 32 - 9) :
    (signAadInternal cfg C me det payload aad (.buf m)).1 =
      (outcome cfg C me det payload.bytes aad.bytes
        (toBeSignedHash cfg D me payload.bytes aad.bytes) m.length).map UB.data :=
  sign_outcome cfg C me det payload aad hfit m hp ha hd (tbs_hash hD ha hN)
    (fun _ h => toBeSignedHash_ne hD h) hlim

theorem toy_hashes (N : Nat) (cfg : Config) (alg : Int) : Hashes N cfg toyCrypto toyDigest alg := by
  intro ha h
  refine ⟨hashesAs_upTo (toy_hashesAs ?_ ?_) N, fun b => by simp [toyDigest]⟩
  · unfold hashFor hashOf at h
    repeat' split at h
    all_goals first
      | (cases h; done)
      | (cases h; first | exact .inl rfl | exact .inr (.inl rfl) | exact .inr (.inr rfl))
  · rw [← maxHashSize_eq]
    unfold maxHashSize
    repeat' split
    all_goals decide

/- The message of 87 octets of C01's example, with every size of buffer at which the
outcome changes; a context with both content types; EdDSA with a short auxiliary
buffer. -/
example : begun Config.full exCtx false [1, 2, 3] = 20 ∧
    [0, 19, 20, 21, 83, 84, 86, 87, 100].map (fun n =>
      (outcome Config.full toyCrypto exCtx false [1, 2, 3] []
        (toBeSignedHash Config.full toyDigest exCtx [1, 2, 3] []) n).map List.length) =
      [.error .tooSmall, .error .tooSmall, .error .tooSmall, .error .sigBufferSize,
       .error .sigBufferSize, .error .tooSmall, .error .tooSmall, .ok 87, .ok 87] ∧
    outcome Config.full toyCrypto { exCtx with contentTypeUint := 5 } false [1] []
      (.ok [1]) 200 = .error .duplicateParameter ∧
    outcome Config.full toyCrypto { SignCtx.init 0 (-8) with aux := .buf [0, 0] } false [1] []
      (.error .unsupportedSigningAlg) 200 = .error .auxiliaryBufferSize ∧
    (sign1Sign Config.full toyCrypto exCtx (.data [1, 2, 3]) (.buf (List.replicate 83 0))).1 =
      .error .sigBufferSize := by decide +kernel

example (m : Bytes) :
    (signAadInternal Config.full toyCrypto exCtx false (.data [1, 2, 3]) .nil (.buf m)).1 =
      (outcome Config.full toyCrypto exCtx false [1, 2, 3] []
        (toBeSignedHash Config.full toyDigest exCtx [1, 2, 3] []) m.length).map UB.data :=
  C67_sign _ _ _ _ _ (.data [1, 2, 3]) .nil toy_signFits (toy_hashes 12 _ _) m rfl rfl
    (by unfold PiecesUpTo; decide) (by simp)
    (by decide +kernel)

/-- **C67 (OpenSSL).** With the OpenSSL adapter, whatever its hash calls report: the
hash is the one of `Spec.Ossl.hashRun` over parts that make up what is to be
signed, error codes included. -/
theorem C67_openssl (L : Ossl.Lib) (hfit : Spec.Ossl.Fits L)
    (hdg : ∀ md, (L.digestFinal md).2.length ≤ digestRoom cfg)
    (hnz : ∀ md, (L.digestFinal md).1 ≠ 0 → (L.digestFinal md).2 ≠ []) (m : Bytes)
    (hp : payload.wf) (ha : aad.wf) (hd : det = true → payload.isNull = false)
    (hlim : begun cfg me det payload.bytes < 2 ^ 32 - 9) :
    ∃ parts, parts.flatten = toBeSigned me payload.bytes aad.bytes ∧
      (signAadInternal cfg (Ossl.crypto cfg L) me det payload aad (.buf m)).1 =
        (outcome cfg (Ossl.crypto cfg L) me det payload.bytes aad.bytes
          (match hashFor cfg me.alg with
            | none => .error .unsupportedSigningAlg
            | some h => Spec.Ossl.hashRun L h parts) m.length).map UB.data := by
  obtain ⟨parts, h1, h2⟩ := C66_openssl_hash (.data (protMap me.alg)) aad (.data payload.bytes) rfl
    ha rfl
  refine ⟨parts, by rw [h1]; unfold toBeSigned; rw [protectedHeader_eq]; rfl, ?_⟩
  refine sign_outcome cfg _ me det payload aad (openssl_signFits cfg L hfit) m hp ha hd ?_ ?_ hlim
  · rw [maxHashSize_eq, h2 cfg L me.alg (digestRoom cfg) hdg]
    cases hashFor cfg me.alg <;> rfl
  intro d hx
  split at hx
  · cases hx
  unfold Spec.Ossl.hashRun at hx
  split at hx
  · simp only [settled_cons] at hx
    repeat' split at hx
    all_goals first | (cases hx; done) | (rename_i h3; exact absurd trivial h3)
  · simp only [settled_cons, settled_nil] at hx
    split at hx
    · cases hx
    split at hx
    · cases hx
    split at hx
    · cases hx
    split at hx
    · cases hx
    · rename_i h3
      cases hx
      exact hnz _ (by simpa using h3)

/- A library that cannot make a digest context. -/
example : Spec.Ossl.Fits (Ossl.demoLib 256) ∧
    (∀ md, ((Ossl.demoLib 256).digestFinal md).2.length ≤ digestRoom Config.full) ∧
    (sign1Sign Config.full (Ossl.crypto Config.full { Ossl.demoLib 256 with mdCtxNew := false }) exCtx
      (.data [1, 2, 3]) (.buf (List.replicate 100 0))).1 = .error .insufficientMemory ∧
    (sign1Sign Config.full (Ossl.crypto Config.full (Ossl.demoLib 256)) exCtx
      (.data [1, 2, 3]) (.buf (List.replicate 100 0))).1.map UB.len = .ok 87 := by
  refine ⟨Ossl.demo_fits 256, ?_, by decide +kernel, by decide +kernel⟩
  intro md
  show (List.replicate _ _).length ≤ digestRoom Config.full
  rw [List.length_replicate]
  unfold Ossl.digestLen
  repeat' split
  all_goals decide

/-- **C67 (PSA).** The same with the PSA adapter. -/
theorem C67_psa (L : Psa.Lib) (hfit : Spec.Psa.Fits L) (m : Bytes)
    (hp : payload.wf) (ha : aad.wf) (hd : det = true → payload.isNull = false)
    (hlim : begun cfg me det payload.bytes < 2 ^ 32 - 9) :
    ∃ parts, parts.flatten = toBeSigned me payload.bytes aad.bytes ∧
      (signAadInternal cfg (Psa.crypto cfg L) me det payload aad (.buf m)).1 =
        (outcome cfg (Psa.crypto cfg L) me det payload.bytes aad.bytes
          (match hashFor cfg me.alg with
            | none => .error .unsupportedSigningAlg
            | some h => Spec.Psa.coded Spec.Psa.hashTableCodes .hashGeneralFail
                (Spec.Psa.hashRun L (Spec.Psa.hashTable h) parts (digestRoom cfg)).1
                (Spec.Psa.hashRun L (Spec.Psa.hashTable h) parts (digestRoom cfg)).2)
          m.length).map UB.data := by
  obtain ⟨parts, h1, h2⟩ := C66_psa_hash (.data (protMap me.alg)) aad (.data payload.bytes) rfl
    ha rfl
  refine ⟨parts, by rw [h1]; unfold toBeSigned; rw [protectedHeader_eq]; rfl, ?_⟩
  refine sign_outcome cfg _ me det payload aad (psa_signFits cfg L hfit) m hp ha hd ?_ ?_ hlim
  · rw [maxHashSize_eq, h2 cfg L me.alg]
    cases hashFor cfg me.alg <;> rfl
  intro d hx
  split at hx
  · cases hx
  unfold Spec.Psa.coded at hx
  split at hx
  · rename_i h h3 h4
    cases hx
    unfold Spec.Psa.hashRun at h4 ⊢
    by_cases h5 : (L.hashSetup (Spec.Psa.hashTable h)).1 ≠ 0
    · rw [if_pos h5] at h4; exact absurd h4 h5
    rw [if_neg h5] at h4 ⊢
    cases h6 : Spec.Psa.fedAll L (L.hashSetup (Spec.Psa.hashTable h)).2 parts with
    | error st =>
      rw [h6] at h4
      exact absurd h4 (fedAll_error_ne h6)
    | ok op =>
      rw [h6] at h4
      exact (hfit.hash _ _ h4).1
  · cases hx

/- A library whose hash updates fail, and one that works. -/
example : Spec.Psa.Fits (Psa.demoPsa fun _ => true) ∧
    (sign1Sign Config.full (Psa.crypto Config.full (Psa.demoPsa fun _ => true))
      { exCtx with key := ⟨.psa, 5⟩ } (.data [1, 2, 3]) (.buf (List.replicate 100 0))).1 =
        .error .hashGeneralFail ∧
    (sign1Sign Config.full (Psa.crypto Config.full (Psa.demoPsa fun _ => false))
      { exCtx with key := ⟨.psa, 5⟩ } (.data [1, 2, 3]) (.buf (List.replicate 100 0))).1.map UB.len =
        .ok 87 :=
  ⟨Psa.demoPsa_fits _, by decide +kernel, by decide +kernel⟩

/-- The size query, if the hash of what the library sees in a query is `digest`. -/
theorem size_outcome (n : Nat) (hp : payload.wf) (ha : aad.wf) (hd : det = true → payload.isNull = false)
    (hdig : match digest with
      | .error x => createTbsHash cfg C me.alg (seen true (protMap me.alg)) aad
          (paySeen det true payload.bytes) (maxHashSize cfg) = .error x
      | .ok _ => ∃ d, createTbsHash cfg C me.alg (seen true (protMap me.alg)) aad
          (paySeen det true payload.bytes) (maxHashSize cfg) = .ok d)
    (hx : Spec.Opt.shortCircuit me.flags = false → me.alg = -8 → me.aux.isNull = true)
    (hlim : begun cfg me det payload.bytes < 2 ^ 32 - 9) :
    (signAadInternal cfg C me det payload aad (.null n)).1 =
      (queryOutcome cfg C me det payload.bytes aad.bytes digest n).map UB.null := by
  unfold queryOutcome
  cases hf : ctxFault cfg me with
  | some x => exact ctxFault_some hf _ _ _ _ _
  | none =>
    simp only
    have hpre := ctxFault_none hf
    rw [begun_eq hpre.ct] at hlim ⊢
    have hlim : (preSig cfg me det payload.bytes).length < Enc.maxStart := by unfold Enc.maxStart; omega
    obtain ⟨h1, h2⟩ := sign_run cfg C me det payload aad payload.bytes (.null n) hpre
      (payArg_wf hp hd _) (.inr (Nat.lt_of_le_of_lt (hdr_le _ _ _ _) hlim))
    simp only [Mem.cap, Mem.isNull] at h1 h2
    by_cases hc : n < (preSig cfg me det payload.bytes).length
    · rw [if_pos hc]
      obtain ⟨e', me', h⟩ := h1 hc
      rw [h]; rfl
    rw [if_neg hc]
    obtain ⟨pp, -, h2⟩ := h2 (by omega)
    obtain ⟨me', hdis⟩ := dispatch_ask (payload := payload.bytes)
      (digest := digest) hpre ha pp true det hdig
      (fun a b _ => hx a b)
    rw [show placeOf n true (preSig cfg me det payload.bytes).length = .null from rfl, hdis] at h2
    cases hq : askSize C me payload.bytes aad.bytes digest with
    | error x =>
      rw [hq] at h2
      obtain ⟨e', h2⟩ := h2
      rw [h2]; rfl
    | ok k =>
      rw [hq] at h2
      obtain ⟨e', r, h2, h3⟩ := h2
      rw [h2]
      obtain ⟨-, -, h4, -, h5⟩ := h3 (List.replicate k 0) (.inr ⟨by simp, .inl rfl⟩) rfl
      simp only
      rw [finished_eq hpre.ct]
      by_cases hl : n < (msgBytes cfg me det payload.bytes (List.replicate k 0)).length
      · rw [if_pos hl]; exact h4 hl hlim
      · rw [if_neg hl]; exact h5 (by omega) hlim

/-- **C67 (size query).** The query with a NULL buffer; with EdDSA it must be made
without an auxiliary buffer. -/
theorem C67_size (hD : Hashes N cfg C D me.alg) (n : Nat)
    (hN : PiecesUpTo N (protectedHeader me.alg) aad.bytes payload.bytes)
    (hp : payload.wf) (ha : aad.wf) (hd : det = true → payload.isNull = false)
    (hx : Spec.Opt.shortCircuit me.flags = false → me.alg = -8 → me.aux.isNull = true)
    (hlim : begun cfg me det payload.bytes < 2 ^ 32 - 9) :
    (signAadInternal cfg C me det payload aad (.null n)).1 =
      (queryOutcome cfg C me det payload.bytes aad.bytes
        (toBeSignedHash cfg D me payload.bytes aad.bytes) n).map UB.null :=
  size_outcome cfg C me det payload aad n hp ha hd
    (tbs_hash_any hD (seen true (protMap me.alg)) aad (paySeen det true payload.bytes)
      ⟨hN.1, Nat.zero_le _, hN.2.2.1, by cases det <;> first | exact hN.2.2.2 | exact Nat.zero_le _⟩)
    hx hlim

example : [19, 20, 86, 87].map (queryOutcome Config.full toyCrypto exCtx false [1, 2, 3] []
      (toBeSignedHash Config.full toyDigest exCtx [1, 2, 3] [])) =
      [.error .tooSmall, .error .tooSmall, .error .tooSmall, .ok 87] ∧
    (sign1Sign Config.full toyCrypto exCtx (.data [1, 2, 3]) (.null 87)).1 = .ok (.null 87) := by
  decide +kernel

/-- **C67 (limit).** Messages that begin beyond the limit are refused, whatever the
buffer. -/
theorem C67_limit (hfit : SignFits C) (m : Bytes)
    (hp : payload.wf) (ha : aad.wf) (hd : det = true → payload.isNull = false)
    (hlim : 2 ^ 32 - 9 ≤ begun cfg me det payload.bytes) :
    ∃ x, (signAadInternal cfg C me det payload aad (.buf m)).1 = .error x := by
  cases h : (signAadInternal cfg C me det payload aad (.buf m)).1 with
  | error x => exact ⟨x, rfl⟩
  | ok r =>
    obtain ⟨hpre, -, -, pp, sig, me', ub, hdi, hk⟩ := sign_ok_elim (payArg_wf hp hd _) h
    rw [begun_eq hpre.ct] at hlim
    obtain ⟨s, hs⟩ := dispatch_sigSrc hfit hdi
    have hub : ub = false := by
      have := signDispatch_ub' (cfg := cfg) (C := C) (me := { me with protectedParams := pp })
        (p := seen false (protMap me.alg)) (a := aad) (w := paySeen det false payload.bytes) hpre.sc
        (fun _ => ⟨rfl, ha, by cases det <;> rfl⟩)
        (placeOf m.length false (preSig cfg me det payload.bytes).length)
      have h3 := congrArg (fun q => q.2.2) hdi
      exact h3.symm.trans this
    have := (hk s hs hub).1
    unfold Enc.maxStart at this
    omega

/- Such a payload exists: the message begins with more octets than the payload has. -/
example : 2 ^ 32 - 9 ≤ begun Config.full exCtx false (List.replicate (2 ^ 32) 0) := by
  rw [begun_eq (by decide)]
  have : (List.replicate (2 ^ 32) (0 : UInt8)).length = 2 ^ 32 := List.length_replicate
  generalize List.replicate (2 ^ 32) (0 : UInt8) = b at this ⊢
  have h : b.length ≤ (preSig Config.full exCtx false b).length := by
    unfold preSig payPart bstrBytes
    simp only [List.length_append, Bool.false_eq_true, if_false]
    omega
  omega

end TCose.Props
