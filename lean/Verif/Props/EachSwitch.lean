import Verif.Spec.EachSwitch
import Verif.Props.EachOption
import Verif.Props.RealMain

/-!
# C98: what the build switches change in verification

For every octet string: what the result is in a build without something, in terms of what it is in the build with it.
-/

namespace TCose.Props
open TCose Spec

variable {cfg cfg' : Config} {P : QParams} {C C' : Crypto} {D : Int → Bytes → Bytes} {junk : Junk}
  {me : VerifyCtx} {msg : Bytes} {aad : UB} {pay : VPayload} {want : Bool} {N : Nat}

theorem lookedAt_found {flags : Nat} {x : Found4} (h : lookedAt cfg P msg pay flags = .ok x) :
    foundIn cfg P msg pay flags = some x := by
  unfold lookedAt at h
  unfold foundIn
  split at h
  · cases h
  · rename_i hlen
    rw [if_neg hlen]
    split at h
    · cases h
    · rename_i ts xs last fin hm
      rw [hm]
      simp only
      split at h
      · cases h
      · rename_i hp
        rw [if_neg hp]
        split at h
        · cases h
        · rename_i f hf
          rw [hf]
          simp only
          split at h
          · cases h
          · split at h
            · cases h
            · cases h; rfl

theorem foundIn_payload {flags : Nat} {x : Found4} (h : foundIn cfg P msg pay flags = some x) :
    (pay.buffer x.payload).bytes = x.payload := by
  unfold foundIn at h
  split at h
  · cases h
  · split at h
    · cases h
    · rename_i ts xs last fin hm
      split at h
      · cases h
      · split at h
        · cases h
        · rename_i f hf
          cases h
          exact payloadAt_buffer (readAll_found hm hf).2.2.1

/-- The digest is that of the structure. -/
theorem digestIn_eq {flags : Nat} {x : Found4} (hx : foundIn cfg P msg pay flags = some x)
    (hh : ∀ alg ha, hashFor cfg' alg = some ha → HashesUpTo N C ha (digestRoom cfg') (D ha))
    (hargs : ArgsOk aad pay) (hN : PiecesUpTo N x.prot aad.bytes x.payload) :
    digestIn cfg' C aad pay x = digestOf cfg' D (sigStructure x.prot aad.bytes x.payload) x.known.alg := by
  have hpb := foundIn_payload hx
  have hpw : (pay.buffer x.payload).wf := by
    cases pay with
    | inline w => rfl
    | detached p => exact hargs.2 p rfl
  unfold digestIn digestOf
  cases hh' : hashFor cfg' x.known.alg with
  | none => rw [createTbsHash_eq, if_pos (hashFor_none.mp hh')]
  | some h =>
    obtain ⟨g1, g2⟩ := hashFor_some hh'
    have hd : HashesUpTo N C (hashAlgOfSigAlg cfg' x.known.alg) (maxHashSize cfg') (D h) := by
      rw [g1, maxHashSize_eq]; exact hh _ h hh'
    rw [createTbsHash_works (p := .data x.prot) g2 hd rfl hargs.1 hpw (by rw [hpb]; exact hN), hpb]
    rfl

/-- **C98 (algorithms).** A build without some algorithms gives for every octet string the result of the build with
them, error code included, unless the message could be read and looked at and its algorithm is one of those; then
decode-only is a success, and otherwise the algorithm is refused — or the short-circuit signature, if it is one and is
not allowed. -/
theorem C98_algorithms (f : Nat) (hP : P.maxTags ≤ 4) (hl : P.Local) (hargs : ArgsOk aad pay)
    (hc : FewerAlgorithms cfg cfg') (hA : AlikeFor N cfg cfg' C C' D me.key)
    (hN : ∀ x, foundIn cfg P msg pay f = some x → PiecesUpTo N x.prot aad.bytes x.payload) :
    resultWith cfg' P C' junk me msg aad pay want f =
      match lookedAt cfg P msg pay f with
      | .error _ => resultWith cfg P C junk me msg aad pay want f
      | .ok x =>
        if algEnabled cfg x.known.alg ∧ ¬ algEnabled cfg' x.known.alg then
          if Opt.decodeOnly f = true then .ok ()
          else if (cfg.disableShortCircuit = false ∧ x.known.kid = some scKid) ∧ Opt.allowShortCircuit f = false then
            .error .shortCircuitSig
          else .error .unsupportedSigningAlg
        else resultWith cfg P C junk me msg aad pay want f := by
  rw [resultWith_looked hP hl hargs, resultWith_looked hP hl hargs]
  have hlk : lookedAt cfg' P msg pay f = lookedAt cfg P msg pay f := by
    unfold lookedAt
    rw [hc.contentType]
  rw [hlk]
  cases hx : lookedAt cfg P msg pay f with
  | error e => rfl
  | ok x =>
    have hfo := lookedAt_found hx
    have d1 := digestIn_eq (cfg' := cfg) hfo hA.hash hargs (hN x hfo)
    have d2 := digestIn_eq (cfg' := cfg') hfo hA.hash' hargs (hN x hfo)
    simp only [hc.shortCircuit, d1, d2]
    have ed : ∀ c : Config, (c.disableEDDSA = false ∧ x.known.alg = algEDDSA) ↔
        (algEnabled c x.known.alg ∧ x.known.alg = algEDDSA) := by
      intro c
      constructor
      · rintro ⟨a, b⟩; exact ⟨by rw [b]; simp [algEnabled, algEDDSA, a], b⟩
      · rintro ⟨a, b⟩
        rw [b] at a
        simp [algEnabled, algEDDSA] at a
        exact ⟨a, b⟩
    have hdig : ∀ c : Config, algEnabled c x.known.alg → ∀ c' : Config, algEnabled c' x.known.alg →
        ∀ t, digestOf c D t x.known.alg = digestOf c' D t x.known.alg := by
      intro c h c' h' t
      unfold digestOf hashFor
      rw [if_pos h, if_pos h']
    have hdn : ∀ c : Config, ¬ algEnabled c x.known.alg → ∀ t,
        digestOf c D t x.known.alg = .error .unsupportedSigningAlg := by
      intro c h t
      unfold digestOf hashFor
      rw [if_neg h]
    simp only [ed]
    by_cases h1 : algEnabled cfg x.known.alg
    · by_cases h2 : algEnabled cfg' x.known.alg
      · have hn : ¬ (algEnabled cfg x.known.alg ∧ ¬ algEnabled cfg' x.known.alg) := fun h => h.2 h2
        rw [if_neg hn, hdig cfg' h2 cfg h1]
        have e : (algEnabled cfg' x.known.alg ∧ x.known.alg = algEDDSA) ↔
            (algEnabled cfg x.known.alg ∧ x.known.alg = algEDDSA) :=
          ⟨fun h => ⟨h1, h.2⟩, fun h => ⟨h2, h.2⟩⟩
        simp only [e]
        by_cases hs : cfg.disableShortCircuit = false ∧ x.known.kid = some scKid
        · simp only [if_pos hs]
        simp only [if_neg hs]
        by_cases hed : algEnabled cfg x.known.alg ∧ x.known.alg = algEDDSA
        · simp only [if_pos hed]
          rw [hA.eddsa (by rw [← hed.2]; exact h2)]
        · simp only [if_neg hed]
          have hv := hA.verify x.known.alg h2 (fun h => hed ⟨h1, h⟩)
          simp only [hv]
      · have hp : algEnabled cfg x.known.alg ∧ ¬ algEnabled cfg' x.known.alg := ⟨h1, h2⟩
        have hn : ¬ (algEnabled cfg' x.known.alg ∧ x.known.alg = algEDDSA) := fun h => h2 h.1
        rw [if_pos hp, if_neg hn, hdn cfg' h2]
        by_cases hs : cfg.disableShortCircuit = false ∧ x.known.kid = some scKid
        · cases Opt.decodeOnly f <;> cases Opt.allowShortCircuit f <;> simp only [hs] <;> simp
        · cases Opt.decodeOnly f <;> simp only [hs] <;> simp
    · have h2 : ¬ algEnabled cfg' x.known.alg := fun h => h1 (hc.algs _ h)
      have hn : ¬ (algEnabled cfg x.known.alg ∧ ¬ algEnabled cfg' x.known.alg) := fun h => h1 h.1
      have n1 : ¬ (algEnabled cfg x.known.alg ∧ x.known.alg = algEDDSA) := fun h => h1 h.1
      have n2 : ¬ (algEnabled cfg' x.known.alg ∧ x.known.alg = algEDDSA) := fun h => h2 h.1
      rw [if_neg hn, if_neg n1, if_neg n2, hdn cfg' h2, hdn cfg h1]

/-- **C98 (short-circuit signatures).** A build without short-circuit signatures gives for every octet string the result
of the build with them, error code included, unless the message could be read and looked at and its kid is that of
short-circuit signatures; then it is a message like any other: its signature is given to the adapter, with that kid, and
no option refuses it. -/
theorem C98_short_circuit (f : Nat) (hP : P.maxTags ≤ 4) (hl : P.Local) (hargs : ArgsOk aad pay)
    (hc : NoShortCircuit cfg cfg') :
    resultWith cfg' P C junk me msg aad pay want f =
      match lookedAt cfg P msg pay f with
      | .error _ => resultWith cfg P C junk me msg aad pay want f
      | .ok x =>
        if x.known.kid = some scKid then
          if cfg.disableEDDSA = false ∧ x.known.alg = algEDDSA then
            if me.aux.cap < (sigStructure x.prot aad.bytes x.payload).length then .error .auxiliaryBufferSize
            else if Opt.decodeOnly f = true then .ok ()
            else if me.aux.isNull = true then .error .needAuxiliaryBuffer
            else C.verifyEddsa me.key (some scKid) (sigStructure x.prot aad.bytes x.payload) x.sig
          else if Opt.decodeOnly f = true then .ok ()
          else match digestIn cfg C aad pay x with
            | .error e => .error e
            | .ok d => C.verify x.known.alg me.key (some scKid) d x.sig
        else resultWith cfg P C junk me msg aad pay want f := by
  rw [resultWith_looked hP hl hargs, resultWith_looked hP hl hargs]
  obtain ⟨hw, rfl⟩ := hc
  have hlk : lookedAt { cfg with disableShortCircuit := true } P msg pay f = lookedAt cfg P msg pay f := rfl
  rw [hlk]
  cases hx : lookedAt cfg P msg pay f with
  | error e => rfl
  | ok x =>
    have hd : digestIn { cfg with disableShortCircuit := true } C aad pay x = digestIn cfg C aad pay x := by
      unfold digestIn
      rw [createTbsHash_eq, createTbsHash_eq]
      rfl
    simp only [hd, hw, Bool.true_eq_false, false_and, if_false, true_and]
    by_cases hk : x.known.kid = some scKid
    · simp only [if_pos hk]
      rw [hk]
      rfl
    · rw [if_neg hk, if_neg hk]

/-- Without the content type. -/
def plain (k : Known) : Known := { k with ctText := none, ctNum := none }

theorem readHeader_plain {prot : Bool} {h : Header} {k : Known} :
    (∃ e ∈ contentTypeFaults, readHeader false prot h k = .error e) ∨
      readHeader true prot h (plain k) = (readHeader false prot h k).map plain := by
  unfold readHeader plain
  simp only [if_true, Bool.false_eq_true, if_false]
  cases Spec.scan h [] ⟨k.ints, k.texts⟩ with
  | error e => exact .inr rfl
  | ok u =>
  cases readAlg prot h k.alg with
  | error e => exact .inr rfl
  | ok alg =>
  cases readBytes h 4 k.kid with
  | error e => exact .inr rfl
  | ok kid =>
  cases readBytes h 5 k.iv with
  | error e => exact .inr rfl
  | ok iv =>
  cases readBytes h 6 k.partialIv with
  | error e => exact .inr rfl
  | ok piv =>
  cases hct : readContentType h (k.ctText, k.ctNum) with
  | error e =>
    refine .inl ⟨e, ?_, rfl⟩
    unfold readContentType at hct
    unfold contentTypeFaults
    cases hg : Header.get h 3 with
    | none => rw [hg] at hct; cases hct
    | some x =>
      rw [hg] at hct
      simp only at hct
      cases ht : x.text? <;> cases hi : x.int64? <;> rw [ht, hi] at hct <;> simp only at hct
      · cases hct; simp
      · split at hct
        · cases hct; simp
        · split at hct <;> cases hct
          simp
      all_goals
        split at hct <;> cases hct
        simp
  | ok ct =>
    refine .inr ?_
    cases readCrit prot h (k.critInts, k.critTexts) with
    | error e => rfl
    | ok crit => rfl

theorem hdr_plain {prot : Bool} {h : Hdr} {k : Known} :
    (∃ e ∈ contentTypeFaults, h.read P false prot k = .error e) ∨
      h.read P true prot (plain k) = (h.read P false prot k).map plain := by
  cases h with
  | no e => exact .inr rfl
  | whole h => exact readHeader_plain
  | cut h s =>
    refine .inr ?_
    unfold Hdr.read plain
    simp only
    cases Spec.scan (Header.untag P h) [] ⟨k.ints, k.texts⟩ <;> rfl

theorem readAll_plain {det : Option Bytes} {xs : List Item} {last : Bytes} {fin : Option Err} :
    (∃ e ∈ contentTypeFaults, readAll P false det xs last fin = .error e) ∨
      readAll P true det xs last fin =
        (readAll P false det xs last fin).map fun x => { x with known := plain x.known } := by
  unfold readAll
  cases (xs[0]? : Option Item) with
  | none => exact .inr rfl
  | some x0 =>
    cases x0 with
    | bstr pb =>
      simp only
      rcases hdr_plain (P := P) (prot := true) (k := Known.nothing)
        (h := if pb = [] then Hdr.whole [] else headerIn P 13 pb) with ⟨e, he, h1⟩ | h1
      · exact .inl ⟨e, he, by rw [h1]⟩
      · have hp : plain Known.nothing = Known.nothing := rfl
        rw [hp] at h1
        rw [h1]
        cases (if pb = [] then Hdr.whole [] else headerIn P 13 pb).read P false true Known.nothing with
        | error e => exact .inr rfl
        | ok k =>
          simp only [Except.map]
          have tail : ∀ h' : Hdr,
              (∃ e ∈ contentTypeFaults, h'.read P false false k = .error e) ∨
                h'.read P true false (plain k) = (h'.read P false false k).map plain := fun h' => hdr_plain
          cases (xs[1]? : Option Item) with
          | none =>
            simp only
            rcases tail (if last = [] then .no .parameterCbor else headerIn P 14 last) with ⟨e, he, h2⟩ | h2
            · exact .inl ⟨e, he, by rw [h2]⟩
            · rw [h2]
              cases (if last = [] then Hdr.no .parameterCbor else headerIn P 14 last).read P false false k with
              | error e => exact .inr rfl
              | ok k =>
                refine .inr ?_
                simp only [Except.map]
                cases (xs[2]? : Option Item) with
                | none => rfl
                | some x2 =>
                  simp only
                  cases payloadAt P det (some x2) with
                  | error e => rfl
                  | ok p =>
                    cases (xs[3]? : Option Item) with
                    | none => rfl
                    | some x3 =>
                      simp only
                      cases stringAt P (some x3) with
                      | error e => rfl
                      | ok s => cases fin <;> rfl
          | some x1 =>
            simp only
            rcases tail (Hdr.of (x1.header? P)) with ⟨e, he, h2⟩ | h2
            · exact .inl ⟨e, he, by rw [h2]⟩
            · rw [h2]
              cases (Hdr.of (x1.header? P)).read P false false k with
              | error e => exact .inr rfl
              | ok k =>
                refine .inr ?_
                simp only [Except.map]
                cases (xs[2]? : Option Item) with
                | none => rfl
                | some x2 =>
                  simp only
                  cases payloadAt P det (some x2) with
                  | error e => rfl
                  | ok p =>
                    cases (xs[3]? : Option Item) with
                    | none => rfl
                    | some x3 =>
                      simp only
                      cases stringAt P (some x3) with
                      | error e => rfl
                      | ok s => cases fin <;> rfl
    | _ =>
      refine .inr ?_
      simp only
      split <;> rfl

/-- **C98 (content type).** For every octet string, a build without the content type gives the result of the build with
it, error code included, unless that one refuses the message for a content type that it cannot represent, or for a
parameter that is there twice. -/
theorem C98_content_type (f : Nat) (hP : P.maxTags ≤ 4) (hl : P.Local) (hargs : ArgsOk aad pay)
    (hc : NoContentType cfg cfg') :
    resultWith cfg' P C junk me msg aad pay want f = resultWith cfg P C junk me msg aad pay want f ∨
      ∃ e ∈ contentTypeFaults, resultWith cfg P C junk me msg aad pay want f = .error e := by
  rw [resultWith_looked hP hl hargs, resultWith_looked hP hl hargs]
  obtain ⟨hw, rfl⟩ := hc
  unfold lookedAt
  simp only [hw]
  by_cases hlen : maxMessage < msg.length
  · exact .inl (by simp only [if_pos hlen])
  simp only [if_neg hlen]
  cases messageAt P msg with
  | error e => exact .inl rfl
  | ok q =>
    obtain ⟨ts, xs, last, fin⟩ := q
    simp only
    by_cases h0 : ¬ TagPolicy f ts.reverse
    · exact .inl (by simp only [if_pos h0])
    simp only [if_neg h0]
    rcases readAll_plain (P := P) (det := pay.octets) (xs := xs) (last := last) (fin := fin) with
      ⟨e, he, h⟩ | h
    · exact .inr ⟨e, he, by rw [h]⟩
    · refine .inl ?_
      rw [h]
      cases readAll P false pay.octets xs last fin with
      | error e => rfl
      | ok x =>
        have hb : (plain x.known).blocked ↔ x.known.blocked := Iff.rfl
        have hd : digestIn { cfg with disableContentType := true } C aad pay { x with known := plain x.known } =
            digestIn cfg C aad pay x := by
          unfold digestIn
          rw [createTbsHash_eq, createTbsHash_eq]
          rfl
        simp only [Except.map, hb]
        by_cases h1 : Opt.requireKid f = true ∧ x.known.kid = none
        · have h1' : Opt.requireKid f = true ∧ (plain x.known).kid = none := h1
          rw [if_pos h1, if_pos h1']
        have h1' : ¬ (Opt.requireKid f = true ∧ (plain x.known).kid = none) := h1
        rw [if_neg h1, if_neg h1']
        by_cases h2 : Opt.unknownCritAllowed f = false ∧ x.known.blocked
        · rw [if_pos h2, if_pos h2]
        rw [if_neg h2, if_neg h2]
        simp only [hd]
        rfl

/-- **C98 (acceptance).** What a build accepts, the build without the content type accepts. -/
theorem C98_content_type_accepts (f : Nat) (hP : P.maxTags ≤ 4) (hl : P.Local) (hargs : ArgsOk aad pay)
    (hc : NoContentType cfg cfg') (h : resultWith cfg P C junk me msg aad pay want f = .ok ()) :
    resultWith cfg' P C junk me msg aad pay want f = .ok () := by
  rcases C98_content_type (cfg := cfg) (cfg' := cfg') (C := C) (junk := junk) (me := me) (want := want) f hP hl hargs hc
    with h' | ⟨e, _, h'⟩
  · rw [h', h]
  · rw [h'] at h; cases h

/-! ## The adapters of the repository -/

/-- The adapters do not depend on the other two switches. -/
theorem adapters_switches (cfg : Config) (L : Ossl.Lib) (M : Psa.Lib) (b : Bool) :
    Ossl.crypto { cfg with disableShortCircuit := b } L = Ossl.crypto cfg L ∧
    Ossl.crypto { cfg with disableContentType := b } L = Ossl.crypto cfg L ∧
    Psa.crypto { cfg with disableShortCircuit := b } M = Psa.crypto cfg M ∧
    Psa.crypto { cfg with disableContentType := b } M = Psa.crypto cfg M :=
  ⟨rfl, rfl, rfl, rfl⟩

/-- **C98 (PSA).** The PSA adapters of two builds are alike. -/
theorem C98_psa_alike {L : Psa.Lib} {D : Psa.HashAlg → Bytes → Bytes} {A : L.Op → Psa.HashAlg → Bytes → Prop}
    (hL : Spec.Psa.Hashing L D A) (N : Nat) (hc : FewerAlgorithms cfg cfg') (key : Key) :
    AlikeFor N cfg cfg' (Psa.crypto cfg L) (Psa.crypto cfg' L) (fun ha => D (Spec.Psa.hashTable ha)) key := by
  refine ⟨fun alg ha h => (psa_hashesUpTo hL N h).1, fun alg ha h => (psa_hashesUpTo hL N h).1, ?_, fun _ _ _ _ => rfl⟩
  intro alg h8 hne kid h s
  have h : Psa.sigAlg cfg' alg = Psa.sigAlg cfg alg := by
    have h9 := hc.algs alg h8
    rcases enabled_cases h8 with e | e | e | e | e | e | e <;> subst e <;>
      first
      | exact absurd rfl hne
      | simp_all [Psa.sigAlg, algEnabled, algES256, algES384, algES512, algPS256, algPS384, algPS512]
  show Psa.verify cfg' L alg key _ s = Psa.verify cfg L alg key _ s
  unfold Psa.verify
  rw [h]

theorem openssl_kind (hc : FewerAlgorithms cfg cfg') {alg : Int} (h8 : algEnabled cfg' alg) :
    algIsEcdsa cfg' alg = algIsEcdsa cfg alg ∧ algIsPss cfg' alg = algIsPss cfg alg := by
  have h9 := hc.algs alg h8
  constructor
  · rw [Bool.eq_iff_iff, ecdsa_iff, ecdsa_iff]
    exact ⟨fun h => ⟨h.1, h9⟩, fun h => ⟨h.1, h8⟩⟩
  · rw [Bool.eq_iff_iff, pss_iff, pss_iff]
    exact ⟨fun h => ⟨h.1, h9⟩, fun h => ⟨h.1, h8⟩⟩

theorem derBufSize_le (hc : FewerAlgorithms cfg cfg') : Ossl.derBufSize cfg' ≤ Ossl.derBufSize cfg := by
  have h4 := hc.algs (-35)
  have h5 := hc.algs (-36)
  unfold Ossl.derBufSize maxEcdsaSigSize
  simp [algEnabled] at h4 h5
  cases h : cfg'.disableES512 <;> cases h' : cfg'.disableES384 <;> cases g : cfg.disableES512 <;>
    cases g' : cfg.disableES384 <;> simp_all

/-- The signature in DER form is the same in both builds where it fits the buffer of the smaller one. -/
theorem coseToDer_fewer {L : Ossl.Lib} (hc : FewerAlgorithms cfg cfg') (hi : ∀ r s, L.i2d r s = some (derSig r s))
    {k : Nat} (hk : Spec.Ossl.keyOctets L k ≤ Spec.Ossl.largestKey cfg') (sig : Bytes) :
    Ossl.coseToDer L k sig (Ossl.derBufSize cfg') = Ossl.coseToDer L k sig (Ossl.derBufSize cfg) := by
  have hle := derBufSize_le hc
  unfold Ossl.coseToDer
  by_cases hn : sig.length ≠ Ossl.keySize L k * 2
  · simp only [if_pos hn]
  simp only [if_neg hn, hi]
  have hn := Decidable.not_not.mp hn
  generalize hder : derSig (Ossl.bin2bn (sig.take (Ossl.keySize L k)))
      (Ossl.bin2bn ((sig.drop (Ossl.keySize L k)).take (Ossl.keySize L k))) = der
  have h : der.length ≤ Ossl.derBufSize cfg' := by
    have e := Ossl.keySize_eq L k
    have h1 := Ossl.bin2bn_lt (sig.take (Ossl.keySize L k))
    have h2 := Ossl.bin2bn_lt ((sig.drop (Ossl.keySize L k)).take (Ossl.keySize L k))
    rw [show (sig.take (Ossl.keySize L k)).length = Ossl.keySize L k by rw [List.length_take]; omega] at h1
    rw [show ((sig.drop (Ossl.keySize L k)).take (Ossl.keySize L k)).length = Ossl.keySize L k by
      rw [List.length_take, List.length_drop]; omega] at h2
    have hlk : Spec.Ossl.largestKey cfg' ≤ 66 := by
      unfold Spec.Ossl.largestKey
      split
      · omega
      · split <;> omega
    have := Ossl.derSig_length h1 h2 (by omega)
    have hb := derBufSize_eq cfg'
    unfold Spec.Ossl.derRoom at hb
    rw [← hder]
    omega
  have e : (der.length > Ossl.derBufSize cfg' ∨ der = []) ↔ (der.length > Ossl.derBufSize cfg ∨ der = []) := by
    constructor
    · rintro (g | g)
      · omega
      · exact .inr g
    · rintro (g | g)
      · omega
      · exact .inr g
  simp only [e]

/-- **C98 (OpenSSL).** The OpenSSL adapters of two builds are alike with keys of a size that the smaller build was made for. -/
theorem C98_openssl_alike {L : Ossl.Lib} {D : Int → Bytes → Bytes} {A : L.Md → Int → Bytes → Prop}
    (hw : Spec.Ossl.Works L) (hi : ∀ r s, L.i2d r s = some (derSig r s)) (hL : Spec.Ossl.Hashing L D A) (N : Nat)
    (hc : FewerAlgorithms cfg cfg') {key : Key} (hk : Spec.Ossl.keyOctets L key.k ≤ Spec.Ossl.largestKey cfg') :
    AlikeFor N cfg cfg' (Ossl.crypto cfg L) (Ossl.crypto cfg' L) D key := by
  refine ⟨fun alg ha h => (openssl_hashesUpTo hw hL N h).1, fun alg ha h => (openssl_hashesUpTo hw hL N h).1, ?_,
    fun _ _ _ _ => rfl⟩
  intro alg h8 _ kid h s
  obtain ⟨k1, k2⟩ := openssl_kind hc h8
  show (Ossl.verify cfg' L alg key h s).1 = (Ossl.verify cfg L alg key h s).1
  have hcv : ∀ k, Ossl.keyConvert key = .ok k → k = key.k := by
    intro k h
    unfold Ossl.keyConvert at h
    split at h
    · cases h
    · split at h <;> cases h
      rfl
  unfold Ossl.verify Ossl.verifyConv Ossl.configure
  simp only [k1, k2]
  cases hkc : Ossl.keyConvert key with
  | error e => rfl
  | ok k =>
    rw [hcv k hkc]
    simp only [coseToDer_fewer hc hi hk]

theorem pieces_large (cfg : Config) (P : QParams) (msg : Bytes) (aad : UB) (pay : VPayload) (f : Nat) :
    ∃ N, ∀ x, foundIn cfg P msg pay f = some x → PiecesUpTo N x.prot aad.bytes x.payload := by
  cases h : foundIn cfg P msg pay f with
  | none => exact ⟨0, fun x hx => by cases hx⟩
  | some y =>
    refine ⟨12 + y.prot.length + aad.bytes.length + y.payload.length, fun x hx => ?_⟩
    cases hx
    unfold PiecesUpTo
    omega

/-- **C98 (algorithms, PSA).** With PSA, for all octet strings and keys. -/
theorem C98_psa {L : Psa.Lib} {D : Psa.HashAlg → Bytes → Bytes} {A : L.Op → Psa.HashAlg → Bytes → Prop}
    (hL : Spec.Psa.Hashing L D A) (f : Nat) (hP : P.maxTags ≤ 4) (hl : P.Local) (hargs : ArgsOk aad pay)
    (hc : FewerAlgorithms cfg cfg') :
    resultWith cfg' P (Psa.crypto cfg' L) junk me msg aad pay want f =
      match lookedAt cfg P msg pay f with
      | .error _ => resultWith cfg P (Psa.crypto cfg L) junk me msg aad pay want f
      | .ok x =>
        if algEnabled cfg x.known.alg ∧ ¬ algEnabled cfg' x.known.alg then
          if Opt.decodeOnly f = true then .ok ()
          else if (cfg.disableShortCircuit = false ∧ x.known.kid = some scKid) ∧ Opt.allowShortCircuit f = false then
            .error .shortCircuitSig
          else .error .unsupportedSigningAlg
        else resultWith cfg P (Psa.crypto cfg L) junk me msg aad pay want f :=
  let ⟨N, hN⟩ := pieces_large cfg P msg aad pay f
  C98_algorithms f hP hl hargs hc (C98_psa_alike hL N hc me.key) hN

/-- **C98 (algorithms, OpenSSL).** With OpenSSL, for all octet strings and keys of a size that the smaller build was made
for. -/
theorem C98_openssl {L : Ossl.Lib} {D : Int → Bytes → Bytes} {A : L.Md → Int → Bytes → Prop}
    (hw : Spec.Ossl.Works L) (hi : ∀ r s, L.i2d r s = some (derSig r s)) (hL : Spec.Ossl.Hashing L D A) (f : Nat)
    (hP : P.maxTags ≤ 4) (hl : P.Local) (hargs : ArgsOk aad pay) (hc : FewerAlgorithms cfg cfg')
    (hk : Spec.Ossl.keyOctets L me.key.k ≤ Spec.Ossl.largestKey cfg') :
    resultWith cfg' P (Ossl.crypto cfg' L) junk me msg aad pay want f =
      match lookedAt cfg P msg pay f with
      | .error _ => resultWith cfg P (Ossl.crypto cfg L) junk me msg aad pay want f
      | .ok x =>
        if algEnabled cfg x.known.alg ∧ ¬ algEnabled cfg' x.known.alg then
          if Opt.decodeOnly f = true then .ok ()
          else if (cfg.disableShortCircuit = false ∧ x.known.kid = some scKid) ∧ Opt.allowShortCircuit f = false then
            .error .shortCircuitSig
          else .error .unsupportedSigningAlg
        else resultWith cfg P (Ossl.crypto cfg L) junk me msg aad pay want f :=
  let ⟨N, hN⟩ := pieces_large cfg P msg aad pay f
  C98_algorithms f hP hl hargs hc (C98_openssl_alike hw hi hL N hc hk) hN

/-- A build with all algorithms, and one with ES256 only. -/
def es256Only : Config := { Config.full with
  disableES384 := true, disableES512 := true, disablePS256 := true, disablePS384 := true, disablePS512 := true,
  disableEDDSA := true }

theorem es256Only_fewer : FewerAlgorithms Config.full es256Only := by
  refine ⟨rfl, rfl, fun alg h => ?_⟩
  rcases enabled_cases h with e | e | e | e | e | e | e <;> subst e <;> decide

/-- Adapters that are alike. -/
example (N : Nat) (key : Key) :
    AlikeFor N Config.full es256Only (Psa.crypto Config.full mainPsa) (Psa.crypto es256Only mainPsa)
      (fun ha => mainPsaDigest (Spec.Psa.hashTable ha)) key :=
  C98_psa_alike (mainPsa_ready Config.full).hashing N es256Only_fewer key

example (N : Nat) :
    AlikeFor N Config.full es256Only (Ossl.crypto Config.full mainOssl) (Ossl.crypto es256Only mainOssl) mainDigest
      ⟨.openssl, 1⟩ :=
  C98_openssl_alike (mainOssl_ready Config.full).works (mainOssl_ready Config.full).i2d
    (mainOssl_ready Config.full).hashing N es256Only_fewer (by decide)

/-- The size of the key matters: with a key for P-521 the DER form of this signature does not fit the buffer of the smaller
build, although the algorithm is one of both. -/
example :
    (Ossl.verify Config.full mainOssl (-7) ⟨.openssl, 3⟩ [1] (List.replicate 132 1)).1 = .error .sigVerify ∧
    (Ossl.verify es256Only mainOssl (-7) ⟨.openssl, 3⟩ [1] (List.replicate 132 1)).1 = .error .sigFail := by
  decide +kernel

/-- Each switch changes something: an algorithm that is not there, the key id of short-circuit signatures, a content type
above 65535. -/
example :
    let r := fun cfg f m => resultWith cfg QParams.std toyCrypto noJunk (VerifyCtx.init 0) m .nil (.inline true) true f
    let es384 := toyMsg true [(.uint 1, .nint 34)] [] [1]
    let short := toyMsg true es256Hdr [(.uint 4, .bstr scKid)] [1]
    let ct := toyMsg true es256Hdr [(.uint 3, .uint 65536)] [1]
    (r Config.full 0 es384 == .error .unsupportedSigningAlg) = false ∧
    (r es256Only 0 es384, r es256Only 8 es384) = (.error .unsupportedSigningAlg, .ok ()) ∧
    r Config.full 0 short = .error .shortCircuitSig ∧
    r { Config.full with disableShortCircuit := true } 0 short = .ok () ∧
    r Config.full 0 ct = .error .badContentType ∧
    r { Config.full with disableContentType := true } 0 ct = .ok () := by
  decide +kernel

end TCose.Props
