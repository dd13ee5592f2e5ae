import Verif.Spec.EachOption
import Verif.Props.HeaderLine

/-!
# C97: what each option of verification changes

For every octet string: what the result is with an option, in terms of what it is without.
-/

namespace TCose.Props
open TCose Spec

variable (cfg : Config) (P : QParams) (C : Crypto) (junk : Junk)
  (me : VerifyCtx) (msg : Bytes) (aad : UB) (pay : VPayload) (want : Bool)

/-- The tags of the array that the octets begin with, innermost first. -/
def arrayTags : Option (List Nat) :=
  if maxMessage < msg.length then none
  else
    match messageAt P msg with
    | .error _ => none
    | .ok (ts, _) => some ts.reverse

/-- What is found in the octets, before kid and critical parameters are looked at. -/
def foundIn (flags : Nat) : Option Found4 :=
  if maxMessage < msg.length then none
  else
    match messageAt P msg with
    | .error _ => none
    | .ok (ts, xs, last, fin) =>
      if ¬ TagPolicy flags ts.reverse then none
      else
        match readAll P cfg.disableContentType pay.octets xs last fin with
        | .error _ => none
        | .ok f => some f

/-- The result with these options, all else as it is. -/
def resultWith (f : Nat) : Except Err Unit :=
  (verifyInternal cfg P C junk { me with flags := f } msg aad pay want).res

/-- The digest of what was signed. -/
def digestIn (f : Found4) : Except Err Bytes :=
  createTbsHash cfg C f.known.alg (.data f.prot) aad (pay.buffer f.payload) (maxHashSize cfg)

section
variable {cfg P C junk me msg aad pay want}

theorem resultWith_eq (hP : P.maxTags ≤ 4) (hl : P.Local) (hargs : ArgsOk aad pay) (f : Nat) :
    resultWith cfg P C junk me msg aad pay want f =
      verifyAll cfg P C { me with flags := f } msg aad pay fun f alg =>
        createTbsHash cfg C alg (.data f.prot) aad (pay.buffer f.payload) (maxHashSize cfg) :=
  C94_all_octets cfg P C junk { me with flags := f } msg aad pay want hP hl hargs

theorem settle_flags {f f' : Nat} {k : Known} {digest : Int → Except Err Bytes} {tbs sig : Bytes}
    (h1 : Opt.requireKid f = Opt.requireKid f') (h2 : Opt.unknownCritAllowed f = Opt.unknownCritAllowed f')
    (h3 : Opt.decodeOnly f = Opt.decodeOnly f') (h4 : Opt.allowShortCircuit f = Opt.allowShortCircuit f') :
    settle cfg C { me with flags := f } k digest tbs sig = settle cfg C { me with flags := f' } k digest tbs sig := by
  unfold settle
  simp only [h1, h2, h3, h4]

/-- **C97 (other bits).** Bits that are no option change nothing. -/
theorem C97_other_bits {f f' : Nat} (hP : P.maxTags ≤ 4) (hl : P.Local) (hargs : ArgsOk aad pay)
    (h : ∀ o : VOption, o.on f' = o.on f) :
    resultWith cfg P C junk me msg aad pay want f' = resultWith cfg P C junk me msg aad pay want f := by
  rw [resultWith_eq hP hl hargs, resultWith_eq hP hl hargs]
  have hpol : ∀ ts, TagPolicy f' ts ↔ TagPolicy f ts := by
    intro ts
    unfold TagPolicy
    rw [show Opt.tagRequired f' = _ from h .tagRequired, show Opt.tagProhibited f' = _ from h .tagProhibited]
    rfl
  unfold verifyAll
  simp only [hpol, settle_flags (cfg := cfg) (C := C) (me := me) (h .requireKid) (h .unknownCritAllowed)
    (h .decodeOnly) (h .allowShortCircuit)]

/-- **C97 (TAG_REQUIRED).** With it, octets that begin with an array whose innermost tag is not 18 are refused as wrongly tagged,
and in every other case the result is that without it. -/
theorem C97_tag_required {f f' : Nat} (hP : P.maxTags ≤ 4) (hl : P.Local) (hargs : ArgsOk aad pay)
    (h : VOption.tagRequired.Added f f') :
    resultWith cfg P C junk me msg aad pay want f' =
      match arrayTags P msg with
      | some ts => if ts.head? = some 18 then resultWith cfg P C junk me msg aad pay want f
          else .error .incorrectlyTagged
      | none => resultWith cfg P C junk me msg aad pay want f := by
  rw [resultWith_eq hP hl hargs, resultWith_eq hP hl hargs]
  have h1 : Opt.tagRequired f' = true := h.on
  have h2 : Opt.tagRequired f = false := h.off
  have h3 : Opt.tagProhibited f' = Opt.tagProhibited f := h.rest .tagProhibited (by decide)
  unfold verifyAll arrayTags
  by_cases hlen : maxMessage < msg.length
  · simp only [if_pos hlen]
  simp only [if_neg hlen]
  cases messageAt P msg with
  | error e => rfl
  | ok q =>
    obtain ⟨ts, xs, last, fin⟩ := q
    simp only [settle_flags (cfg := cfg) (C := C) (me := me) (h.rest .requireKid (by decide))
      (h.rest .unknownCritAllowed (by decide)) (h.rest .decodeOnly (by decide))
      (h.rest .allowShortCircuit (by decide)), TagPolicy, h1, h2, h3]
    generalize ts.reverse.head? = hd
    by_cases hd : hd = some 18
    · simp [hd]
    · simp [hd]

/-- **C97 (TAG_PROHIBITED).** With it, octets that begin with an array whose innermost tag is 18 are refused as wrongly tagged,
and in every other case the result is that without it. -/
theorem C97_tag_prohibited {f f' : Nat} (hP : P.maxTags ≤ 4) (hl : P.Local) (hargs : ArgsOk aad pay)
    (h : VOption.tagProhibited.Added f f') :
    resultWith cfg P C junk me msg aad pay want f' =
      match arrayTags P msg with
      | some ts => if ts.head? = some 18 then .error .incorrectlyTagged
          else resultWith cfg P C junk me msg aad pay want f
      | none => resultWith cfg P C junk me msg aad pay want f := by
  rw [resultWith_eq hP hl hargs, resultWith_eq hP hl hargs]
  have h1 : Opt.tagProhibited f' = true := h.on
  have h2 : Opt.tagProhibited f = false := h.off
  have h3 : Opt.tagRequired f' = Opt.tagRequired f := h.rest .tagRequired (by decide)
  unfold verifyAll arrayTags
  by_cases hlen : maxMessage < msg.length
  · simp only [if_pos hlen]
  simp only [if_neg hlen]
  cases messageAt P msg with
  | error e => rfl
  | ok q =>
    obtain ⟨ts, xs, last, fin⟩ := q
    simp only [settle_flags (cfg := cfg) (C := C) (me := me) (h.rest .requireKid (by decide))
      (h.rest .unknownCritAllowed (by decide)) (h.rest .decodeOnly (by decide))
      (h.rest .allowShortCircuit (by decide)), TagPolicy, h1, h2, h3]
    generalize ts.reverse.head? = hd
    by_cases hd : hd = some 18
    · simp [hd]
    · simp [hd]

/-- **C97 (REQUIRE_KID).** With it, what could be read to its end and has no key id is refused with NO_KID, and in every other
case the result is that without it. -/
theorem C97_require_kid {f f' : Nat} (hP : P.maxTags ≤ 4) (hl : P.Local) (hargs : ArgsOk aad pay)
    (h : VOption.requireKid.Added f f') :
    resultWith cfg P C junk me msg aad pay want f' =
      match foundIn cfg P msg pay f with
      | some x => if x.known.kid = none then .error .noKid else resultWith cfg P C junk me msg aad pay want f
      | none => resultWith cfg P C junk me msg aad pay want f := by
  rw [resultWith_eq hP hl hargs, resultWith_eq hP hl hargs]
  have h1 : Opt.requireKid f' = true := h.on
  have h2 : Opt.requireKid f = false := h.off
  have hpol : ∀ ts, TagPolicy f' ts ↔ TagPolicy f ts := by
    intro ts
    unfold TagPolicy
    rw [show Opt.tagRequired f' = _ from h.rest .tagRequired (by decide),
      show Opt.tagProhibited f' = _ from h.rest .tagProhibited (by decide)]
    rfl
  unfold verifyAll foundIn
  by_cases hlen : maxMessage < msg.length
  · simp only [if_pos hlen]
  simp only [if_neg hlen]
  cases messageAt P msg with
  | error e => rfl
  | ok q =>
    obtain ⟨ts, xs, last, fin⟩ := q
    simp only [hpol]
    by_cases h0 : ¬ TagPolicy f ts.reverse
    · simp only [if_pos h0]
    simp only [if_neg h0]
    cases readAll P cfg.disableContentType pay.octets xs last fin with
    | error e => rfl
    | ok x =>
      simp only
      unfold settle
      simp only [h1, h2, show Opt.unknownCritAllowed f' = Opt.unknownCritAllowed f from h.rest .unknownCritAllowed (by decide),
        show Opt.decodeOnly f' = Opt.decodeOnly f from h.rest .decodeOnly (by decide),
        show Opt.allowShortCircuit f' = Opt.allowShortCircuit f from h.rest .allowShortCircuit (by decide)]
      by_cases hk : x.known.kid = none
      · simp [hk]
      · simp [hk]

theorem lookedAt_flags {f f' : Nat}
    (h1 : Opt.requireKid f' = Opt.requireKid f) (h2 : Opt.unknownCritAllowed f' = Opt.unknownCritAllowed f)
    (h3 : Opt.tagRequired f' = Opt.tagRequired f) (h4 : Opt.tagProhibited f' = Opt.tagProhibited f) :
    lookedAt cfg P msg pay f' = lookedAt cfg P msg pay f := by
  have hpol : ∀ ts, TagPolicy f' ts ↔ TagPolicy f ts := by
    intro ts
    unfold TagPolicy
    rw [h3, h4]
  unfold lookedAt
  simp only [hpol, h1, h2]

/-- After `lookedAt`, only the signature is left. -/
theorem resultWith_looked (hP : P.maxTags ≤ 4) (hl : P.Local) (hargs : ArgsOk aad pay) (f : Nat) :
    resultWith cfg P C junk me msg aad pay want f =
      match lookedAt cfg P msg pay f with
      | .error e => .error e
      | .ok x =>
        if cfg.disableShortCircuit = false ∧ x.known.kid = some scKid then
          if Spec.Opt.decodeOnly f = true then .ok ()
          else if Spec.Opt.allowShortCircuit f = false then .error .shortCircuitSig
          else match digestIn cfg C aad pay x with
            | .error e => .error e
            | .ok d => if d <+: x.sig then .ok () else .error .sigVerify
        else if cfg.disableEDDSA = false ∧ x.known.alg = algEDDSA then
          if me.aux.cap < (sigStructure x.prot aad.bytes x.payload).length then .error .auxiliaryBufferSize
          else if Spec.Opt.decodeOnly f = true then .ok ()
          else if me.aux.isNull = true then .error .needAuxiliaryBuffer
          else C.verifyEddsa me.key x.known.kid (sigStructure x.prot aad.bytes x.payload) x.sig
        else
          if Spec.Opt.decodeOnly f = true then .ok ()
          else match digestIn cfg C aad pay x with
            | .error e => .error e
            | .ok d => C.verify x.known.alg me.key x.known.kid d x.sig := by
  rw [resultWith_eq hP hl hargs]
  unfold verifyAll lookedAt
  by_cases hlen : maxMessage < msg.length
  · simp only [if_pos hlen]
  simp only [if_neg hlen]
  cases messageAt P msg with
  | error e => rfl
  | ok q =>
    obtain ⟨ts, xs, last, fin⟩ := q
    simp only
    by_cases h0 : ¬ TagPolicy f ts.reverse
    · simp only [if_pos h0]
    simp only [if_neg h0]
    cases readAll P cfg.disableContentType pay.octets xs last fin with
    | error e => rfl
    | ok x =>
      simp only
      by_cases h1 : Spec.Opt.requireKid f = true ∧ x.known.kid = none
      · simp only [if_pos h1]
        unfold settle
        rw [if_pos h1]
      by_cases h2 : Spec.Opt.unknownCritAllowed f = false ∧ x.known.blocked
      · simp only [if_neg h1, if_pos h2]
        unfold settle
        rw [if_neg h1, if_pos h2]
      simp only [if_neg h1, if_neg h2]
      unfold settle
      rw [if_neg h1, if_neg h2]
      rfl

/-- **C97 (UNKNOWN_CRIT_ALLOWED).** Without it, what has a critical parameter that is unknown is refused, if nothing before that
check is wrong; in every other case the result is that with it. -/
theorem C97_unknown_crit {f f' : Nat} (hP : P.maxTags ≤ 4) (hl : P.Local) (hargs : ArgsOk aad pay)
    (h : VOption.unknownCritAllowed.Added f f') :
    resultWith cfg P C junk me msg aad pay want f =
      match lookedAt cfg P msg pay f' with
      | .ok x => if x.known.blocked then .error .unknownCriticalParameter
          else resultWith cfg P C junk me msg aad pay want f'
      | .error _ => resultWith cfg P C junk me msg aad pay want f' :=
  C22_exact cfg P C junk { me with flags := f } msg aad pay want f' hP hl hargs
    ⟨h.off, h.on, h.rest .requireKid (by decide), h.rest .tagRequired (by decide), h.rest .tagProhibited (by decide),
      h.rest .allowShortCircuit (by decide), h.rest .decodeOnly (by decide)⟩

/-- **C97 (ALLOW_SHORT_CIRCUIT).** It matters for messages with the key id of short-circuit signatures, if nothing before the
signature is wrong and not only decoding is asked for: without it they are refused, with it the signature has to begin
with the digest. -/
theorem C97_allow_short_circuit {f f' : Nat} (hP : P.maxTags ≤ 4) (hl : P.Local) (hargs : ArgsOk aad pay)
    (h : VOption.allowShortCircuit.Added f f') :
    match lookedAt cfg P msg pay f with
    | .ok x =>
      if (cfg.disableShortCircuit = false ∧ x.known.kid = some scKid) ∧ Spec.Opt.decodeOnly f = false then
        resultWith cfg P C junk me msg aad pay want f = .error .shortCircuitSig ∧
        resultWith cfg P C junk me msg aad pay want f' =
          match digestIn cfg C aad pay x with
          | .error e => .error e
          | .ok d => if d <+: x.sig then .ok () else .error .sigVerify
      else resultWith cfg P C junk me msg aad pay want f' = resultWith cfg P C junk me msg aad pay want f
    | .error _ => resultWith cfg P C junk me msg aad pay want f' = resultWith cfg P C junk me msg aad pay want f := by
  have h1 : Opt.allowShortCircuit f' = true := h.on
  have h2 : Opt.allowShortCircuit f = false := h.off
  have hd : Opt.decodeOnly f' = Opt.decodeOnly f := h.rest .decodeOnly (by decide)
  rw [resultWith_looked hP hl hargs, resultWith_looked hP hl hargs,
    lookedAt_flags (f' := f') (h.rest .requireKid (by decide)) (h.rest .unknownCritAllowed (by decide))
      (h.rest .tagRequired (by decide)) (h.rest .tagProhibited (by decide))]
  cases lookedAt cfg P msg pay f with
  | error e => rfl
  | ok x =>
    simp only [h1, h2, hd]
    by_cases hs : cfg.disableShortCircuit = false ∧ x.known.kid = some scKid
    · simp only [if_pos hs]
      cases Opt.decodeOnly f <;> simp [hs]
    · simp only [if_neg hs]
      rw [if_neg (fun h => hs h.1)]
      trivial

/-- **C97 (DECODE_ONLY).** With it everything is a success that was not refused before the signature, but for EdDSA messages without
room for what is signed; all other results are those without it. -/
theorem C97_decode_only {f f' : Nat} (hP : P.maxTags ≤ 4) (hl : P.Local) (hargs : ArgsOk aad pay)
    (h : VOption.decodeOnly.Added f f') :
    resultWith cfg P C junk me msg aad pay want f' =
      match lookedAt cfg P msg pay f with
      | .ok x =>
        if EddsaFound cfg x ∧ me.aux.cap < (sigStructure x.prot aad.bytes x.payload).length then
          resultWith cfg P C junk me msg aad pay want f
        else .ok ()
      | .error _ => resultWith cfg P C junk me msg aad pay want f := by
  have h1 : Opt.decodeOnly f' = true := h.on
  have h2 : Opt.decodeOnly f = false := h.off
  rw [resultWith_looked hP hl hargs, resultWith_looked hP hl hargs,
    lookedAt_flags (f' := f') (h.rest .requireKid (by decide)) (h.rest .unknownCritAllowed (by decide))
      (h.rest .tagRequired (by decide)) (h.rest .tagProhibited (by decide))]
  cases lookedAt cfg P msg pay f with
  | error e => rfl
  | ok x =>
    simp only [h1, h2, if_true]
    by_cases hs : cfg.disableShortCircuit = false ∧ x.known.kid = some scKid
    · rw [if_pos hs, if_neg (fun h => h.1.1 hs)]
    rw [if_neg hs]
    by_cases he : cfg.disableEDDSA = false ∧ x.known.alg = algEDDSA
    · by_cases hr : me.aux.cap < (sigStructure x.prot aad.bytes x.payload).length
      · rw [if_pos he, if_pos hr, if_pos ⟨⟨hs, he⟩, hr⟩, if_neg hs, if_pos he, if_pos hr]
      · rw [if_pos he, if_neg hr, if_neg (fun h => hr h.2)]
    · rw [if_neg he, if_neg (fun h => he h.1.2)]

/-- **C97.** Adding one option leaves the result as it is or changes it in its own way. -/
theorem C97_one_option (o : VOption) {f f' : Nat} (hP : P.maxTags ≤ 4) (hl : P.Local) (hargs : ArgsOk aad pay)
    (h : o.Added f f') :
    resultWith cfg P C junk me msg aad pay want f' = resultWith cfg P C junk me msg aad pay want f ∨
      o.changes (resultWith cfg P C junk me msg aad pay want f) (resultWith cfg P C junk me msg aad pay want f') := by
  cases o with
  | tagRequired =>
    have k := C97_tag_required (cfg := cfg) (C := C) (junk := junk) (me := me) (msg := msg) (want := want) hP hl hargs h
    unfold VOption.changes
    split at k
    · split at k
      · exact .inl k
      · exact .inr k
    · exact .inl k
  | tagProhibited =>
    have k := C97_tag_prohibited (cfg := cfg) (C := C) (junk := junk) (me := me) (msg := msg) (want := want) hP hl hargs h
    unfold VOption.changes
    split at k
    · split at k
      · exact .inr k
      · exact .inl k
    · exact .inl k
  | requireKid =>
    have k := C97_require_kid (cfg := cfg) (C := C) (junk := junk) (me := me) (msg := msg) (want := want) hP hl hargs h
    unfold VOption.changes
    split at k
    · split at k
      · exact .inr k
      · exact .inl k
    · exact .inl k
  | unknownCritAllowed =>
    have k := C97_unknown_crit (cfg := cfg) (C := C) (junk := junk) (me := me) (msg := msg) (want := want) hP hl hargs h
    unfold VOption.changes
    split at k
    · split at k
      · exact .inr k
      · exact .inl k.symm
    · exact .inl k.symm
  | allowShortCircuit =>
    have k := C97_allow_short_circuit (cfg := cfg) (C := C) (junk := junk) (me := me) (msg := msg) (want := want)
      hP hl hargs h
    unfold VOption.changes
    split at k
    · split at k
      · exact .inr k.1
      · exact .inl k
    · exact .inl k
  | decodeOnly =>
    have k := C97_decode_only (cfg := cfg) (C := C) (junk := junk) (me := me) (msg := msg) (want := want) hP hl hargs h
    unfold VOption.changes
    split at k
    · split at k
      · exact .inl k
      · exact .inr k
    · exact .inl k

end

/-- Every option can be added to no options. -/
example : VOption.allowShortCircuit.Added 0 1 ∧ VOption.requireKid.Added 0 2 ∧ VOption.tagRequired.Added 0 4 ∧
    VOption.decodeOnly.Added 0 8 ∧ VOption.tagProhibited.Added 0 16 ∧ VOption.unknownCritAllowed.Added 0 32 := by
  refine ⟨⟨?_, ?_, ?_⟩, ⟨?_, ?_, ?_⟩, ⟨?_, ?_, ?_⟩, ⟨?_, ?_, ?_⟩, ⟨?_, ?_, ?_⟩, ⟨?_, ?_, ?_⟩⟩ <;>
    first | decide | (intro o h; cases o <;> first | exact absurd rfl h | decide)

/-- Each of them does change something: a message without and with tag, with an unknown critical parameter, with a
signature of no use, with the key id of short-circuit signatures. -/
example :
    let r := fun f m => resultWith Config.full QParams.std toyCrypto noJunk (VerifyCtx.init 0) m .nil (.inline true) true f
    let plain := toyMsg false es256Hdr [] [1]
    let tagged := toyMsg true es256Hdr [] [1]
    let crit := toyMsg true [(.uint 1, .nint 6), (.uint 2, .arr [.uint 70]), (.uint 70, .null)] [] [1]
    let short := toyMsg true es256Hdr [(.uint 4, .bstr scKid)] [1]
    (r 0 plain, r 4 plain) = (.ok (), .error .incorrectlyTagged) ∧
    (r 0 tagged, r 16 tagged) = (.ok (), .error .incorrectlyTagged) ∧
    (r 0 plain, r 2 plain) = (.ok (), .error .noKid) ∧
    (r 0 crit, r 32 crit) = (.error .unknownCriticalParameter, .ok ()) ∧
    (r 0 short, r 8 short) = (.error .shortCircuitSig, .ok ()) ∧
    (r 0 short, (r 1 short).toOption.isSome || r 1 short == .error .sigVerify) = (.error .shortCircuitSig, true) := by
  decide +kernel

end TCose.Props
