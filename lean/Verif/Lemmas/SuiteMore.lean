import Verif.TestCode.SuiteMore
import Verif.Props.Suite
import Verif.Props.Nested
import Verif.Props.History

/-! Helper lemmas for C72: signing and verifying with short-circuit signatures. -/

namespace TCose
open Spec TestMsg Props SuiteTest

/-- A message up to the head of the signature. -/
def beforeSig (tag : Bool) (kid : Option Bytes) (ct : ContentType) (payload : Option Bytes) : Bytes :=
  (if tag then Spec.head 6 18 else []) ++ (Spec.head 4 4 ++ ((Item.bstr (protectedHeader (-7))).enc ++
    ((unprotectedHeader kid ct).enc ++
      (match payload with | some p => Item.bstr p | Option.none => Item.null).enc)))

theorem coseSign1_split (tag : Bool) (kid : Option Bytes) (ct : ContentType) (payload : Option Bytes)
    (s : Bytes) :
    (coseSign1 tag (-7) kid ct payload s).enc = beforeSig tag kid ct payload ++ (Item.bstr s).enc := by
  unfold coseSign1 beforeSig
  cases tag
  · cases payload <;> simp [Item.enc, encList]
  · cases payload <;> simp [Item.enc, encList]

theorem bstr64 {s : Bytes} (hs : s.length = 64) : (Item.bstr s).enc = [0x58, 0x40] ++ s := by
  have h64 : Spec.head 2 64 = [0x58, 0x40] := by decide
  simp [Item.enc, hs, h64]

/-- The message behind outer tags. -/
def scMessage (ts : List Nat) (tag : Bool) (kid : Option Bytes) (ct : ContentType)
    (payload : Option Bytes) (s : Bytes) : Bytes :=
  (ts.map (Spec.head 6)).flatten ++ (beforeSig tag kid ct payload ++ ([0x58, 0x40] ++ s))

/-- The short-circuit signature with a digest of 32 octets. -/
theorem doubled {d : Bytes} (hd : d.length = 32) :
    (List.replicate 64 d).flatten.take 64 = d ++ d := by
  rw [show (64 : Nat) = 62 + 1 + 1 from rfl, List.replicate_succ, List.replicate_succ,
    List.flatten_cons, List.flatten_cons, ← List.append_assoc]
  rw [List.take_append_of_le_length (by simp; omega), List.take_of_length_le (by simp; omega)]

theorem prefix_doubled {d d' : Bytes} (h : d.length = 32) (h' : d'.length = 32) :
    d' <+: d ++ d ↔ d' = d := by
  constructor
  · intro hp
    have := List.prefix_iff_eq_take.mp hp
    rw [h', ← h, List.take_left] at this
    exact this
  · rintro rfl
    exact List.prefix_append _ _

/-- The adapter hashes with `D`, which gives 32 octets. -/
structure Digests32 (cfg : Config) (C : Crypto) (D : Bytes → Bytes) : Prop where
  as : HashesUpTo 4294967295 C (-16) (digestRoom cfg) D
  len : ∀ b, (D b).length = 32

variable {cfg : Config} {C : Crypto} {D : Bytes → Bytes} {junk : Junk}

theorem Digests32.hashes (hD : Digests32 cfg C D) : Hashes 4294967295 cfg C (fun _ => D) (-7) := by
  intro ha h
  have : hashFor cfg (-7) = some (-16) := by
    unfold hashFor hashOf; simp
  rw [this] at h
  cases h
  exact ⟨hD.as, fun b hb => by have h32 := hD.len b; rw [show D b = [] from hb] at h32; cases h32⟩

theorem Digests32.tbs (hD : Digests32 cfg C D) {me : SignCtx} (halg : me.alg = -7) (w a : Bytes) :
    toBeSignedHash cfg (fun _ => D) me w a = .ok (D (sigStructure (protectedHeader (-7)) a w)) := by
  have : hashFor cfg (-7) = some (-16) := by
    unfold hashFor hashOf; simp
  unfold toBeSignedHash toBeSigned
  rw [halg, this]

/-- Octets of the message before the head of the signature. -/
abbrev startOf (cfg : Config) (me : SignCtx) (det : Bool) (w : Bytes) : Bytes :=
  beforeSig (!Spec.Opt.omitTag me.flags) (specKid me) (specCt cfg me) (if det then none else some w)

theorem begun_start {me : SignCtx} (halg : me.alg = -7) (det : Bool) (w : Bytes) :
    begun cfg me det w = (startOf cfg me det w).length - 1 := by
  unfold begun finished startOf
  rw [halg, coseSign1_split, List.length_append]
  have : (Item.bstr []).enc.length = 1 := by decide
  rw [this]
  omega

theorem finished_start {me : SignCtx} (halg : me.alg = -7) (det : Bool) (w : Bytes) {s : Bytes}
    (hs : s.length = 64) :
    finished cfg me det w s = startOf cfg me det w ++ ([0x58, 0x40] ++ s) := by
  unfold finished
  rw [halg, coseSign1_split, bstr64 hs]

theorem start_pos (tag : Bool) (kid : Option Bytes) (ct : ContentType) (payload : Option Bytes) :
    1 ≤ (beforeSig tag kid ct payload).length := by
  have : (Spec.head 4 4).length = 1 := by decide
  simp only [beforeSig, List.length_append, this]
  omega

theorem makeSig_sc (hD : Digests32 cfg C D) {me : SignCtx} (halg : me.alg = -7)
    (hfl : Spec.Opt.shortCircuit me.flags = true) (w a x : Bytes) {n : Nat} (hn : 64 ≤ n) :
    makeSig C me w a (.ok (D x)) n = .ok (D x ++ D x) := by
  unfold makeSig
  rw [if_pos hfl, halg]
  have h64 : scOctets (-7) = 64 := rfl
  simp only [h64]
  rw [if_neg (by omega), doubled (hD.len _)]

/-- Signing in one call. -/
theorem sc_sign (hD : Digests32 cfg C D) (hfit : SignFits C) {me : SignCtx} (halg : me.alg = -7)
    (hfl : Spec.Opt.shortCircuit me.flags = true) (hf : ctxFault cfg me = none) (det : Bool)
    (w : Bytes) (a : UB) (ha : a.wf) (m : Bytes) (hw : w.length ≤ 1000) (hal : a.bytes.length ≤ 1000)
    (hlen : (startOf cfg me det w).length + 66 ≤ m.length)
    (hm : (startOf cfg me det w).length ≤ 1000) :
    (signAadInternal cfg C me det (.data w) a (.buf m)).1 =
      .ok (.data (startOf cfg me det w ++ ([0x58, 0x40] ++
        (D (sigStructure (protectedHeader (-7)) a.bytes w) ++
          D (sigStructure (protectedHeader (-7)) a.bytes w))))) := by
  have hpos := start_pos (!Spec.Opt.omitTag me.flags) (specKid me) (specCt cfg me)
    (if det then none else some w)
  rw [C67_sign (N := 4294967295) cfg C (fun _ => D) me det (.data w) a hfit (by rw [halg]; exact hD.hashes) m rfl ha
    (by
      rw [halg]
      exact ⟨by decide, by decide, by omega, by show w.length ≤ _; omega⟩)
    (fun _ => rfl) (by rw [begun_start halg]; show (startOf cfg me det w).length - 1 < _; omega)]
  rw [show (UB.data w).bytes = w from rfl, hD.tbs halg]
  unfold outcome
  rw [hf]
  simp only
  rw [begun_start halg, if_neg (by omega), if_neg (by omega),
    makeSig_sc hD halg hfl _ _ _ (by omega)]
  simp only
  have h64 : ∀ x, (D x ++ D x).length = 64 := by intro x; simp [hD.len]
  rw [finished_start halg _ _ (h64 _), if_neg]
  · rfl
  · simp [h64]
    omega

theorem runOps_tags : ∀ (ts : List Nat) (e : Enc), runOps (ts.map .tag) e = ts.foldl Enc.addTag e
  | [], _ => rfl
  | t :: ts, e => by
    have := runOps_tags ts (e.addTag t)
    simpa [runOps, EncOp.run] using this

/-- Signing in two steps, behind tags. -/
theorem sc_two_step (hD : Digests32 cfg C D) (hfit : SignFits C) {me : SignCtx} (halg : me.alg = -7)
    (hfl : Spec.Opt.shortCircuit me.flags = true) (hf : ctxFault cfg me = none) (ts : List Nat)
    (cs : List Content) (m : Bytes) (hd : fitsAll cs 13 = true) (hn : cs.length ≤ 1000)
    (hw : (encAll cs).length ≤ 1000) (hts : (ts.map (Spec.head 6)).flatten.length ≤ 1000)
    (hk : me.kid.bytes.length + (me.contentTypeTstr.getD []).length ≤ 1000)
    (hlen : (ts.map (Spec.head 6)).flatten.length + (startOf cfg me false (encAll cs)).length + 66
      ≤ m.length) :
    makeTwoStep cfg C me ts cs m =
      .ok (scMessage ts (!Spec.Opt.omitTag me.flags) (specKid me) (specCt cfg me) (some (encAll cs))
        (D (sigStructure (protectedHeader (-7)) [] (encAll cs)) ++
          D (sigStructure (protectedHeader (-7)) [] (encAll cs)))) := by
  have hpos := start_pos (!Spec.Opt.omitTag me.flags) (specKid me) (specCt cfg me)
    (some (encAll cs))
  have h := C71_tagged (N := 4294967295) cfg C (fun _ => D) me hfit (by rw [halg]; exact hD.hashes)
    ts m cs .nil rfl (by rw [halg]; exact ⟨by decide, by decide, by decide, by omega⟩) (by omega) hd
    (by omega) (by omega)
  rw [hf] at h
  simp only at h
  obtain ⟨me1, e1, h1, h2⟩ := h
  have h64 : ∀ x, (D x ++ D x).length = 64 := by intro x; simp [hD.len]
  rw [hD.tbs halg] at h2
  have hst : (startOf cfg me false (encAll cs)).length = (beforeSig (!Spec.Opt.omitTag me.flags)
    (specKid me) (specCt cfg me) (some (encAll cs))).length := rfl
  rw [show secondCall cfg C me (encAll cs) UB.nil.bytes _ (ts.map (Spec.head 6)).flatten.length
    m.length = _ from by
      unfold secondCall
      rw [begun_start halg, if_neg (by omega), if_neg (by omega),
        makeSig_sc hD halg hfl _ _ _ (by omega)]] at h2
  simp only at h2
  obtain ⟨me2, e2, h3, h4⟩ := h2
  rw [finished_start halg _ _ (h64 _)] at h4
  rw [if_neg (by simp only [List.length_append, h64, List.length_cons, List.length_nil]; omega)] at h4
  unfold makeTwoStep
  simp only
  rw [← runOps_tags, h1]
  simp only
  rw [show sign1EncodeSignature cfg C me1 (runAll cs e1) = _ from h3]
  simp only
  unfold callerFinish at h4
  cases hfin : e2.finish with
  | error x =>
    rw [hfin] at h4
    split at h4 <;> cases h4
  | ok r =>
    rw [hfin] at h4
    split at h4 <;> first
      | (cases h4; done)
      | (cases h4; rfl)

/-- A message like the ones the tests make. -/
def scMsg (ts : List Nat) (tag : Bool) (ct : ContentType) (payload : Option Bytes) (s : Bytes) :
    Message :=
  { signedMessage tag (-7) (some scKid) ct payload s with
    tags := ts ++ (if tag then [18] else []) }

theorem tagged_encodes {x : Item} {b : Bytes} (h : Encodes x b) : ∀ (ts : List Nat),
    (∀ t ∈ ts, t < 2 ^ 64) → Encodes (tagged ts x) ((ts.map (Spec.head 6)).flatten ++ b)
  | [], _ => h
  | t :: ts, ht => by
    have := tagged_encodes h ts (fun t h => ht t (by simp [h]))
    rw [List.map_cons, List.flatten_cons, List.append_assoc]
    exact .tag (head_of (ht t (by simp))) this

theorem tagged_append (x : Item) (a b : List Nat) : tagged (a ++ b) x = tagged a (tagged b x) := by
  unfold tagged
  rw [List.foldr_append]

theorem sc_encoded {ts : List Nat} (hts : ∀ t ∈ ts, t < 2 ^ 64) {tag : Bool} {ct : ContentType}
    {payload : Option Bytes} {s : Bytes} (hs : s.length = 64)
    (hlen : (beforeSig tag (some scKid) ct payload).length ≤ 1000)
    (hct : ∀ n, ct = .num n → n ≤ 65535) :
    (scMsg ts tag ct payload s).Encoded (protectedHeader (-7))
      (scMessage ts tag (some scKid) ct payload s) := by
  have h := signed_encoded (tag := tag) (alg := -7) (kid := some scKid) (ct := ct) (payload := payload)
    (sig := s) (by unfold InInt64; decide) (by
      rw [coseSign1_split, bstr64 hs]
      simp only [List.length_append, List.length_cons, List.length_nil]; omega) hct
  rw [coseSign1_split, bstr64 hs] at h
  refine ⟨h.1, ?_⟩
  unfold scMsg scMessage
  simp only
  rw [tagged_append]
  exact tagged_encodes h.2 ts hts

theorem sc_fits {ts : List Nat} (hn : ts.length ≤ 3) {tag : Bool} {ct : ContentType}
    {payload : Option Bytes} {s : Bytes} (hs : s.length = 64)
    (hlen : (beforeSig tag (some scKid) ct payload).length ≤ 1000) :
    (scMsg ts tag ct payload s).Fits QParams.std (scMessage ts tag (some scKid) ct payload s) := by
  have hhl : ∀ t : Nat, (Spec.head 6 t).length ≤ 9 := by
    intro t
    rw [← encodeHead_eq_head]
    exact encodeHead_length_le 6 t
  have hhs : ∀ l : List Nat, (l.map (Spec.head 6)).flatten.length ≤ 9 * l.length := by
    intro l
    induction l with
    | nil => simp
    | cons t l ih =>
      have := hhl t
      simp only [List.map_cons, List.flatten_cons, List.length_append, List.length_cons]
      omega
  have hml : (scMessage ts tag (some scKid) ct payload s).length ≤ 4294967293 := by
    have := hhs ts
    unfold scMessage
    simp only [List.length_append, List.length_cons, List.length_nil, hs]
    omega
  have hf0 := signed_fits (P := QParams.std) (tag := tag) (alg := -7) (kid := some scKid) (ct := ct)
    (payload := payload) (sig := s) (msg := scMessage ts tag (some scKid) ct payload s)
    (by unfold InInt64; decide) hml (by decide)
  refine ⟨hf0.size, ?_, hf0.prot, hf0.unprot⟩
  show (ts ++ (if tag then [18] else [])).length ≤ 4
  cases tag <;> simp <;> omega

theorem sc_plain (ts : List Nat) (tag : Bool) (ct : ContentType) (payload : Option Bytes) (s : Bytes) :
    Header.Plain (scMsg ts tag ct payload s).prot ∧ Header.Plain (scMsg ts tag ct payload s).unprot := by
  refine ⟨plainB_ok ?_, plainB_ok ?_⟩
  · show plainB [(.int 1, Spec.int (-7))] = true
    decide
  · show plainB (signedUnprot (some scKid) ct) = true
    cases ct <;> rfl

/-- A message that is not tagged as it should be. -/
theorem sc_untagged (junk : Junk) {ts : List Nat} (hts : ∀ t ∈ ts, t < 2 ^ 64) (hn : ts.length ≤ 3)
    {tag : Bool} {ct : ContentType} {payload : Option Bytes} {s : Bytes} (hs : s.length = 64)
    (hlen : (beforeSig tag (some scKid) ct payload).length ≤ 1000)
    (hct : ∀ n, ct = .num n → n ≤ 65535) (wp : Bool) (me : VerifyCtx)
    (hpol : ¬ TagPolicy me.flags (scMsg ts tag ct payload s).tags.reverse) (want : Bool) :
    (verifyInternal cfg QParams.std C junk me (scMessage ts tag (some scKid) ct payload s) .nil
      (.inline wp) want).res = .error .incorrectlyTagged := by
  obtain ⟨h, -⟩ := verdict_run (cfg := cfg) C junk me want (pay := .inline wp) (aad := .nil) (by decide)
    (sc_encoded hts hs hlen hct) (sc_fits hn hs hlen) (sc_plain ..).1 (sc_plain ..).2
    ⟨rfl, fun p hp => by cases hp⟩
  exact h hpol

/-- The tags that are reported. -/
theorem sc_tags (junk : Junk) {ts : List Nat} (hts : ∀ t ∈ ts, t < 2 ^ 64) (hn : ts.length ≤ 3)
    {tag : Bool} {ct : ContentType} {payload : Option Bytes} {s : Bytes} (hs : s.length = 64)
    (hlen : (beforeSig tag (some scKid) ct payload).length ≤ 1000)
    (hct : ∀ n, ct = .num n → n ≤ 65535) (wp : Bool) (me : VerifyCtx)
    (h1 : me.flags.testBit 2 = false) (h2 : me.flags.testBit 4 = false)
    (hinv : noTag ∉ (ts ++ if tag then [18] else [])) (want : Bool) (n : Nat) (hn4 : n ≠ 4) :
    (verifyInternal cfg QParams.std C junk me (scMessage ts tag (some scKid) ct payload s) .nil
      (.inline wp) want).ctx.getNthTag n =
      some ((enclosing (ts ++ if tag then [18] else []).reverse)[n]?.getD noTag) := by
  have hf := sc_fits hn (tag := tag) (ct := ct) (payload := payload) hs hlen
  obtain ⟨v, hview, htags, -⟩ := message_view (sc_encoded hts hs hlen hct) hf
  obtain ⟨-, n', c1, e0, e1, e2, e3, cEnd, mm, cE1, hen, -⟩ := id hview
  have := C57_reported_partial cfg QParams.std C junk (by decide) me _ .nil (.inline wp) want hf.size
    n' v.tags c1 hen (by rw [h1]; intro h; cases h) (by rw [h2]; intro h; cases h)
    (by rw [htags]; exact fun h => hinv (List.mem_reverse.mp h)) n hn4
  rw [this, htags]
  rfl

/-- The outcome of checking a short-circuit signature. -/
def scOutcome (flags : Nat) (d s : Bytes) : Except Err Unit :=
  if Spec.Opt.decodeOnly flags = true then .ok ()
  else if Spec.Opt.allowShortCircuit flags = false then .error .shortCircuitSig
  else if d <+: s then .ok () else .error .sigVerify

/-- Verifying a message like the ones the tests make. -/
theorem sc_verify (junk : Junk) (hsc : cfg.disableShortCircuit = false) (hD : Digests32 cfg C D) {ts : List Nat}
    (hts : ∀ t ∈ ts, t < 2 ^ 64) (hn : ts.length ≤ 3) {tag : Bool} {ct : ContentType}
    {payload : Option Bytes} {s : Bytes} (hs : s.length = 64)
    (hlen : (beforeSig tag (some scKid) ct payload).length ≤ 1000)
    (hct : ∀ n, ct = .num n → n ≤ 65535) {pay : VPayload}
    (hpf : (scMsg ts tag ct payload s).payloadFault pay.isDetached = none) {w : Bytes}
    (hpay : payloadUb (scMsg ts tag ct payload s) pay = .data w) (hw : w.length ≤ 1000)
    {aad : UB} (ha : aad.wf) (hal : aad.bytes.length ≤ 1000) {k : Known}
    (hk : (scMsg ts tag ct payload s).read cfg.disableContentType = .ok k)
    (hkid : k.kid = some scKid) (halg : k.alg = -7) (hb : ¬ k.blocked) (me : VerifyCtx)
    (hpol : TagPolicy me.flags (scMsg ts tag ct payload s).tags.reverse) (want : Bool) :
    (verifyInternal cfg QParams.std C junk me (scMessage ts tag (some scKid) ct payload s) aad pay
      want).res = scOutcome me.flags (D (sigStructure (protectedHeader (-7)) aad.bytes w)) s ∧
    ((verifyInternal cfg QParams.std C junk me (scMessage ts tag (some scKid) ct payload s) aad pay
      want).res = .ok () →
      (verifyInternal cfg QParams.std C junk me (scMessage ts tag (some scKid) ct payload s) aad pay
        want).payload.map (·.ub.bytes) = (if pay = .inline true then some w else none) ∧
      (want = true →
        (verifyInternal cfg QParams.std C junk me (scMessage ts tag (some scKid) ct payload s) aad pay
          want).params.map (·.ctUint) = some (k.ctNum.getD 65536) ∧
        ((verifyInternal cfg QParams.std C junk me (scMessage ts tag (some scKid) ct payload s) aad pay
          want).params.bind (·.ctTstr)).map (·.bytes) = k.ctText)) := by
  have hf := sc_fits hn (tag := tag) (ct := ct) (payload := payload) hs hlen
  have hw' : (payloadUb (scMsg ts tag ct payload s) pay).bytes = w := by rw [hpay]; rfl
  have hpo : payloadOf (scMsg ts tag ct payload s) pay = w := by rw [← hw']; cases pay <;> rfl
  obtain ⟨hp1, hp2⟩ := sc_plain ts tag ct payload s
  have hargs : ArgsOk aad pay := by
    refine ⟨ha, fun p hp => ?_⟩
    subst hp
    rw [show p = .data w from hpay]
    rfl
  obtain ⟨-, h⟩ := verdict_run (cfg := cfg) C junk me want (pay := pay) (aad := aad) (by decide)
    (sc_encoded hts hs hlen hct) hf hp1 hp2 hargs
  have h := h hpol
  rw [hk] at h
  simp only at h
  rw [hpf] at h
  simp only at h
  obtain ⟨x, hx, hxp, hres, hout⟩ := h
  refine ⟨?_, fun hok => ?_⟩
  · rw [hres, hpay]
    have hh : createTbsHash cfg C (-7) (.data (protectedHeader (-7))) aad (.data w) (maxHashSize cfg) =
        .ok (D (sigStructure (protectedHeader (-7)) aad.bytes w)) := by
      have h1 : hashAlgOfSigAlg cfg (-7) = -16 := by simp [hashAlgOfSigAlg, algES256, algSHA256]
      rw [maxHashSize_eq]
      exact createTbsHash_works (p := .data _) (w := .data w) (by rw [h1]; decide)
        (by rw [h1]; exact hD.as) rfl ha rfl
        ⟨by decide, by decide, by omega, by show w.length ≤ _; omega⟩
    unfold settle scOutcome
    rw [hkid, if_neg (by simp), if_neg (fun h => hb h.2), if_pos ⟨hsc, rfl⟩, halg]
    simp only [hh]
    rfl
  · obtain ⟨o1, o2⟩ := hout hok
    rw [o1, o2]
    refine ⟨?_, ?_⟩
    · split
      · simp only [Option.map_some, hxp, hpo]
      · rfl
    · rintro rfl
      refine ⟨?_, ?_⟩
      · simp only [if_true, Option.map_some, hx.ctNum]
      · simp only [if_true, Option.bind_some, hx.ctText]

end TCose
