import Verif.Props.AllOctets
import Verif.Props.History

/-!
# C95: all that verification leaves behind, for every octet string

C94 is about the result.  Here a reference program also says what is stored: the tags and the size of
the auxiliary buffer in the context, the parameters and the payload; and it is a machine for whole
histories of calls.
-/

namespace TCose.Props
open TCose Spec

variable (cfg : Config) (P : QParams) (C : Crypto) (junk junk' : Junk)
  (me : VerifyCtx) (msg : Bytes) (aad : UB) (pay : VPayload) (want want' : Bool)

/-- The parameters as octets and numbers. -/
structure ShownParams where
  alg : Int
  kid : Option Bytes
  iv : Option Bytes
  partialIv : Option Bytes
  ctText : Option Bytes
  ctNum : Nat
  deriving DecidableEq, Repr

/-- What a caller sees in the structure of parameters. -/
def seenIn (p : Params) : ShownParams :=
  ⟨p.alg, p.kid.map (·.bytes), p.iv.map (·.bytes), p.partialIv.map (·.bytes), p.ctTstr.map (·.bytes), p.ctUint⟩

/-- What is to be seen there when this was in the headers. -/
def toShow (k : Known) : ShownParams :=
  ⟨k.alg, k.kid, k.iv, k.partialIv, k.ctText, k.ctNum.getD noContentType⟩

/-- All that a call of verification does: its result, the context, the parameters and the payload, if they
are stored. -/
structure Effect where
  res : Except Err Unit
  ctx : VerifyCtx
  params : Option ShownParams
  payload : Option Bytes
  deriving DecidableEq

/-- A call that fails stores nothing outside the context. -/
def Effect.refused (e : Err) (me : VerifyCtx) : Effect := ⟨.error e, me, none, none⟩

/-- What a call did. -/
def effectOf (v : VRes) : Effect := ⟨v.res, v.ctx, v.params.map seenIn, v.payload.map (·.ub.bytes)⟩

/-- The array of tags in the context for the tags of a message, innermost first: without the first if it is
that of COSE_Sign1, up to the number that means none; and filled with this number to four. -/
def tagsLeft (ts : List Nat) : List Nat :=
  let l := (ts.take 1).filter (· != 18) ++ (ts.drop 1).takeWhile (· != noTag)
  l ++ List.replicate (4 - l.length) noTag

/-- When the size of the auxiliary buffer is stored: the checks of key id and critical parameters are passed, the
signature is of EdDSA and not a short-circuit one, and what is signed fits into the buffer. -/
def SizeStored (k : Known) (tbs : Bytes) : Prop :=
  ¬ (Spec.Opt.requireKid me.flags = true ∧ k.kid = none) ∧
  ¬ (Spec.Opt.unknownCritAllowed me.flags = false ∧ k.blocked) ∧
  ¬ (cfg.disableShortCircuit = false ∧ k.kid = some scKid) ∧
  (cfg.disableEDDSA = false ∧ k.alg = -8) ∧ tbs.length ≤ me.aux.cap

instance (k : Known) (tbs : Bytes) : Decidable (SizeStored cfg me k tbs) := by
  unfold SizeStored; infer_instance

/-- What becomes of any octets, and all that is stored, with `digest` for the hash. -/
def effectAll (digest : Found4 → Int → Except Err Bytes) : Effect :=
  if maxMessage < msg.length then .refused .sign1Format me
  else
    match messageAt P msg with
    | .error e => .refused e me
    | .ok (ts, xs, last, fin) =>
      if ¬ TagPolicy me.flags ts.reverse then .refused .incorrectlyTagged me
      else
        let me1 := { me with auTags := tagsLeft ts.reverse }
        match readAll P cfg.disableContentType pay.octets xs last fin with
        | .error e => .refused e me1
        | .ok f =>
          let tbs := sigStructure f.prot aad.bytes f.payload
          let me2 := if SizeStored cfg me f.known tbs then { me1 with auxSize := tbs.length } else me1
          match settle cfg C me f.known (digest f) tbs f.sig with
          | .error e => .refused e me2
          | .ok () => ⟨.ok (), me2, if want then some (toShow f.known) else none,
              if pay = .inline true then some f.payload else none⟩

theorem tagsLeft_eq (ts : List Nat) : padTags (restTags ts) = tagsLeft ts := by
  have : restTags ts = (ts.take 1).filter (· != 18) ++ (ts.drop 1).takeWhile (· != noTag) := by
    cases ts with
    | nil => rfl
    | cons t ts =>
      show (if t = 18 then ts.takeWhile (· != tagInvalid) else t :: ts.takeWhile (· != tagInvalid)) = _
      by_cases h : t = 18
      · rw [if_pos h]; subst h; rfl
      · rw [if_neg h]
        simp only [List.take_succ_cons, List.take_zero, List.drop_succ_cons, List.drop_zero]
        rw [List.filter_cons_of_pos (by simpa using h)]
        rfl
  unfold padTags tagsLeft
  rw [this]
  rfl

variable {cfg C me aad} in
theorem checkDecoded_nokid_ctx {x : Decoded} (h : Opt.requireKid me.flags = true ∧ x.params.kid = none) :
    (checkDecoded cfg C me aad x).2.1 = me := by
  unfold checkDecoded
  rw [if_pos (by rw [← opt_requireKid, h.1, h.2]; rfl)]

variable {cfg C me aad} in
theorem checkDecoded_crit_ctx {x : Decoded} (h : Opt.unknownCritAllowed me.flags = false)
    (hc : (checkCritical x.crit x.unk).1 ≠ .ok ()) : (checkDecoded cfg C me aad x).2.1 = me := by
  unfold checkDecoded
  split
  · rfl
  rw [if_neg (show ¬ hasFlag me.flags optUnknownCritAllowed = true by rw [← opt_unknownCritAllowed, h]; simp)]
  generalize checkCritical x.crit x.unk = q at hc ⊢
  obtain ⟨r, u⟩ := q
  cases r with
  | error e => rfl
  | ok _ => exact absurd rfl hc

variable {cfg C me aad} in
/-- The context after the signature is checked. -/
theorem checkDecoded_ctx {x : Decoded} {k : Known} (hk : KnownIs k x.params x.crit x.unk) (hcr : CrOk x.crit)
    (hunk : UnkOk x.unk) (hw : x.Wf aad) :
    (checkDecoded cfg C me aad x).2.1 =
      if SizeStored cfg me k (x.tbs aad) then { me with auxSize := (x.tbs aad).length } else me := by
  have hb := hk.blocked
  have hkid : x.params.kid = none ↔ k.kid = none := by
    rw [← hk.kid]; cases x.params.kid <;> simp
  by_cases h1 : Opt.requireKid me.flags = true ∧ k.kid = none
  · rw [if_neg (fun h : SizeStored cfg me k (x.tbs aad) => h.1 h1)]
    exact checkDecoded_nokid_ctx (by rw [hkid]; exact h1)
  by_cases hc : Opt.unknownCritAllowed me.flags = false ∧ k.blocked
  · rw [if_neg (fun h : SizeStored cfg me k (x.tbs aad) => h.2.1 hc)]
    exact checkDecoded_crit_ctx hc.1 (fun h => hb.mp h hc.2)
  have hpre : PreChecks me x := by
    constructor
    · intro h2 h3
      exact h1 ⟨h2, hkid.mp h3⟩
    · cases hf : Opt.unknownCritAllowed me.flags with
      | true => exact .inl rfl
      | false =>
        right
        rw [hb]
        exact fun hn => hc ⟨hf, hn⟩
  obtain ⟨r1, r2, r3⟩ := checkDecoded_run (cfg := cfg) (C := C) (aad := aad) hpre hcr hunk
  have hsc : isShortCircuit cfg x ↔ cfg.disableShortCircuit = false ∧ k.kid = some scKid := by
    rw [← hk.kid]
    unfold isShortCircuit
    cases x.params.kid with
    | none =>
      simp only [Option.map_none, reduceCtorEq, and_false, iff_false, not_and]
      intro _ h
      exact absurd h (by decide)
    | some s => simp [Str.ub, UB.bytes, shortCircuitKid, scKid]
  have hed : isEddsa cfg x ↔ cfg.disableEDDSA = false ∧ k.alg = -8 := by
    unfold isEddsa
    rw [hk.alg]
    rfl
  by_cases h2 : cfg.disableShortCircuit = false ∧ k.kid = some scKid
  · rw [if_neg (fun h : SizeStored cfg me k (x.tbs aad) => h.2.2.1 h2), r1 (hsc.mpr h2)]
  by_cases h3 : cfg.disableEDDSA = false ∧ k.alg = -8
  · rw [r2 (fun h => h2 (hsc.mp h)) (hed.mpr h3), verifyEddsa_eq hw]
    by_cases hcap : me.aux.cap < (x.tbs aad).length
    · rw [if_pos hcap, if_neg (fun h : SizeStored cfg me k (x.tbs aad) => absurd h.2.2.2.2 (by omega))]
    · rw [if_neg hcap, if_pos (show SizeStored cfg me k (x.tbs aad) from ⟨h1, hc, h2, h3, by omega⟩)]
  · rw [if_neg (fun h : SizeStored cfg me k (x.tbs aad) => h3 h.2.2.2.1), r3 (fun h => h2 (hsc.mp h)) (fun h => h3 (hed.mp h))]

variable {cfg P C junk me msg aad pay want} in
/-- A call that ends in the decoding. -/
theorem verify_fails_early {y : Err} {me' : VerifyCtx} (hP : P.maxTags ≤ 4) (hargs : ArgsOk aad pay)
    (h : (decodeErr ((Dec.init msg).enterArray P).err = .error y ∧ me' = me) ∨
      (((Dec.init msg).enterArray P).err = none ∧
        (processTags P me ((Dec.init msg).enterArray P) = (.error y, me', false) ∨
         (processTags P me ((Dec.init msg).enterArray P) = (.ok (), me', false) ∧
          (decodeBody cfg P ((Dec.init msg).enterArray P) pay junk).1 = .error y)))) :
    effectOf (verifyInternal cfg P C junk me msg aad pay want) = .refused y me' := by
  unfold verifyInternal
  simp only
  rcases h with ⟨h, rfl⟩ | ⟨h, h' | ⟨h', h2⟩⟩
  · rw [h]; rfl
  · rw [h, h']; rfl
  · rw [h, h']
    show effectOf (match decodeBody cfg P ((Dec.init msg).enterArray P) pay junk with
      | (.error x, st) => _
      | (.ok dec, _) => _) = _
    generalize decodeBody cfg P ((Dec.init msg).enterArray P) pay junk = q at h2
    obtain ⟨r, st⟩ := q
    cases h2
    rfl

/-- **C95.** Whatever the octets, options, keys and adapter: the result of verification and everything it
stores is what the reference program computes, and nothing undefined is done. -/
theorem C95_everything (hP : P.maxTags ≤ 4) (hl : P.Local) (hargs : ArgsOk aad pay) :
    effectOf (verifyInternal cfg P C junk me msg aad pay want) =
      (effectAll cfg P C me msg aad pay want fun f alg =>
        createTbsHash cfg C alg (.data f.prot) aad (pay.buffer f.payload) (maxHashSize cfg)) ∧
    (verifyInternal cfg P C junk me msg aad pay want).ub = false := by
  refine ⟨?_, C24_no_overrun cfg P C junk me msg aad pay want hP hargs⟩
  unfold effectAll
  by_cases hlen : maxMessage < msg.length
  · rw [if_pos hlen]
    exact verify_fails_early hP hargs (.inl ⟨octets_too_long hlen, rfl⟩)
  rw [if_neg hlen]
  have key := octets_decode (cfg := cfg) (P := P) (junk := junk) (pay := pay) hl (Nat.le_of_not_lt hlen)
  cases hm : messageAt P msg with
  | error e =>
    rw [hm] at key
    exact verify_fails_early hP hargs (.inl ⟨key, rfl⟩)
  | ok q =>
    obtain ⟨ts, xs, last, fin⟩ := q
    rw [hm] at key
    obtain ⟨herr, hvt, htl, key⟩ := key
    have htl' : ((Dec.init msg).enterArray P).tags.length ≤ P.maxTags := by
      rw [hvt, List.length_reverse]; exact htl
    simp only
    rcases processTags_eq (me := me) herr htl' hP with ⟨hpol, hq⟩ | ⟨hpol, hq⟩
    rotate_left
    · rw [hvt] at hpol
      rw [if_pos hpol]
      exact verify_fails_early hP hargs (.inr ⟨herr, .inl hq⟩)
    rw [hvt] at hpol hq
    rw [tagsLeft_eq] at hq
    rw [if_neg (by simpa using hpol)]
    cases hra : readAll P cfg.disableContentType pay.octets xs last fin with
    | error y =>
      rw [hra] at key
      exact verify_fails_early hP hargs (.inr ⟨herr, .inr ⟨hq, key⟩⟩)
    | ok f =>
      rw [hra] at key
      obtain ⟨v, dx, hview, hvtags, hx', hk, hxp, hxs, hxb, hpb⟩ := key
      obtain ⟨hdec, hw, htbs⟩ := found_decodes (junk := junk) hargs hview hx' hxp hxb hpb
      have hset := checkDecoded_settle (cfg := cfg) (C := C) (me := me.withTags v) hk hdec.crOk
        hdec.unkOk hw
      have hctx := checkDecoded_ctx (cfg := cfg) (C := C) (me := me.withTags v) hk hdec.crOk
        hdec.unkOk hw
      rw [htbs] at hset hctx
      have hwt : me.withTags v = { me with auTags := tagsLeft ts.reverse } := by
        unfold VerifyCtx.withTags
        rw [hvtags, tagsLeft_eq]
      rw [hxp, hxs, hxb] at hset
      rw [hwt] at hset hctx
      rw [verify_run hP hview (by rw [hvtags]; exact hpol) hdec, hwt]
      simp only
      have hset' : (checkDecoded cfg C { me with auTags := tagsLeft ts.reverse } aad dx).1 =
          settle cfg C me f.known (fun alg => createTbsHash cfg C alg (.data f.prot) aad (pay.buffer f.payload)
            (maxHashSize cfg)) (sigStructure f.prot aad.bytes f.payload) f.sig := hset
      have hctx' : (checkDecoded cfg C { me with auTags := tagsLeft ts.reverse } aad dx).2.1 =
          if SizeStored cfg me f.known (sigStructure f.prot aad.bytes f.payload) then
            { me with auTags := tagsLeft ts.reverse,
                      auxSize := (sigStructure f.prot aad.bytes f.payload).length }
          else { me with auTags := tagsLeft ts.reverse } := hctx
      rw [← hset', ← hctx']
      generalize checkDecoded cfg C { me with auTags := tagsLeft ts.reverse } aad dx = z
      obtain ⟨e, m, u⟩ := z
      cases e with
      | error e => rfl
      | ok _ =>
        simp only [effectOf, Effect.mk.injEq, true_and]
        constructor
        · cases want with
          | false => rfl
          | true =>
            simp only [if_true, Option.map_some, Option.some.injEq]
            unfold seenIn toShow
            rw [hk.alg, hk.kid, hk.iv, hk.partialIv, hk.ctText, hk.ctNum]
            rfl
        · split
          · simp only [Option.map_some, Option.some.injEq]
            rw [hxb, hpb]
          · rfl

/-- **C95 (test adapter).** With the test adapter the program can be run on every octet string: the hash is
SHA-256. -/
theorem C95_test (mode : Nat) (fresh : Bytes) (hfr : fresh.length = 64) (hP : P.maxTags ≤ 4)
    (hl : P.Local) (hargs : ArgsOk aad pay) (ha : aad.bytes.length < 2 ^ 32)
    (hd : ∀ p, pay.octets = some p → p.length < 2 ^ 32) :
    effectOf (verifyInternal cfg P (testCrypto cfg mode fresh) junk me msg aad pay want) =
      effectAll cfg P (testCrypto cfg mode fresh) me msg aad pay want
        (fun f => testDigest cfg mode (sigStructure f.prot aad.bytes f.payload)) := by
  rw [(C95_everything cfg P (testCrypto cfg mode fresh) junk me msg aad pay want hP hl hargs).1]
  unfold effectAll
  split
  · rfl
  rename_i hlen
  cases hm : messageAt P msg with
  | error e => rfl
  | ok q =>
    obtain ⟨ts, xs, last, fin⟩ := q
    simp only
    split
    · rfl
    cases hra : readAll P cfg.disableContentType pay.octets xs last fin with
    | error y => rfl
    | ok f =>
      simp only
      rw [settle_digest cfg (testCrypto cfg mode fresh) me
        (test_found_digest mode fresh hfr hargs ha hd hlen hm hra)]

/-- One octet string with the test adapter. -/
def effectRun (me : VerifyCtx) (b : Bytes) (det : Option Bytes) : Effect :=
  effectAll Config.full QParams.std (testCrypto Config.full 0 (List.replicate 64 7)) me b .nil
    (match det with | none => .inline true | some p => .detached (.data p)) true
    (fun f => testDigest Config.full 0 (sigStructure f.prot [] f.payload))

/-- A message with tags 900, 901 and 18 that has a key id; only decoded.  Its tags, parameters and payload are stored.
Cut off before the signature, only its tags; and if the tag is prohibited, nothing.  For EdDSA also the size of what is
signed. -/
example :
    let m : Bytes := [0xd9, 0x03, 0x84, 0xd9, 0x03, 0x85, 0xd2, 0x84, 0x43, 0xa1, 0x01, 0x26, 0xa1, 0x04, 0x41, 0x31,
      0x42, 0x05, 0x06, 0x40]
    let old : VerifyCtx := { VerifyCtx.init 8 with auTags := [1, 2, 3, 4], auxSize := 77 }
    effectRun old m none = ⟨.ok (), { old with auTags := [901, 900, noTag, noTag] },
      some ⟨-7, some [0x31], none, none, none, 65536⟩, some [5, 6]⟩ ∧
    effectRun old (m.take 18) none = .refused .cborNotWellFormed { old with auTags := [901, 900, noTag, noTag] } ∧
    effectRun { old with flags := 24 } m none = .refused .incorrectlyTagged { old with flags := 24 } ∧
    (effectRun old [0x84, 0x43, 0xa1, 0x01, 0x27, 0xa0, 0x41, 0x01, 0x40] none).ctx =
      { old with auTags := [noTag, noTag, noTag, noTag], auxSize := 19 } := by
  decide +kernel

/-! ## Histories -/

/-- What the call of a function on a verification context does, with what is in uninitialised memory then: the
context after it and what else it does. -/
def callDone (me : VerifyCtx) : Junk × VerifyCall → VerifyCtx × Option Effect
  | (_, .init flags) => (VerifyCtx.init flags, none)
  | (_, .setKey k) => (me.setKey k, none)
  | (_, .setAux m) => (me.setAux cfg m, none)
  | (j, .verify b wp wq) =>
    let v := sign1Verify cfg P C j me b wp wq
    (v.ctx, some (effectOf v))
  | (j, .verifyAad b aad wp wq) =>
    let v := sign1VerifyAad cfg P C j me b aad wp wq
    (v.ctx, some (effectOf v))
  | (j, .verifyDetached b aad p wq) =>
    let v := sign1VerifyDetached cfg P C j me b aad p wq
    (v.ctx, some (effectOf v))

/-- The reference program for a verification. -/
def effectRef (me : VerifyCtx) (b : Bytes) (aad : UB) (pay : VPayload) (want : Bool) : Effect :=
  effectAll cfg P C me b aad pay want fun f alg =>
    createTbsHash cfg C alg (.data f.prot) aad (pay.buffer f.payload) (maxHashSize cfg)

/-- The same for the reference program. -/
def callRef (me : VerifyCtx) : VerifyCall → VerifyCtx × Option Effect
  | .init flags => (⟨Key.null, flags, [0, 0, 0, 0], .null (2 ^ 64 - 1), 0⟩, none)
  | .setKey k => ({ me with key := k }, none)
  | .setAux m => (if cfg.disableEDDSA then me else { me with aux := m }, none)
  | .verify b wp wq =>
    let e := effectRef cfg P C me b (.null 0) (.inline wp) wq
    (e.ctx, some e)
  | .verifyAad b aad wp wq =>
    let e := effectRef cfg P C me b aad (.inline wp) wq
    (e.ctx, some e)
  | .verifyDetached b aad p wq =>
    let e := effectRef cfg P C me b aad (.detached p) wq
    (e.ctx, some e)

/-- Calls one after the other: the context after them and what each did. -/
def inTurn {α : Type} (step : VerifyCtx → α → VerifyCtx × Option Effect) (me : VerifyCtx) :
    List α → VerifyCtx × List (Option Effect)
  | [] => (me, [])
  | c :: cs =>
    let s := step me c
    let t := inTurn step s.1 cs
    (t.1, s.2 :: t.2)

/-- **C95 (history).** Any sequence of calls on a verification context does what the reference machine does, each of
them, and leaves the context the machine has. -/
theorem C95_history (hP : P.maxTags ≤ 4) (hl : P.Local) (calls : List (Junk × VerifyCall))
    (hok : ∀ c ∈ calls, CallOk c.2) :
    inTurn (callDone cfg P C) me calls = inTurn (callRef cfg P C) me (calls.map (·.2)) := by
  induction calls generalizing me with
  | nil => rfl
  | cons c cs ih =>
    obtain ⟨j, c⟩ := c
    have hc : CallOk c := hok _ (.head _)
    have key : callDone cfg P C me (j, c) = callRef cfg P C me c := by
      cases c with
      | init flags => rfl
      | setKey k => rfl
      | setAux m => rfl
      | verify b wp wq =>
        have := (C95_everything cfg P C j me b .nil (.inline wp) wq hP hl ⟨rfl, by intro p h; cases h⟩).1
        show ((effectOf _).ctx, some (effectOf _)) = _
        unfold sign1Verify
        rw [this]
        rfl
      | verifyAad b aad wp wq =>
        have := (C95_everything cfg P C j me b aad (.inline wp) wq hP hl ⟨hc, by intro p h; cases h⟩).1
        show ((effectOf _).ctx, some (effectOf _)) = _
        unfold sign1VerifyAad
        rw [this]
        rfl
      | verifyDetached b aad p wq =>
        have := (C95_everything cfg P C j me b aad (.detached p) wq hP hl
          ⟨hc.1, by intro p h; cases h; exact hc.2⟩).1
        show ((effectOf _).ctx, some (effectOf _)) = _
        unfold sign1VerifyDetached
        rw [this]
        rfl
    simp only [inTurn, List.map_cons]
    rw [key, ih _ (fun c h => hok c (.tail _ h))]

/-- Two messages after each other, with a tag required: the first has it and is accepted, the second has none and is
refused; the tags of the first stay in the context.  The size from an EdDSA message stays as well. -/
example :
    let r := inTurn (callRef Config.full QParams.std (testCrypto Config.full 0 (List.replicate 64 7)))
      (VerifyCtx.init 0)
      [.init 12, .verify [0xd9, 0x03, 0x84, 0xd2, 0x84, 0x43, 0xa1, 0x01, 0x27, 0xa0, 0x41, 0x01, 0x40] true true,
        .verify [0x84, 0x43, 0xa1, 0x01, 0x26, 0xa0, 0x41, 0x01, 0x40] true true]
    r.1.auTags = [900, noTag, noTag, noTag] ∧ r.1.auxSize = 19 ∧
    r.2.map (·.map (·.res)) = [none, some (.ok ()), some (.error .incorrectlyTagged)] := by
  decide +kernel

end TCose.Props
