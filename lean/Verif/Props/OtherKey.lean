import Verif.Spec.OtherKey
import Verif.Props.OtherSig

/-!
# C110: the key of the verifier
-/

namespace TCose.Props
open TCose Spec

/-- The same with another key in the context. -/
def Effect.withKey (E : Effect) (key : Key) : Effect := { E with ctx := { E.ctx with key := key } }

/-- How `settle` uses the key. -/
theorem settle_key (cfg : Config) (C : Crypto) (me : VerifyCtx) (k : Known) (d : Int → Except Err Bytes) (t s : Bytes) :
    KeyUse cfg C (Opt.decodeOnly me.flags) (fun key => settle cfg C { me with key := key } k d t s) := by
  unfold settle
  dsimp only
  by_cases h1 : Opt.requireKid me.flags = true ∧ k.kid = none
  · simp only [if_pos h1]; exact .unused _
  simp only [if_neg h1]
  by_cases h2 : Opt.unknownCritAllowed me.flags = false ∧ k.blocked
  · simp only [if_pos h2]; exact .unused _
  simp only [if_neg h2]
  by_cases h3 : cfg.disableShortCircuit = false ∧ k.kid = some scKid
  · simp only [if_pos h3]
    exact .unused (if Opt.decodeOnly me.flags = true then .ok ()
      else if Opt.allowShortCircuit me.flags = false then .error .shortCircuitSig
      else match d k.alg with
        | .error e => .error e
        | .ok d => if d <+: s then .ok () else .error .sigVerify)
  simp only [if_neg h3]
  by_cases he : cfg.disableEDDSA = false ∧ k.alg = algEDDSA
  · simp only [if_pos he]
    by_cases h4 : me.aux.cap < t.length
    · simp only [if_pos h4]; exact .unused _
    simp only [if_neg h4]
    by_cases hd : Opt.decodeOnly me.flags = true
    · simp only [if_pos hd]; exact .unused _
    simp only [if_neg hd]
    by_cases h5 : me.aux.isNull = true
    · simp only [if_pos h5]; exact .unused _
    simp only [if_neg h5]
    exact .whole _ _ _ (by simpa using hd) he.1
  · simp only [if_neg he]
    by_cases hd : Opt.decodeOnly me.flags = true
    · simp only [if_pos hd]; exact .unused _
    simp only [if_neg hd]
    cases d k.alg with
    | error e => exact .unused _
    | ok h => exact .hash _ _ h _ (by simpa using hd)

variable {cfg : Config} {P : QParams} {C : Crypto} {junk : Junk} {me : VerifyCtx} {b : Bytes}
  {aad : UB} {pay : VPayload} {want : Bool}

/-- **C110.** Any octets, verified with any two keys: the key is used in one way, and the calls do the same except for what
comes of that.  The context keeps the key it had. -/
theorem C110_other_key (hP : P.maxTags ≤ 4) (hl : P.Local) (hargs : ArgsOk aad pay) :
    ∃ g E, KeyUse cfg C (Opt.decodeOnly me.flags) g ∧
      ∀ key, effectOf (verifyInternal cfg P C junk { me with key := key } b aad pay want) =
        (Effect.judged (g key) E).withKey key := by
  have h := fun key => (C95_everything cfg P C junk { me with key := key } b aad pay want hP hl hargs).1
  simp only [h]
  unfold effectAll
  by_cases hm : maxMessage < b.length
  · simp only [if_pos hm]
    exact ⟨fun _ => .error .sign1Format, .refused .sign1Format me, .unused _, fun _ => rfl⟩
  simp only [if_neg hm]
  cases messageAt P b with
  | error e => exact ⟨fun _ => .error e, .refused e me, .unused _, fun _ => rfl⟩
  | ok q =>
    obtain ⟨ts, xs, last, fin⟩ := q
    simp only
    by_cases hp : TagPolicy me.flags ts.reverse
    rotate_left
    · simp only [if_pos hp]
      exact ⟨fun _ => .error .incorrectlyTagged, .refused .incorrectlyTagged me, .unused _, fun _ => rfl⟩
    simp only [if_neg (not_not_intro hp)]
    cases readAll P cfg.disableContentType pay.octets xs last fin with
    | error e => exact ⟨fun _ => .error e, .refused e { me with auTags := tagsLeft ts.reverse }, .unused _, fun _ => rfl⟩
    | ok f =>
      simp only
      refine ⟨_, ⟨.ok (), (if SizeStored cfg me f.known (sigStructure f.prot aad.bytes f.payload) then
          { me with auTags := tagsLeft ts.reverse, auxSize := (sigStructure f.prot aad.bytes f.payload).length }
          else { me with auTags := tagsLeft ts.reverse }), if want = true then some (toShow f.known) else none,
        if pay = .inline true then some f.payload else none⟩,
        settle_key cfg C me f.known (fun alg => createTbsHash cfg C alg (.data f.prot) aad (pay.buffer f.payload)
          (maxHashSize cfg)) (sigStructure f.prot aad.bytes f.payload) f.sig, fun key => ?_⟩
      have hst : SizeStored cfg { me with key := key } f.known (sigStructure f.prot aad.bytes f.payload) ↔
        SizeStored cfg me f.known (sigStructure f.prot aad.bytes f.payload) := Iff.rfl
      simp only [hst]
      generalize settle cfg C { me with key := key } f.known (fun alg => createTbsHash cfg C alg (.data f.prot) aad
        (pay.buffer f.payload) (maxHashSize cfg)) (sigStructure f.prot aad.bytes f.payload) f.sig = r
      by_cases hq : SizeStored cfg me f.known (sigStructure f.prot aad.bytes f.payload)
      · simp only [if_pos hq]; cases r <;> rfl
      · simp only [if_neg hq]; cases r <;> rfl

/-- **C110.** So if only decoding is asked for, or if a message is accepted with both keys, the two calls do the same; and
what they leave in the context is the same, but for the key. -/
theorem C110_stored (hP : P.maxTags ≤ 4) (hl : P.Local) (hargs : ArgsOk aad pay) (key : Key) :
    let before := effectOf (verifyInternal cfg P C junk me b aad pay want)
    let after := effectOf (verifyInternal cfg P C junk { me with key := key } b aad pay want)
    after.ctx = { before.ctx with key := key } ∧ (Opt.decodeOnly me.flags = true → after = before.withKey key) ∧
    (before.res = .ok () → after.res = .ok () → after = before.withKey key) := by
  intro before after
  obtain ⟨g, E, hj, h⟩ := C110_other_key (cfg := cfg) (C := C) (junk := junk) (me := me) (b := b) (want := want) hP hl hargs
  have h1 : before = (Effect.judged (g me.key) E).withKey me.key := h me.key
  have h2 : after = (Effect.judged (g key) E).withKey key := h key
  refine ⟨?_, fun hd => ?_, fun g1 g2 => ?_⟩
  · rw [h1, h2]
    simp only [Effect.withKey, judged_ctx]
  · rw [hd] at hj
    rw [h1, h2]
    cases hj with
    | unused r => rfl
    | hash _ _ _ _ hf => cases hf
    | whole _ _ _ hf _ => cases hf
  · rw [h1] at g1
    rw [h2] at g2
    rw [h1, h2]
    cases e1 : g me.key with
    | error e => rw [e1] at g1; cases g1
    | ok _ =>
      cases e2 : g key with
      | error e => rw [e2] at g2; cases g2
      | ok _ => rfl

/-- An adapter for which only the key with the number 1 is right. -/
def keyedCrypto : Crypto :=
  { toyCrypto with verify := fun _ key _ h s => if key.k = 1 ∧ s = toySig h then .ok () else .error .sigVerify }

/-- The right key and a wrong one; with decoding alone the key does not matter. -/
example :
    let v := fun flags k => (verifyInternal Config.full QParams.std keyedCrypto noJunk
      { VerifyCtx.init flags with key := { lib := .openssl, k := k } } (devBytes [devAlg] []) (.null 0) (.inline true) true).res
    (v 0 1, v 0 2) = (.ok (), .error .sigVerify) ∧ (v 8 1, v 8 2) = (.ok (), .ok ()) := by
  decide +kernel

end TCose.Props
