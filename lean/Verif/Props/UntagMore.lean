import Verif.Props.Untag
import Verif.Props.AllCodes
import Verif.Props.Unprotected
import Verif.Props.RealAdapters

/-!
# C68, C70, C84 and C85 with tags on header parameters

As C88 does for C65: the restriction to messages without tags on the values of
the labels 1 to 6 is lifted.
-/

namespace TCose.Props
open TCose Spec

theorem fitsAll_map {f : Item → Item} {d : Nat} {xs : List Item} (h : Spec.fitsAll d xs = true)
    (hf : ∀ x, x.fits d = true → (f x).fits d = true) : Spec.fitsAll d (xs.map f) = true := by
  induction xs with
  | nil => rfl
  | cons x xs ih =>
    simp only [Spec.fitsAll, List.map_cons, Bool.and_eq_true] at h ⊢
    exact ⟨hf x h.1, ih h.2⟩

theorem fits_untag {P : QParams} {d : Nat} {x : Item} (h : x.fits d = true) :
    (x.untag P).fits d = true := by
  have hb := Item.bare_fits x h
  by_cases hlive : x.bare.live
  rotate_left
  · rcases unread_cases (untag_dead (P := P) hlive).1 with h | h <;> rw [h] <;> rfl
  rw [untag_live hlive]
  split
  · exact h
  · split
    · rfl
    · split
      · rename_i he; rw [he] at hb; exact hb
      · rename_i he; rw [he] at hb; exact hb
      · split
        · exact hb
        · rfl
        · rfl

theorem fits_untagParam {P : QParams} {d : Nat} {x : Item} (h : x.fits d = true) :
    (x.untagParam P).fits d = true := by
  have hu := fits_untag (P := P) h
  unfold Item.untagParam
  split
  · rename_i xs he
    rw [he] at hu
    simp only [Item.fits, Bool.and_eq_true, List.length_map] at hu ⊢
    exact ⟨hu.1, fitsAll_map hu.2 fun _ => fits_untag⟩
  · exact hu

theorem fits_untagHeader {P : QParams} {d : Nat} {h : Header} (hf : (Header.item h).fits d = true) :
    (Header.item (Header.untag P h)).fits d = true := by
  unfold Header.item Header.untag at *
  simp only [Item.fits, Bool.and_eq_true, List.length_map] at hf ⊢
  refine ⟨hf.1, ?_⟩
  have := hf.2
  clear hf
  induction h with
  | nil => rfl
  | cons p r ih =>
    simp only [List.map_cons, fitsPairs, Bool.and_eq_true] at this ⊢
    exact ⟨⟨this.1.1, fits_untagParam this.1.2⟩, ih this.2⟩

section
variable (cfg : Config) (P : QParams) (C : Crypto) (junk : Junk) (me : VerifyCtx) (m : Message)
  (pb msg : Bytes) (aad : UB) (pay : VPayload) (want : Bool)

/-- **C84 (tags).** Whenever a message is accepted, what is left of its headers follows the rules
of RFC 8152 — and no critical parameter is present and unknown, unless that was allowed — or
deviates in one of the six ways of `Message.Deviates`. -/
theorem C84_tagged (hP : P.maxTags ≤ 4) (hl : P.Local) (he : m.Encoded pb msg) (hf : m.Fits P msg)
    (hargs : ArgsOk aad pay)
    (h : (verifyInternal cfg P C junk me msg aad pay want).res = .ok ()) :
    (m.untag P).Deviates cfg.disableContentType ∨
      ((m.untag P).Valid ∧ (Opt.unknownCritAllowed me.flags = false → (m.untag P).NoUnknownCrit)) :=
  shown_deviates cfg P C junk me m pb msg aad pay want hP he hf (untag_msg hl he) hargs
    (fits_untagHeader hf.prot) (fits_untagHeader hf.unprot) h

/-- **C85_partial (tags).** When a message is accepted, what is left of the parameters of its
protected header is returned, whatever is in the unprotected header.  Missing: as in
`C85_kept_partial`. -/
theorem C85_tagged_partial (hP : P.maxTags ≤ 4) (hl : P.Local) (he : m.Encoded pb msg)
    (hf : m.Fits P msg) (hargs : ArgsOk aad pay)
    (h : (verifyInternal cfg P C junk me msg aad pay true).res = .ok ()) :
    ∃ p, (verifyInternal cfg P C junk me msg aad pay true).params = some p ∧
      Kept cfg.disableContentType (Header.untag P m.prot) p :=
  shown_kept cfg P C junk me m pb msg aad pay hP he hf (untag_msg hl he) hargs h

/-- **C85 (tags).** `C85_replaced` with any tags in any of the headers. -/
theorem C85_replaced_tagged (u : Header) (msg' : Bytes) (hP : P.maxTags ≤ 4) (hl : P.Local)
    (he : m.Encoded pb msg) (hf : m.Fits P msg) (hargs : ArgsOk aad pay)
    (he' : Message.Encoded { m with unprot := u } pb msg')
    (hf' : Message.Fits { m with unprot := u } P msg') (hC : KidBlind C)
    (h : (verifyInternal cfg P C junk me msg aad pay want).res = .ok ())
    (hsc : ∀ k k', (m.untag P).read cfg.disableContentType = .ok k →
      (Message.untag P { m with unprot := u }).read cfg.disableContentType = .ok k' →
      cfg.disableShortCircuit = false → (k'.kid = some scKid ↔ k.kid = some scKid)) :
    (verifyInternal cfg P C junk me msg' aad pay want).res = .ok () ↔
      ∃ k', (Message.untag P { m with unprot := u }).read cfg.disableContentType = .ok k' ∧
        (Spec.Opt.requireKid me.flags = true → k'.kid ≠ none) ∧
        (Spec.Opt.unknownCritAllowed me.flags = false → ¬ k'.blocked) :=
  shown_replaced cfg P C junk me m pb msg aad pay want u msg' hP he hf (untag_msg hl he) hargs he' hf'
    (shown_untag hl fun p hp => (he'.unprot_entries p hp).elim fun _ h => h.real) hC h hsc

/-- **C68 (no algorithm, tags).** A message of which no algorithm is left and that has no other
fault is refused with UNSUPPORTED_SIGNING_ALG, whatever the adapter. -/
theorem C68_no_alg_tagged {k : Known} (hP : P.maxTags ≤ 4) (hl : P.Local) (he : m.Encoded pb msg)
    (hf : m.Fits P msg) (hargs : ArgsOk aad pay) (htag : TagPolicy me.flags m.tags.reverse)
    (hr : (m.untag P).read cfg.disableContentType = .ok k)
    (hpf : m.payloadFault pay.isDetached = none)
    (hkid : Spec.Opt.requireKid me.flags = true → k.kid ≠ none)
    (hcrit : Spec.Opt.unknownCritAllowed me.flags = true ∨ ¬ k.blocked)
    (hsc : Spec.Opt.allowShortCircuit me.flags = true ∨ k.kid ≠ some scKid)
    (hd : Spec.Opt.decodeOnly me.flags = false)
    (ha : Header.get (Header.untag P m.prot) 1 = none) :
    (verifyInternal cfg P C junk me msg aad pay want).res = .error .unsupportedSigningAlg :=
  shown_no_alg hP he hf (untag_msg hl he) hargs htag hr hpf hkid hcrit hsc hd ha

/-- **C70 (verify, test adapter, tags).** -/
theorem C70_verify_test_tagged (mode : Nat) (fresh : Bytes) (hfr : fresh.length = 64)
    (hP : P.maxTags ≤ 4) (hl : P.Local) (he : m.Encoded pb msg) (hf : m.Fits P msg)
    (hargs : ArgsOk aad pay) (hN : PiecesUpTo (2 ^ 32 - 1) pb aad.bytes (payloadOf m pay)) :
    (verifyInternal cfg P (testCrypto cfg mode fresh) junk me msg aad pay want).res =
      verdict cfg (testCrypto cfg mode fresh) me (m.untag P) pb aad pay (payloadOf m pay)
        (testDigest cfg mode (sigStructure pb aad.bytes (payloadOf m pay))) :=
  shown_verify_test cfg P junk me m pb msg aad pay want mode fresh hfr hP he hf (untag_msg hl he)
    hargs hN

/-- **C70 (verify, OpenSSL, tags).** -/
theorem C70_verify_openssl_tagged (L : Ossl.Lib)
    (hdg : ∀ md, (L.digestFinal md).2.length ≤ digestRoom cfg)
    (hP : P.maxTags ≤ 4) (hl : P.Local) (he : m.Encoded pb msg) (hf : m.Fits P msg)
    (hargs : ArgsOk aad pay) :
    ∃ parts, parts.flatten = sigStructure pb aad.bytes (payloadOf m pay) ∧
      (verifyInternal cfg P (Ossl.crypto cfg L) junk me msg aad pay want).res =
        verdict cfg (Ossl.crypto cfg L) me (m.untag P) pb aad pay (payloadOf m pay) (fun alg =>
          match hashFor cfg alg with
          | none => .error .unsupportedSigningAlg
          | some h => Spec.Ossl.hashRun L h parts) :=
  shown_verify_openssl cfg P junk me m pb msg aad pay want L hdg hP he hf (untag_msg hl he) hargs

/-- **C70 (verify, PSA, tags).** -/
theorem C70_verify_psa_tagged (L : Psa.Lib) (hP : P.maxTags ≤ 4) (hl : P.Local)
    (he : m.Encoded pb msg) (hf : m.Fits P msg) (hargs : ArgsOk aad pay) :
    ∃ parts, parts.flatten = sigStructure pb aad.bytes (payloadOf m pay) ∧
      (verifyInternal cfg P (Psa.crypto cfg L) junk me msg aad pay want).res =
        verdict cfg (Psa.crypto cfg L) me (m.untag P) pb aad pay (payloadOf m pay) (fun alg =>
          match hashFor cfg alg with
          | none => .error .unsupportedSigningAlg
          | some h => Spec.Psa.coded Spec.Psa.hashTableCodes .hashGeneralFail
              (Spec.Psa.hashRun L (Spec.Psa.hashTable h) parts (digestRoom cfg)).1
              (Spec.Psa.hashRun L (Spec.Psa.hashTable h) parts (digestRoom cfg)).2) :=
  shown_verify_psa cfg P junk me m pb msg aad pay want L hP he hf (untag_msg hl he) hargs

end

/-- The tags of `tagMsg` do not matter under `QParams.std`, so what is left follows the rules and is
returned. -/
example : tagMsg.Encoded tagPb tagEnc ∧ tagMsg.Fits QParams.std tagEnc ∧ QParams.std.Local ∧
    ¬ (Header.Plain tagMsg.prot) ∧
    (sign1Verify Config.full QParams.std toyCrypto noJunk (VerifyCtx.init 8) tagEnc true true).res = .ok () := by
  refine ⟨tag_encoded, ⟨by decide, by decide, by decide, by decide⟩, fun _ _ _ => rfl, ?_, by decide +kernel⟩
  intro h
  have := h 1 _ (.head _) (by decide) (by decide)
  cases this.1

end TCose.Props
