import Verif.Props.AuxBuffer
import Verif.Lemmas.Tbs

/-!
# C32, C33, C34 (verification), C40
-/

namespace TCose.Props
open TCose Spec

variable (cfg : Config) (P : QParams) (C : Crypto) (junk : Junk) (me : VerifyCtx)
  (msg : Bytes) (aad : UB) (pay : VPayload) (want : Bool)

/-! ## C34 -/

/-- **C34 (verification).** If a verification (not decode-only) reports success,
every step below it did: the message decoded (it has a view), the hash calls
succeeded and the verification call (for short-circuit signatures the comparison)
succeeded, or for EdDSA the serialisation and the verification call did.  So an
error of any of them is never turned into success. -/
theorem C34_verify (hP : P.maxTags ≤ 4) (hargs : ArgsOk aad pay)
    (hd : Spec.Opt.decodeOnly me.flags = false)
    (h : (verifyInternal cfg P C junk me msg aad pay want).res = .ok ()) :
    ∃ v i a, IsView P msg v ∧ v.alg = some i ∧ Int32Of i a ∧
      ((∃ d, HashGives cfg C a d ∧ (scVerify d v.sig.bytes = .ok () ∨
          C.verify a me.key (v.kid.map (·.bytes)) d v.sig.bytes = .ok ())) ∨
       (∃ w t, (createTbs (.data v.prot.bytes) aad w me.aux).1 = .ok t ∧
          C.verifyEddsa me.key (v.kid.map (·.bytes)) t.bytes v.sig.bytes = .ok ())) := by
  have hd : hasFlag me.flags optDecodeOnly = false := hd
  obtain ⟨v, x, me', ub, hacc, heq⟩ := verify_ok hP h
  obtain ⟨p1, hm⟩ := hacc.decodes.headersMean
  have hkid := hm.kid.1
  have hsg : x.sig.ub.bytes = v.sig.bytes := by rw [hacc.decodes.sig]; rfl
  have halg : x.params.alg ≠ 0 → ∃ i, v.alg = some i ∧ Int32Of i x.params.alg := by
    intro hne
    rcases hm.alg.2 with ⟨-, h0, -⟩ | ⟨i, h1, -, -, h2⟩
    · exact absurd h0 hne
    · exact ⟨i, h1, by rw [h2]; exact toInt32_of i⟩
  have hfl : (me.withTags v).flags = me.flags := rfl
  obtain ⟨-, -, hsig⟩ := checkDecoded_ok hacc.check
  rcases hsig with ⟨-, -, hv⟩ | ⟨-, hed, ub', hv⟩ | ⟨-, -, -, hv⟩
  · rcases verifyShortCircuit_ok hv with hd' | ⟨-, hash, hh, hver⟩
    · rw [hfl, hd] at hd'; cases hd'
    · obtain ⟨i, hi, ha⟩ := halg (createTbsHash_supported hh).2.1
      exact ⟨v, i, _, hacc.view, hi, ha, .inl ⟨hash, hashSteps_of hh, .inl (by rw [← hsg]; exact hver)⟩⟩
  · obtain ⟨i, hi, ha⟩ := halg (by rw [hed.2]; decide)
    refine ⟨v, i, _, hacc.view, hi, ha, .inr ⟨x.payload.ub, .data (x.tbs aad), ?_, ?_⟩⟩
    · have hw := hacc.decodes.wf hargs.1 hargs.2
      obtain ⟨h1, -, h2⟩ := verifyEddsa_ok hw hv
      rcases h2 with h2 | ⟨h2, -⟩
      · rw [hfl, hd] at h2; cases h2
      · have := createTbs_run me.aux (UB.wf_src hw.prot _) (UB.wf_src hw.aad _)
          (UB.wf_src hw.payload _)
        have hp : x.prot.ub = .data v.prot.bytes := by rw [hacc.decodes.prot]; rfl
        have h1' : ¬ me.aux.cap < (sigStructure x.prot.ub.bytes aad.bytes x.payload.ub.bytes).length :=
          Nat.not_lt.mpr h1
        have hn : me.aux.isNull = false := h2
        rw [← hp, this, if_neg h1', hn]
        rfl
    · obtain ⟨-, -, h2⟩ := verifyEddsa_ok (hacc.decodes.wf hargs.1 hargs.2) hv
      rcases h2 with h2 | ⟨-, h2⟩
      · rw [hfl, hd] at h2; cases h2
      · rw [← hkid, ← hsg]; exact h2
  · rcases verifyDefault_ok hv with hd' | ⟨hash, hh, hver⟩
    · rw [hfl, hd] at hd'; cases hd'
    · obtain ⟨i, hi, ha⟩ := halg (createTbsHash_supported hh).2.1
      refine ⟨v, i, _, hacc.view, hi, ha, .inl ⟨hash, hashSteps_of hh, .inr ?_⟩⟩
      rw [← hkid, ← hsg]; exact hver

/-- The adapters' errors come back as they are. -/
example : (verifyInternal Config.full QParams.std { toyCrypto with verify := fun _ _ _ _ _ => .error .tamperingDetected }
      noJunk (VerifyCtx.init 0) (toyMsg true es256Hdr [] [1]) .nil (.inline true) true).res
        = .error .tamperingDetected ∧
    (verifyInternal Config.full QParams.std { toyCrypto with hashFinish := fun _ _ => .error .hashGeneralFail }
      noJunk (VerifyCtx.init 0) (toyMsg true es256Hdr [] [1]) .nil (.inline true) true).res
        = .error .hashGeneralFail := by decide +kernel

/-! ## C32 -/

/-- **C32 (verification).** A message that verifies (not decode-only) names in its
protected header an algorithm that the build supports. -/
theorem C32_verify_enabled (hP : P.maxTags ≤ 4) (hd : Spec.Opt.decodeOnly me.flags = false)
    (h : (verifyInternal cfg P C junk me msg aad pay want).res = .ok ()) :
    ∃ v i a, IsView P msg v ∧ v.alg = some i ∧ Int32Of i a ∧ algEnabled cfg a := by
  have hd : hasFlag me.flags optDecodeOnly = false := hd
  obtain ⟨v, x, me', ub, hacc, heq⟩ := verify_ok hP h
  obtain ⟨p1, hm⟩ := hacc.decodes.headersMean
  have halg : x.params.alg ≠ 0 → ∃ i, v.alg = some i ∧ Int32Of i x.params.alg := by
    intro hne
    rcases hm.alg.2 with ⟨-, h0, -⟩ | ⟨i, h1, -, -, h2⟩
    · exact absurd h0 hne
    · exact ⟨i, h1, by rw [h2]; exact toInt32_of i⟩
  have hfl : (me.withTags v).flags = me.flags := rfl
  obtain ⟨-, -, hsig⟩ := checkDecoded_ok hacc.check
  rcases hsig with ⟨-, -, hv⟩ | ⟨-, hed, ub', hv⟩ | ⟨-, -, -, hv⟩
  · rcases verifyShortCircuit_ok hv with hd' | ⟨-, hash, hh, hver⟩
    · rw [hfl, hd] at hd'; cases hd'
    · obtain ⟨h1, h2, -⟩ := createTbsHash_supported hh
      obtain ⟨i, hi, ha⟩ := halg h2
      exact ⟨v, i, _, hacc.view, hi, ha, (C32_supported_iff _ _).mp h1⟩
  · obtain ⟨i, hi, ha⟩ := halg (by rw [hed.2]; decide)
    exact ⟨v, i, _, hacc.view, hi, ha, by rw [hed.2]; simp [algEnabled, algEDDSA, hed.1]⟩
  · rcases verifyDefault_ok hv with hd' | ⟨hash, hh, hver⟩
    · rw [hfl, hd] at hd'; cases hd'
    · obtain ⟨h1, h2, -⟩ := createTbsHash_supported hh
      obtain ⟨i, hi, ha⟩ := halg h2
      exact ⟨v, i, _, hacc.view, hi, ha, (C32_supported_iff _ _).mp h1⟩

/-- **C32 (verification, refusal).** A message without algorithm, or with one the
build does not support, never verifies. -/
theorem C32_verify_refused (hP : P.maxTags ≤ 4) (hd : Spec.Opt.decodeOnly me.flags = false)
    (v : MsgView) (hv : IsView P msg v)
    (hal : ∀ i a, v.alg = some i → Int32Of i a → ¬ algEnabled cfg a) :
    (verifyInternal cfg P C junk me msg aad pay want).res ≠ .ok () := by
  have hd : hasFlag me.flags optDecodeOnly = false := hd
  intro h
  obtain ⟨v', i, a, hv', h1, h2, h3⟩ :=
    C32_verify_enabled cfg P C junk me msg aad pay want hP hd h
  have := hv.unique hv'
  subst this
  exact hal i a h1 h2 h3

example : (toyVerify 0 (toyMsg true [] [] [1])).res = .error .unsupportedSigningAlg ∧
    (toyVerify 0 (toyMsg true [(.uint 1, .uint 5)] [] [1])).res = .error .unsupportedSigningAlg := by
  decide +kernel

/-! ## C33 -/

/-- **C33 (verification).** A NULL external aad and an empty one give the same
outcome in every respect. -/
theorem C33_verify_aad (hC : ∀ h, C.hashUpdate h (.data []) = C.hashUpdate h .nil) :
    verifyInternal cfg P C junk me msg (.data []) pay want =
      verifyInternal cfg P C junk me msg .nil pay want := by
  have hc : ∀ me x, checkDecoded cfg C me (.data []) x = checkDecoded cfg C me .nil x := by
    intro me x
    unfold checkDecoded verifyShortCircuit verifyDefault verifyEddsa
    rw [createTbsHash_empty cfg C hC, createTbs_empty]
  unfold verifyInternal
  simp only [hc]

/-- **C33 (`t_cose_sign1_verify`).** It is `t_cose_sign1_verify_aad` with an absent
aad, and so with an empty one. -/
theorem C33_verify (hC : ∀ h, C.hashUpdate h (.data []) = C.hashUpdate h .nil)
    (wantPayload : Bool) :
    sign1Verify cfg P C junk me msg wantPayload want =
      sign1VerifyAad cfg P C junk me msg .nil wantPayload want ∧
    sign1Verify cfg P C junk me msg wantPayload want =
      sign1VerifyAad cfg P C junk me msg (.data []) wantPayload want := by
  refine ⟨rfl, ?_⟩
  unfold sign1Verify sign1VerifyAad
  exact (C33_verify_aad cfg P C junk me msg _ want hC).symm

example : ∀ h, toyCrypto.hashUpdate h (.data []) = toyCrypto.hashUpdate h .nil := fun _ => rfl

/-! ## C40 -/

/-- The adapter accepts under `key` only what was signed: `Signed a p x w` says the
owner of the key signed, with algorithm `a`, the Sig_structure of protected header
`p`, external data `x` and payload `w`. -/
structure Unforgeable (C : Crypto) (D : Int → Bytes → Bytes) (key : Key)
    (Signed : Int → Bytes → Bytes → Bytes → Prop) : Prop where
  verify : ∀ a kid d s, C.verify a key kid d s = .ok () →
    ∃ hal p x w, hashOf a = some hal ∧ Signed a p x w ∧ d = D hal (sigStructure p x w)
  eddsa : ∀ kid t s, C.verifyEddsa key kid t s = .ok () →
    ∃ p x w, Signed algEDDSA p x w ∧ t = sigStructure p x w
  size : ∀ a p x w, Signed a p x w → p.length < 2 ^ 64 ∧ x.length < 2 ^ 64 ∧ w.length < 2 ^ 64

/-- No signed Sig_structure collides with another one of octets `t`. -/
def NoCollision (D : Int → Bytes → Bytes) (Signed : Int → Bytes → Bytes → Bytes → Prop)
    (t : Bytes) : Prop :=
  ∀ a hal p x w, hashOf a = some hal → Signed a p x w →
    D hal (sigStructure p x w) = D hal t → sigStructure p x w = t

/-- **C40.** If the adapter is unforgeable for the key and the hash does not
collide, everything accepted (not decode-only, not a short-circuit kid) was signed:
the algorithm, the protected header octets, the external data given by the caller,
and the payload. -/
theorem C40_only_signed (D : Int → Bytes → Bytes) (hD : StreamHash C D) (hP : P.maxTags ≤ 4)
    (hargs : ArgsOk aad pay) (hd : Spec.Opt.decodeOnly me.flags = false)
    (Signed : Int → Bytes → Bytes → Bytes → Prop) (hU : Unforgeable C D me.key Signed)
    (v : MsgView) (hv : IsView P msg v)
    (hns : cfg.disableShortCircuit = true ∨ v.kid.map (·.bytes) ≠ some scKid)
    (payload : Bytes) (hpl : IsPayload pay v payload)
    (hcoll : NoCollision D Signed (sigStructure v.prot.bytes aad.bytes payload))
    (hla : aad.len < 2 ^ 64) (hlp : payload.length < 2 ^ 64)
    (h : (verifyInternal cfg P C junk me msg aad pay want).res = .ok ()) :
    ∃ i a, v.alg = some i ∧ Int32Of i a ∧ Signed a v.prot.bytes aad.bytes payload := by
  have hd : hasFlag me.flags optDecodeOnly = false := hd
  obtain ⟨v', hv', payload', hpl', -, himp⟩ :=
    C10_acceptance cfg P C junk me msg aad pay want D hD hP hargs hd h
  have := hv.unique hv'
  subst this
  have hpp : payload' = payload := by
    cases pay with
    | inline w =>
      obtain ⟨s, h1, -, h3⟩ := hpl
      obtain ⟨s', h1', -, h3'⟩ := hpl'
      rw [h1] at h1'; cases h1'
      rw [h3, h3']
    | detached p => rw [hpl.2, hpl'.2]
  subst hpp
  obtain ⟨i, a, hi, ha, hacc⟩ := himp hns
  have hlen : v.prot.bytes.length < 2 ^ 64 := by
    obtain ⟨k, n, h1, h3⟩ := hv.slices.1
    have h2 := hv.1
    rw [h3]
    simp only [List.length_take, List.length_drop] at h1 ⊢
    unfold maxMessage at h2
    omega
  have hla' : aad.bytes.length < 2 ^ 64 := by have := hargs.1; unfold UB.wf at this; omega
  refine ⟨i, a, hi, ha, ?_⟩
  rcases hacc with ⟨rfl, -, hver⟩ | ⟨-, hal, hhal, hver⟩
  · obtain ⟨p, x, w, hs, heq⟩ := hU.eddsa _ _ _ hver
    obtain ⟨s1, s2, s3⟩ := hU.size _ _ _ _ hs
    obtain ⟨rfl, rfl, rfl⟩ := sigStructure_inj hlen hla' hlp s1 s2 s3 heq
    exact hs
  · obtain ⟨hal', p, x, w, hh, hs, heq⟩ := hU.verify _ _ _ _ hver
    rw [hhal] at hh; cases hh
    obtain ⟨s1, s2, s3⟩ := hU.size _ _ _ _ hs
    obtain ⟨rfl, rfl, rfl⟩ := sigStructure_inj s1 s2 s3 hlen hla' hlp (hcoll a hal p x w hhal hs heq.symm)
    exact hs

/-- **C40 (changes).** Conversely: if the protected header, external data and
payload at hand are not ones that were signed together, verification fails;
in particular any change to one of them that gives something not signed. -/
theorem C40_tampered (D : Int → Bytes → Bytes) (hD : StreamHash C D) (hP : P.maxTags ≤ 4)
    (hargs : ArgsOk aad pay) (hd : Spec.Opt.decodeOnly me.flags = false)
    (Signed : Int → Bytes → Bytes → Bytes → Prop) (hU : Unforgeable C D me.key Signed)
    (v : MsgView) (hv : IsView P msg v)
    (hns : cfg.disableShortCircuit = true ∨ v.kid.map (·.bytes) ≠ some scKid)
    (payload : Bytes) (hpl : IsPayload pay v payload)
    (hcoll : NoCollision D Signed (sigStructure v.prot.bytes aad.bytes payload))
    (hla : aad.len < 2 ^ 64) (hlp : payload.length < 2 ^ 64)
    (hnot : ∀ a, ¬ Signed a v.prot.bytes aad.bytes payload) :
    (verifyInternal cfg P C junk me msg aad pay want).res ≠ .ok () := by
  have hd : hasFlag me.flags optDecodeOnly = false := hd
  intro h
  obtain ⟨i, a, -, -, hs⟩ := C40_only_signed cfg P C junk me msg aad pay want D hD hP hargs hd
    Signed hU v hv hns payload hpl hcoll hla hlp h
  exact hnot a hs

/-- An adapter meeting the hypotheses: its digest is the input itself, and it accepts
one Sig_structure only. -/
def idealCrypto (t0 : Bytes) : Crypto where
  HashCtx := Bytes
  hashStart _ := .ok []
  hashUpdate h u := h ++ u.bytes
  hashFinish h _ := .ok h
  sigSize _ _ := .ok 0
  sign _ _ _ _ := .error .sigFail
  verify a _ _ h _ := if a = algES256 ∧ h = t0 then .ok () else .error .sigVerify
  signEddsa _ _ _ := .error .sigFail
  verifyEddsa _ _ _ _ := .error .sigVerify

theorem ideal_streamHash (t0 : Bytes) : StreamHash (idealCrypto t0) (fun _ b => b) := by
  refine ⟨fun h _ b => h = b, ?_, ?_, ?_, ?_⟩
  · intro alg h hh
    exact (Except.ok.inj hh).symm
  · intro h alg b u hh; subst hh; rfl
  · intro h alg b n hh; subst hh
    exact List.append_nil _
  · intro h alg b n r hh hf
    subst hh
    exact (Except.ok.inj hf).symm

theorem ideal_unforgeable (p x w : Bytes) (h1 : p.length < 2 ^ 64) (h2 : x.length < 2 ^ 64)
    (h3 : w.length < 2 ^ 64) (k : Key) :
    Unforgeable (idealCrypto (sigStructure p x w)) (fun _ b => b) k
      (fun a p' x' w' => a = algES256 ∧ p' = p ∧ x' = x ∧ w' = w) where
  verify := by
    intro a kid d s h
    simp only [idealCrypto] at h
    split at h
    · rename_i hh
      exact ⟨algSHA256, p, x, w, by rw [hh.1]; decide, ⟨hh.1, rfl, rfl, rfl⟩, hh.2⟩
    · cases h
  eddsa := by intro kid t s h; cases h
  size := by rintro a p' x' w' ⟨-, rfl, rfl, rfl⟩; exact ⟨h1, h2, h3⟩

example (p x w t : Bytes) : NoCollision (fun _ b => b)
    (fun a p' x' w' => a = algES256 ∧ p' = p ∧ x' = x ∧ w' = w) t := by
  intro a hal p x w _ _ h
  exact h

/-- The message signed is accepted, with its payload changed it is not. -/
example : (verifyInternal Config.full QParams.std
      (idealCrypto (sigStructure (Item.map es256Hdr).enc [] [1])) noJunk (VerifyCtx.init 0)
      (toyMsg true es256Hdr [] [1]) .nil (.inline true) true).res = .ok () ∧
    (verifyInternal Config.full QParams.std
      (idealCrypto (sigStructure (Item.map es256Hdr).enc [] [1])) noJunk (VerifyCtx.init 0)
      (toyMsg true es256Hdr [] [2]) .nil (.inline true) true).res = .error .sigVerify := by
  decide +kernel

end TCose.Props
