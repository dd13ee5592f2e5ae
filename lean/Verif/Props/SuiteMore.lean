import Verif.Lemmas.SuiteMore
import Verif.Props.Refused
import Verif.Lemmas.Sha256Fast

/-!
# C72: the other tests of the test suite

`test/t_cose_test.c` also signs and verifies with short-circuit signatures: whole
messages, detached payloads, two-step signing, tags, content types, size queries,
broken messages and failing hashes.  Here: what each of these tests returns, with any
adapter that hashes, in every build and whatever the uninitialised buffers hold.
-/

namespace TCose.Props
open TCose Spec TestMsg SuiteTest

variable (cfg : Config) (C : Crypto) (D : Bytes → Bytes) (junk : Junk)

/-- What the signer signs for a payload and additional data: the Sig_structure of RFC
8152 section 4.4, with the protected header `{1: -7}`. -/
def es256Tbs (aad payload : Bytes) : Bytes := sigStructure [0xa1, 0x01, 0x26] aad payload

/-! ## Lemmas -/

theorem data_bytes (b : Bytes) : (UB.data b).bytes = b := rfl

section
variable {cfg C D junk}

theorem prot7 : protectedHeader (-7) = [0xa1, 0x01, 0x26] := by decide

theorem signer_start (w : Bytes) :
    startOf cfg signer false w = beforeSig true (some scKid) .none (some w) := by
  have h : specCt cfg signer = .none := by unfold specCt; split <;> rfl
  unfold startOf
  rw [h]
  rfl

theorem signer_fault (hsc : cfg.disableShortCircuit = false) : ctxFault cfg signer = none := by
  unfold ctxFault
  rw [if_neg, if_neg, if_neg]
  · intro h; exact h.2.1 rfl
  · intro h; rw [hsc] at h; cases h.2
  · intro h; exact h (by unfold algEnabled; simp [signer, SignCtx.init, algES256])

theorem bufHead_left {a b : Bytes} {n : Nat} (h : n ≤ a.length) : bufHead (a ++ b) n = bufHead a n := by
  unfold bufHead
  rw [if_neg (by simp; omega), if_neg (by omega), List.take_append_of_le_length h]

theorem bufTail_left {a b : Bytes} {n : Nat} (h : n ≤ a.length) :
    bufTail (a ++ b) n = bufTail a n ++ b := by
  unfold bufTail
  rw [if_neg (by simp; omega), if_neg (by omega), List.drop_append_of_le_length h]

theorem bufTail_right {a b : Bytes} {n : Nat} (h : n = a.length) : bufTail (a ++ b) n = b := by
  subst h
  unfold bufTail
  rw [if_neg (by simp), List.drop_left]

/-- The last 32 octets of a message. -/
theorem last32 {a d : Bytes} (hd : d.length = 32) :
    bufTail (a ++ ([0x58, 0x40] ++ (d ++ d)))
      ((a ++ ([0x58, 0x40] ++ (d ++ d))).length - 32) = d := by
  have h : a ++ ([0x58, 0x40] ++ (d ++ d)) = (a ++ ([0x58, 0x40] ++ d)) ++ d := by simp
  rw [h]
  exact bufTail_right (by simp only [List.length_append, List.length_cons, List.length_nil]; omega)

theorem scMsg_read (ts : List Nat) (tag : Bool) (payload : Option Bytes) (s : Bytes) (noCt : Bool) :
    ∃ k, (scMsg ts tag .none payload s).read noCt = .ok k ∧ k.kid = some scKid ∧ k.alg = -7 ∧
      ¬ k.blocked := by
  refine ⟨⟨-7, some scKid, none, none, none, none, [], [], [], []⟩, ?_, rfl, rfl, by decide⟩
  show Message.read noCt (scMsg [] true .none none []) = _
  cases noCt <;> decide +kernel

theorem doubled_length (hD : Digests32 cfg C D) (x : Bytes) : (D x ++ D x).length = 64 := by
  simp [hD.len]

/-- The signature of the tests. -/
def sigOf (D : Bytes → Bytes) (aad w : Bytes) : Bytes := D (es256Tbs aad w) ++ D (es256Tbs aad w)

theorem sigOf_length (hD : Digests32 cfg C D) (aad w : Bytes) : (sigOf D aad w).length = 64 :=
  doubled_length hD _

theorem sigOf_outcome (hD : Digests32 cfg C D) {flags : Nat} (h1 : Spec.Opt.decodeOnly flags = false)
    (h2 : Spec.Opt.allowShortCircuit flags = true) (a w a' w' : Bytes) :
    scOutcome flags (D (es256Tbs a w)) (sigOf D a' w') =
      if D (es256Tbs a w) = D (es256Tbs a' w') then .ok () else .error .sigVerify := by
  unfold scOutcome sigOf
  rw [if_neg (by simp [h1]), if_neg (by simp [h2])]
  simp only [prefix_doubled (hD.len _) (hD.len _)]

/-- What the signer of the tests makes. -/
def plainMsg (D : Bytes → Bytes) (a w : Bytes) : Bytes :=
  scMessage [] true (some scKid) .none (some w) (sigOf D a w)

theorem signer_signs (hsc : cfg.disableShortCircuit = false) (hD : Digests32 cfg C D)
    (hfit : SignFits C) (w : Bytes) (a : UB) (ha : a.wf) {m : Bytes} (hw : w.length ≤ 1000)
    (hal : a.bytes.length ≤ 1000)
    (hlen : (beforeSig true (some scKid) .none (some w)).length + 66 ≤ m.length)
    (hm : (beforeSig true (some scKid) .none (some w)).length ≤ 1000) :
    (signAadInternal cfg C signer false (.data w) a (.buf m)).1 =
      .ok (.data (plainMsg D a.bytes w)) := by
  have h := sc_sign hD hfit (me := signer) rfl rfl (signer_fault hsc) false w a ha m hw hal
    (by rw [signer_start]; exact hlen) (by rw [signer_start]; exact hm)
  rw [signer_start, prot7] at h
  exact h

/-- Verifying without content type, payload in the message. -/
theorem plain_verify (junk : Junk) (hsc : cfg.disableShortCircuit = false) (hD : Digests32 cfg C D)
    {ts : List Nat} (hts : ∀ t ∈ ts, t < 2 ^ 64) (hn : ts.length ≤ 3) {tag : Bool} {w s : Bytes}
    (hs : s.length = 64) (hlen : (beforeSig tag (some scKid) .none (some w)).length ≤ 1000)
    (hw : w.length ≤ 1000) {aad : UB} (ha : aad.wf) (hal : aad.bytes.length ≤ 1000) (me : VerifyCtx)
    (hpol : TagPolicy me.flags (ts ++ if tag then [18] else []).reverse) (want : Bool) :
    (verifyInternal cfg QParams.std C junk me (scMessage ts tag (some scKid) .none (some w) s) aad
      (.inline true) want).res = scOutcome me.flags (D (es256Tbs aad.bytes w)) s ∧
    ((verifyInternal cfg QParams.std C junk me (scMessage ts tag (some scKid) .none (some w) s) aad
      (.inline true) want).res = .ok () →
      (verifyInternal cfg QParams.std C junk me (scMessage ts tag (some scKid) .none (some w) s) aad
        (.inline true) want).payload.map (·.ub.bytes) = some w) := by
  obtain ⟨k, k1, k2, k3, k4⟩ := scMsg_read ts tag (some w) s cfg.disableContentType
  obtain ⟨v1, v2⟩ := sc_verify junk hsc hD hts hn hs hlen (by simp) (pay := .inline true) rfl (w := w)
    rfl hw ha hal k1 k2 k3 k4 me hpol want
  rw [prot7] at v1
  exact ⟨v1, fun h => by simpa using (v2 h).1⟩

theorem good_flags : Spec.Opt.decodeOnly verifier.flags = false ∧
    Spec.Opt.allowShortCircuit verifier.flags = true := by decide

theorem verifier_policy (tags : List Nat) : TagPolicy verifier.flags tags := by
  refine ⟨fun h => ?_, fun h => ?_⟩
  · rw [show Opt.tagRequired verifier.flags = false by decide] at h; cases h
  · rw [show Opt.tagProhibited verifier.flags = false by decide] at h; cases h

/-- Verifying what the tests sign, with additional data that may differ. -/
theorem verify_plainMsg (junk : Junk) (hsc : cfg.disableShortCircuit = false) (hD : Digests32 cfg C D)
    {a w : Bytes} {a' : UB} (hlen : (beforeSig true (some scKid) .none (some w)).length ≤ 1000)
    (hw : w.length ≤ 1000) (ha : a'.wf) (hal : a'.bytes.length ≤ 1000) :
    (sign1VerifyAad cfg QParams.std C junk verifier (plainMsg D a w) a' true false).res =
      (if D (es256Tbs a'.bytes w) = D (es256Tbs a w) then .ok () else .error .sigVerify) ∧
    ((sign1VerifyAad cfg QParams.std C junk verifier (plainMsg D a w) a' true false).res = .ok () →
      (sign1VerifyAad cfg QParams.std C junk verifier (plainMsg D a w) a' true false).payload.map
        (·.ub.bytes) = some w) := by
  obtain ⟨v1, v2⟩ := plain_verify junk hsc hD (ts := []) (tag := true) (w := w)
    (s := sigOf D a w) (by simp) (by simp) (sigOf_length hD _ _) hlen hw ha hal verifier
    (verifier_policy _) false
  rw [sigOf_outcome hD good_flags.1 good_flags.2] at v1
  exact ⟨v1, v2⟩

end

variable {cfg C D}

theorem self_aad (hsc : cfg.disableShortCircuit = false) (hD : Digests32 cfg C D) (hfit : SignFits C)
    {m : Bytes} (hm : m.length = 200) :
    selfTestAad cfg QParams.std C junk (fun me a b out => (sign1SignAad cfg C me a b out).1) m = 0 := by
  have hs : (sign1SignAad cfg C signer (.data content) (.data someAad) (.buf m)).1 =
      .ok (.data (plainMsg D someAad content)) := signer_signs hsc hD hfit content (.data someAad) rfl
    (by decide) (by decide) (by rw [hm]; decide +kernel) (by decide +kernel)
  obtain ⟨v1, v2⟩ := verify_plainMsg junk hsc hD (a := someAad) (w := content) (a' := .data someAad)
    (by decide +kernel) (by decide) rfl (by decide)
  rw [data_bytes, if_pos rfl] at v1
  unfold selfTestAad
  simp only [hs, data_bytes, v1]
  exact if_neg (fun h => h (v2 v1))

/-- **C72 (self test).** The self test passes exactly when the adapter's hash of what is
signed is the one given in the test. -/
theorem C72_self (hsc : cfg.disableShortCircuit = false) (hD : Digests32 cfg C D) (hfit : SignFits C)
    (m1 m2 : Bytes) (h1 : m1.length = 200) (h2 : m2.length = 200) :
    selfTest cfg QParams.std C junk m1 m2 =
      if D (es256Tbs [] content) = hashOfTbs then 0 else 4000 := by
  have hs : (sign1Sign cfg C signer (.data content) (.buf m1)).1 =
      .ok (.data (plainMsg D [] content)) := signer_signs hsc hD hfit content .nil rfl
    (by decide) (by decide) (by rw [h1]; decide +kernel) (by decide +kernel)
  obtain ⟨v1, v2⟩ := verify_plainMsg junk hsc hD (a := []) (w := content) (a' := .nil)
    (by decide +kernel) (by decide) rfl (by decide)
  rw [show UB.nil.bytes = [] from rfl, if_pos rfl] at v1
  have v2 := v2 v1
  have hsv : ∀ x, sign1Verify cfg QParams.std C junk verifier x true false =
    sign1VerifyAad cfg QParams.std C junk verifier x .nil true false := fun _ => rfl
  unfold selfTest
  simp only [hs, data_bytes, hsv, v1, self_aad junk hsc hD hfit h2]
  refine (if_neg (fun h => h v2)).trans ?_
  have hl : bufTail (plainMsg D [] content) ((plainMsg D [] content).length - 32) =
    D (es256Tbs [] content) := last32 (hD.len _)
  by_cases h : D (es256Tbs [] content) = hashOfTbs
  · exact (if_neg (fun hh => hh (h.symm.trans hl.symm))).trans (if_pos h).symm
  · exact (if_pos (fun hh => h (hl.symm.trans (Eq.symm hh)))).trans (if_neg h).symm

theorem signer_start_detached (w : Bytes) :
    startOf cfg signer true w = beforeSig true (some scKid) .none none := by
  have h : specCt cfg signer = .none := by unfold specCt; split <;> rfl
  unfold startOf
  rw [h]
  rfl

/-- **C72 (detached).** The test with a detached payload passes exactly when the hash
is the same as for a payload in the message. -/
theorem C72_detached (hsc : cfg.disableShortCircuit = false) (hD : Digests32 cfg C D)
    (hfit : SignFits C) (m : Bytes) (hm : m.length = 200) :
    detachedTest cfg QParams.std C junk m =
      if D (es256Tbs [] content) = hashOfTbs then 0 else 4000 := by
  have hs := sc_sign hD hfit (me := signer) rfl rfl (signer_fault hsc) true content .nil rfl m
    (by decide) (by decide) (by rw [signer_start_detached, hm]; decide +kernel)
    (by rw [signer_start_detached]; decide +kernel)
  rw [signer_start_detached, prot7] at hs
  have hs : (sign1SignDetached cfg C signer .nil (.data content) (.buf m)).1 =
      .ok (.data (scMessage [] true (some scKid) .none none (sigOf D [] content))) := hs
  obtain ⟨k, k1, k2, k3, k4⟩ := scMsg_read [] true none (sigOf D [] content) cfg.disableContentType
  obtain ⟨v1, -⟩ := sc_verify junk hsc hD (ts := []) (by simp) (by simp) (sigOf_length hD [] content)
    (by decide +kernel) (by simp) (pay := .detached (.data content)) rfl (w := content)
    rfl (by decide) (aad := .nil) rfl (by decide) k1 k2 k3 k4 verifier (verifier_policy _) false
  rw [prot7] at v1
  have v1 := v1.trans (sigOf_outcome hD good_flags.1 good_flags.2 [] content [] content)
  rw [if_pos rfl] at v1
  have v1 : (sign1VerifyDetached cfg QParams.std C junk verifier
    (scMessage [] true (some scKid) .none none (sigOf D [] content)) .nil (.data content) false).res =
      .ok () := v1
  unfold detachedTest
  simp only [hs, data_bytes, v1]
  have hl : bufTail (scMessage [] true (some scKid) .none none (sigOf D [] content))
    ((scMessage [] true (some scKid) .none none (sigOf D [] content)).length - 32) =
    D (es256Tbs [] content) := last32 (hD.len _)
  by_cases h : D (es256Tbs [] content) = hashOfTbs
  · exact (if_neg (fun hh => hh (h.symm.trans hl.symm))).trans (if_pos h).symm
  · exact (if_pos (fun hh => h (hl.symm.trans (Eq.symm hh)))).trans (if_neg h).symm

/-! ### Tampering -/

/-- Where octets are found. -/
theorem findBytes_at {a f r : Bytes}
    (h : ∀ p, p < a.length → ((a ++ f).drop p).take f.length ≠ f) :
    findBytes (a ++ f ++ r) f = some a.length := by
  unfold findBytes
  rw [List.find?_range_eq_some]
  refine ⟨?_, ?_, fun p hp => ?_⟩
  · rw [decide_eq_true_eq, List.append_assoc, List.drop_left, List.take_left]
  · simp only [List.mem_range, List.length_append]
    omega
  · have hw : ((a ++ f ++ r).drop p).take f.length = ((a ++ f).drop p).take f.length := by
      rw [List.drop_append_of_le_length (by simp; omega), List.take_append_of_le_length (by simp; omega)]
    rw [hw]
    simp only [Bool.not_eq_true', decide_eq_false_iff_not]
    exact h p hp

/-- The payload of the tests with another first letter. -/
def tampered : Bytes :=
  [0x68, 0x68, 0x69, 0x73, 0x20, 0x69, 0x73, 0x20, 0x74, 0x68, 0x65, 0x20, 0x63, 0x6f, 0x6e,
   0x74, 0x65, 0x6e, 0x74, 0x2e]

theorem plain_content : beforeSig true (some scKid) .none (some content) =
    (beforeSig true (some scKid) .none (some content)).take 43 ++ content := by decide +kernel

theorem found_content : ∀ p, p < ((beforeSig true (some scKid) .none (some content)).take 43).length →
    (((beforeSig true (some scKid) .none (some content)).take 43 ++ content).drop p).take
      content.length ≠ content := by
  decide +kernel

/-- **C72 (tampering).** The test that verification fails passes exactly when neither
changing the payload nor changing the additional data leaves the hash the same. -/
theorem C72_verify_fail (hsc : cfg.disableShortCircuit = false) (hD : Digests32 cfg C D)
    (hfit : SignFits C) (m1 m2 : Bytes) (h1 : m1.length = 200) (h2 : m2.length = 200) :
    verifyFailTest cfg QParams.std C junk m1 m2 =
      if D (es256Tbs [] tampered) ≠ D (es256Tbs [] content) ∧
        D (es256Tbs homeAad content) ≠ D (es256Tbs someAad content) then 0 else 4000 := by
  have hs : (sign1Sign cfg C signer (.data content) (.buf m1)).1 =
      .ok (.data (plainMsg D [] content)) := signer_signs hsc hD hfit content .nil rfl
    (by decide) (by decide) (by rw [h1]; decide +kernel) (by decide +kernel)
  have hs2 : (sign1SignAad cfg C signer (.data content) (.data someAad) (.buf m2)).1 =
      .ok (.data (plainMsg D someAad content)) := signer_signs hsc hD hfit content (.data someAad) rfl
    (by decide) (by decide) (by rw [h2]; decide +kernel) (by decide +kernel)
  have hfind : findBytes (plainMsg D [] content) content = some 43 := by
    have := findBytes_at (r := [0x58, 0x40] ++ sigOf D [] content) found_content
    rw [← plain_content] at this
    exact this
  have hset : (plainMsg D [] content).set 43 0x68 =
      scMessage [] true (some scKid) .none (some tampered) (sigOf D [] content) := by
    unfold plainMsg scMessage
    simp only [List.map_nil, List.flatten_nil, List.nil_append]
    rw [List.set_append_left _ _ (by decide +kernel)]
    congr 1
  obtain ⟨v1, -⟩ := plain_verify junk hsc hD (ts := []) (tag := true) (w := tampered)
    (s := sigOf D [] content) (by simp) (by simp) (sigOf_length hD _ _) (by decide +kernel) (by decide)
    (aad := .nil) rfl (by decide) verifier (verifier_policy _) false
  have v1 := v1.trans (sigOf_outcome hD good_flags.1 good_flags.2 [] tampered [] content)
  rw [← hset] at v1
  obtain ⟨v2, -⟩ := verify_plainMsg junk hsc hD (a := someAad) (w := content) (a' := .data homeAad)
    (by decide +kernel) (by decide) rfl (by decide)
  rw [data_bytes] at v2
  unfold verifyFailTest
  simp only [hs, data_bytes, hfind]
  by_cases c1 : D (es256Tbs [] tampered) = D (es256Tbs [] content)
  · rw [if_pos c1] at v1
    refine Eq.trans (if_pos ?_) ?_
    · intro h
      cases v1.symm.trans h
    · rw [if_neg (fun h => h.1 c1)]
      show 4000 + resNo (verifyInternal cfg QParams.std C junk verifier
        ((plainMsg D [] content).set 43 0x68) .nil (.inline true) false).res = 4000
      rw [v1]; rfl
  · rw [if_neg c1] at v1
    refine Eq.trans (if_neg (fun h => h v1)) ?_
    simp only [hs2, data_bytes]
    by_cases c2 : D (es256Tbs homeAad content) = D (es256Tbs someAad content)
    · rw [if_pos c2] at v2
      refine Eq.trans (if_pos ?_) ?_
      · intro h
        cases v2.symm.trans h
      · rw [if_neg (fun h => h.2 c2), v2]
        rfl
    · rw [if_neg c2] at v2
      exact (if_neg (fun h => h v2)).trans (if_pos ⟨c1, c2⟩).symm

/-- **C72 (example).** The example of RFC 8152 is made as written there. -/
theorem C72_example (hsc : cfg.disableShortCircuit = false) (hD : Digests32 cfg C D)
    (hfit : SignFits C) (m : Bytes) (hm : m.length = 200) :
    coseExampleTest cfg C m = 0 := by
  have hst : startOf cfg (signer.setKey Key.null (.data [0x31, 0x31])) false content =
      beforeSig true (some [0x31, 0x31]) .none (some content) := by
    have h : specCt cfg (signer.setKey Key.null (.data [0x31, 0x31])) = .none := by
      unfold specCt; split <;> rfl
    unfold startOf
    rw [h]
    rfl
  have hs := sc_sign hD hfit (me := signer.setKey Key.null (.data [0x31, 0x31])) rfl rfl
    (signer_fault hsc) false content .nil rfl m (by decide) (by decide)
    (by rw [hst, hm]; decide +kernel) (by rw [hst]; decide +kernel)
  rw [hst] at hs
  unfold coseExampleTest
  rw [show (sign1Sign cfg C (signer.setKey Key.null (.data [0x31, 0x31])) (.data content) (.buf m)).1 = _
    from hs]
  simp only [data_bytes]
  refine if_neg (fun h => h ?_)
  rw [bufHead_left (by decide +kernel)]
  decide +kernel

/-! ### Two steps -/

/-- What the tests make in two steps, behind tags. -/
def stepMsg (D : Bytes → Bytes) (ts : List Nat) (tag : Bool) (w : Bytes) : Bytes :=
  scMessage ts tag (some scKid) .none (some w) (sigOf D [] w)

theorem signer_two_step (hsc : cfg.disableShortCircuit = false) (hD : Digests32 cfg C D)
    (hfit : SignFits C) (ts : List Nat) (cs : List Content) (w : Bytes) (he : encAll cs = w) (m : Bytes)
    (hd : fitsAll cs 13 = true)
    (hn : cs.length ≤ 1000) (hw : w.length ≤ 1000)
    (hlen : (ts.map (Spec.head 6)).flatten.length +
      (beforeSig true (some scKid) .none (some w)).length + 66 ≤ m.length)
    (hts : (ts.map (Spec.head 6)).flatten.length ≤ 1000) :
    makeTwoStep cfg C signer ts cs m = .ok (stepMsg D ts true w) := by
  subst he
  have h := sc_two_step hD hfit (me := signer) rfl rfl (signer_fault hsc) ts cs m hd hn hw hts
    (by decide) (by rw [signer_start]; exact hlen)
  rw [h, prot7, show specCt cfg signer = .none by unfold specCt; split <;> rfl]
  rfl

/-- The claims of the tests. -/
def claimOctets : Bytes := bufTail rfc8392 2

theorem claims_octets : encAll claims = claimOctets := by decide +kernel

/-- **C72 (CWT).** The token of RFC 8392 is made in two steps as written there, and it is
verified. -/
theorem C72_cwt (hsc : cfg.disableShortCircuit = false) (hD : Digests32 cfg C D)
    (hfit : SignFits C) (m : Bytes) (hm : m.length = 200) :
    makeCwtTest cfg QParams.std C junk m = 0 := by
  have hs := signer_two_step hsc hD hfit [] claims claimOctets claims_octets m (by decide +kernel)
    (by decide) (by decide) (by rw [hm]; decide +kernel) (by decide)
  obtain ⟨v1, v2⟩ := plain_verify junk hsc hD (ts := []) (tag := true) (w := claimOctets)
    (s := sigOf D [] claimOctets) (by simp) (by simp) (sigOf_length hD _ _) (by decide +kernel) (by decide)
    (aad := .nil) rfl (by decide) verifier (verifier_policy _) false
  have v1 := v1.trans (sigOf_outcome hD good_flags.1 good_flags.2 [] claimOctets [] claimOctets)
  rw [if_pos rfl] at v1
  have v2 := v2 v1
  have hc : compareCwt cwtFirst (stepMsg D [] true claimOctets) = none := by
    unfold compareCwt stepMsg scMessage
    simp only [List.map_nil, List.flatten_nil, List.nil_append]
    rw [bufHead_left (by decide +kernel), bufTail_left (by decide +kernel),
      bufHead_left (by decide +kernel)]
    decide +kernel
  unfold makeCwtTest
  rw [hs]
  simp only [hc]
  rw [show (sign1Verify cfg QParams.std C junk verifier (stepMsg D [] true claimOctets) true false).res =
    .ok () from v1]
  simp only
  exact if_neg (fun h => h v2)

theorem set_sig (a : Bytes) {s : Bytes} (hl : s.length = 64) (x : UInt8) :
    (a ++ ([0x58, 0x40] ++ s)).set ((a ++ ([0x58, 0x40] ++ s)).length - 64) x =
      a ++ ([0x58, 0x40] ++ s.set 0 x) := by
  have h : ∀ s : Bytes, a ++ ([0x58, 0x40] ++ s) = (a ++ [0x58, 0x40]) ++ s := by simp
  have hn : (a ++ ([0x58, 0x40] ++ s)).length - 64 = (a ++ [0x58, 0x40]).length := by
    rw [h s, List.length_append, hl, Nat.add_sub_cancel]
  rw [hn, h s, h, List.set_append_right _ _ (Nat.le_refl _), Nat.sub_self]

/-- **C72 (decode only).** With the option the signature does not matter. -/
theorem C72_decode_only (hsc : cfg.disableShortCircuit = false) (hD : Digests32 cfg C D)
    (hfit : SignFits C) (m1 m2 : Bytes) (h1 : m1.length = 200) (h2 : m2.length = 10) :
    decodeOnlyTest cfg QParams.std C junk m1 m2 = 0 := by
  have hs := signer_two_step hsc hD hfit [] [.text payloadText] (0x67 :: payloadText) (by decide +kernel)
    m1 (by decide +kernel) (by decide) (by decide) (by rw [h1]; decide +kernel) (by decide)
  have hset : ∀ x, (stepMsg D [] true (0x67 :: payloadText)).set
      ((stepMsg D [] true (0x67 :: payloadText)).length - 64) x =
      scMessage [] true (some scKid) .none (some (0x67 :: payloadText))
        ((sigOf D [] (0x67 :: payloadText)).set 0 x) := by
    intro x
    have hl := sigOf_length hD [] (0x67 :: payloadText)
    unfold stepMsg scMessage
    simp only [List.map_nil, List.flatten_nil, List.nil_append]
    exact set_sig _ hl x
  obtain ⟨v1, v2⟩ := plain_verify junk hsc hD (ts := []) (tag := true) (w := 0x67 :: payloadText)
    (s := (sigOf D [] (0x67 :: payloadText)).set 0
      ((stepMsg D [] true (0x67 :: payloadText)).getD
        ((stepMsg D [] true (0x67 :: payloadText)).length - 64) 0 + 1)) (by simp) (by simp)
    (by rw [List.length_set]; exact sigOf_length hD _ _) (by decide +kernel) (by decide)
    (aad := .nil) rfl (by decide) (VerifyCtx.init (2 ^ optDecodeOnly))
    (⟨by decide, by decide⟩) false
  rw [← hset] at v1 v2
  have v1 := v1.trans (show scOutcome _ _ _ = .ok () from if_pos (by decide))
  have v2 := v2 v1
  have hw : ((Enc.init (.buf m2)).addText payloadText).finish = .ok (.data (0x67 :: payloadText)) := by
    have hr := (Rel.init_rel (.buf m2)).addText_rel payloadText
    have ha : Ideal.init.addText payloadText = ⟨0x67 :: payloadText, none, []⟩ := by decide +kernel
    rw [ha, show (Mem.buf m2).cap = 10 from h2, show (Mem.buf m2).isNull = false from rfl] at hr
    have hsm : ((Enc.init (.buf m2)).addText payloadText).small = false := by
      cases hq : ((Enc.init (.buf m2)).addText payloadText).small with
      | false => rfl
      | true => exact absurd (hr.small hq) (by decide)
    obtain ⟨-, g2, g3, -⟩ := hr.good hsm
    have hw := written_eq hr hsm
    have hst : ((Enc.init (.buf m2)).addText payloadText).errState = .ok := by
      simp only [Enc.errState, hsm, g2]
      rfl
    unfold Enc.finish
    simp only [hst, g3, List.isEmpty_nil, if_true]
    unfold written at hw
    have hn := hr.nul_eq
    cases hm : ((Enc.init (.buf m2)).addText payloadText).mem with
    | null c => rw [hm] at hn; cases hn
    | buf mm => rw [hm] at hw; simp only at hw ⊢; rw [hw]
  unfold decodeOnlyTest
  rw [hs]
  simp only
  rw [show (sign1Verify cfg QParams.std C junk (VerifyCtx.init (2 ^ optDecodeOnly)) _ true false).res =
    .ok () from v1]
  simp only [hw]
  exact if_neg (fun h => h v2)

/-! ### Errors of signing -/

/-- A map closed that was not opened, between the two steps. -/
theorem close_mismatch {me : SignCtx} (hpre : SignPre cfg me) (t : Bytes) {m : Bytes}
    (hm : 160 + me.kid.bytes.length + (me.contentTypeTstr.getD []).length + t.length ≤ m.length)
    (hlim : me.kid.bytes.length + (me.contentTypeTstr.getD []).length + t.length ≤ 1000) :
    ∃ me1 e1, sign1EncodeParameters cfg me (Enc.init (.buf m)) = (.ok (), me1, e1) ∧
      (sign1EncodeSignature cfg C me1 ((e1.addText t).closeMap)).1 = .error .cborFormatting := by
  obtain ⟨pp, e1, henc, hrel, -⟩ := params_ok cfg me false (Rel.init_rel (.buf m)) (ns := [])
    trivial (by decide) (by decide) hpre.alg hpre.sc hpre.ct
  refine ⟨_, e1, henc, ?_⟩
  have hh := hdr_length cfg me
  have hho : hdrOut cfg me [] = tagPart me ++ hdrBytes cfg me := by
    simp [hdrOut, hdrBytes, o1, tagPart]
  simp only [Bool.false_eq_true, if_false] at hrel
  rw [hho, Ideal.bstrWrap, Ideal.openLevel_cons _ (by decide) (by decide)
    (by simp [bumpN]) (by unfold Enc.maxStart; omega)] at hrel
  have r1 := (hrel.addText_rel t).closeMap_rel
  rw [Ideal.addText, Ideal.addItem_ok (ns := _ :: _) ⟨by simp, by simp⟩, Ideal.closeMap] at r1
  have r2 := r1.closeBstr_rel
  have hne : ∀ (o : Bytes) (n : Nest) (ns : List Nest), n.kind = .bstr →
      (((⟨o, none, n :: ns⟩ : Ideal).closeLevel .map fun n => encodeHead 5 (n.count / 2)).closeBstr) =
        ⟨o, some .closeMismatch, n :: ns⟩ := by
    intro o n ns hk
    simp [Ideal.closeLevel, Ideal.closeBstr, hk]
  rw [show bumpN (_ :: _) = _ :: _ from rfl, hne _ _ _ rfl] at r2
  have hb := encodeHead_length_le 3 t.length
  have hs : ((e1.addText t).closeMap.closeBstrWrap2.1).small = false := by
    cases hq : ((e1.addText t).closeMap.closeBstrWrap2.1).small with
    | false => rfl
    | true =>
      have := r2.small hq
      simp only [List.length_append, show (Mem.buf m).cap = m.length from rfl] at this hh
      omega
  have he := (r2.good hs).2.1
  unfold sign1EncodeSignature
  rw [encSig_other (dp := .nil) (x := .closeMismatch) hs he]

/-- **C72 (errors of signing).** Unknown algorithms, a map that is closed but was not
opened, and a small buffer are reported, whatever the adapter does. -/
theorem C72_signing_errors (hsc : cfg.disableShortCircuit = false) (m1 m2 m3 m4 : Bytes)
    (h3 : m3.length = 300) (h4 : m4.length = 15) :
    signingErrorsTest cfg C m1 m2 m3 m4 = 0 := by
  have hpre := ctxFault_none (signer_fault (cfg := cfg) hsc)
  have e1 : (sign1Sign cfg C (SignCtx.init shortCircuitFlag 0) (.data content) (.buf m1)).1 =
      .error .unsupportedSigningAlg :=
    ctxFault_some (by unfold ctxFault; rw [if_pos]; unfold algEnabled; simp [SignCtx.init]) _ _ _ _ _
  have e2 : (sign1Sign cfg C (SignCtx.init shortCircuitFlag (-4444444)) (.data content) (.buf m2)).1 =
      .error .unsupportedSigningAlg :=
    ctxFault_some (by unfold ctxFault; rw [if_pos]; unfold algEnabled; simp [SignCtx.init]) _ _ _ _ _
  obtain ⟨me1, en1, g1, g2⟩ := close_mismatch (C := C) hpre payloadText (m := m3)
    (by rw [h3]; decide) (by decide)
  have e4 : (sign1Sign cfg C signer (.data content) (.buf m4)).1 = .error .tooSmall := by
    obtain ⟨h, -⟩ := sign_run cfg C signer false (.data content) .nil content (.buf m4) hpre
      (payArg_wf (det := false) (p := .data content) rfl (by simp) _)
      (.inr (Nat.lt_of_le_of_lt (hdr_length cfg signer) (by decide)))
    obtain ⟨e', me', h⟩ := h (by
      rw [← begun_eq hpre.ct, begun_start rfl, signer_start, show (Mem.buf m4).cap = m4.length from rfl, h4]
      decide +kernel)
    show (signAadInternal cfg C signer false (.data content) .nil (.buf m4)).1 = _
    rw [h]
  unfold signingErrorsTest
  refine (if_neg (fun h => h e1)).trans ((if_neg (fun h => h e2)).trans ?_)
  rw [g1]
  simp only
  exact (if_neg (fun h => h g2)).trans (if_neg (fun h => h e4))

/-! ### Failing hashes -/

/-- **C72 (failing hashes).** An adapter whose hash cannot be started, or not finished, makes
signing fail with the code for that. -/
theorem C72_hash_fail (hsc : cfg.disableShortCircuit = false) (fresh : Bytes) (m1 m2 : Bytes)
    (h1 : m1.length = 200) (h2 : m2.length = 200) (hf : fresh.length = 64) :
    hashFailTest cfg (fun n => testCrypto cfg n fresh) m1 m2 = 0 := by
  have key : ∀ n, (createTbsHash cfg (testCrypto cfg n fresh) (-7) (.data (protMap (-7))) .nil
      (.data content) (maxHashSize cfg) = .error .hashGeneralFail) → ∀ m : Bytes, m.length = 200 →
      (sign1Sign cfg (testCrypto cfg n fresh) signer (.data content) (.buf m)).1 =
        .error .hashGeneralFail := by
    intro n hn m hm
    have hb : begun cfg signer false content = 63 - 1 := by
      rw [begun_start rfl, signer_start]
      decide +kernel
    have h := sign_outcome (cfg := cfg) (C := testCrypto cfg n fresh) (me := signer) (det := false)
      (payload := .data content) (aad := .nil) (test_signFits _ _ _) m rfl rfl (by simp) hn
      (by intro d hd; cases hd) (by rw [data_bytes, hb]; decide)
    have ho : outcome cfg (testCrypto cfg n fresh) signer false content []
        (.error .hashGeneralFail) m.length = .error .hashGeneralFail := by
      unfold outcome
      rw [signer_fault hsc]
      simp only
      rw [hb, hm, if_neg (by decide), if_neg (by decide)]
      rfl
    refine h.trans ?_
    rw [show outcome cfg (testCrypto cfg n fresh) signer false (UB.data content).bytes UB.nil.bytes
      (.error .hashGeneralFail) m.length = _ from ho]
    rfl
  have hal : hashAlgOfSigAlg cfg (-7) = -16 := by simp [hashAlgOfSigAlg, algES256, algSHA256]
  have k1 := key 1 (by
    rw [createTbsHash_eq, if_neg (by rw [hal]; decide)]
    rfl) m1 h1
  have k2 := key 2 (by
    rw [createTbsHash_eq, if_neg (by rw [hal]; decide), hal]
    obtain ⟨c, hc, -⟩ := test_foldl (tbsChunks (.data (protMap (-7))) .nil (.data content))
      (by decide +kernel) _ _ (Bcon.init_fed fresh hf)
    rw [show (testCrypto cfg 2 fresh).hashStart (-16) = .ok (some (Bcon.init fresh)) from rfl]
    show testFinish 2 (List.foldl testUpdate (some (Bcon.init fresh))
      (tbsChunks (.data (protMap (-7))) .nil (.data content))) (maxHashSize cfg) = .error _
    rw [hc]
    rfl) m2 h2
  unfold hashFailTest
  exact (if_neg (fun h => h k1)).trans (if_neg (fun h => h k2))

/-! ### Content types -/

/-- Signing with a content type, and verifying. -/
theorem typed (junk : Junk) (hsc : cfg.disableShortCircuit = false) (hD : Digests32 cfg C D)
    (hfit : SignFits C) {me : SignCtx} (halg : me.alg = -7)
    (hfl : me.flags = shortCircuitFlag) (hkid : specKid me = some scKid)
    (hf : ctxFault cfg me = none) {ct : ContentType}
    (hct : specCt cfg me = ct) (hnum : ∀ n, ct = .num n → n ≤ 65535) {m : Bytes}
    (hm : m.length = 200) (hlen : (beforeSig true (some scKid) ct (some content)).length ≤ 130)
    {k : Known} (hk : (scMsg [] true ct none []).read cfg.disableContentType = .ok k)
    (hkk : k.kid = some scKid) (hka : k.alg = -7) (hb : ¬ k.blocked) :
    ∃ r, (sign1Sign cfg C me (.data content) (.buf m)).1 = .ok (.data r) ∧
      (sign1Verify cfg QParams.std C junk verifier r true true).res = .ok () ∧
      (sign1Verify cfg QParams.std C junk verifier r true true).params.map (·.ctUint) =
        some (k.ctNum.getD 65536) ∧
      ((sign1Verify cfg QParams.std C junk verifier r true true).params.bind (·.ctTstr)).map (·.bytes) =
        k.ctText := by
  have hst : startOf cfg me false content = beforeSig true (some scKid) ct (some content) := by
    unfold startOf
    rw [hkid, hct, hfl]
    rfl
  have hs := sc_sign hD hfit (me := me) halg (by rw [hfl]; decide) hf false content .nil rfl m
    (by decide) (by decide) (by rw [hst, hm]; omega) (by rw [hst]; omega)
  rw [hst, prot7] at hs
  refine ⟨_, hs, ?_⟩
  obtain ⟨v1, v2⟩ := sc_verify junk hsc hD (ts := []) (tag := true) (ct := ct) (payload := some content)
    (s := sigOf D [] content) (by simp) (by simp) (sigOf_length hD _ _) (by omega) hnum
    (pay := .inline true) rfl (w := content) rfl (by decide) (aad := .nil) rfl (by decide)
    (k := k) hk hkk hka hb verifier (verifier_policy _) true
  rw [prot7] at v1
  have v1 := v1.trans (sigOf_outcome hD good_flags.1 good_flags.2 [] content [] content)
  rw [if_pos rfl] at v1
  exact ⟨v1, (v2 v1).2 rfl⟩

/-- **C72 (content types).** Both kinds of content type arrive, and setting both is an
error. -/
theorem C72_content_type (hsc : cfg.disableShortCircuit = false)
    (hct : cfg.disableContentType = false) (hD : Digests32 cfg C D)
    (hfit : SignFits C) (m1 m2 m3 : Bytes) (h1 : m1.length = 200) (h2 : m2.length = 200) :
    contentTypeTest cfg QParams.std C junk m1 m2 m3 = 0 := by
  have hf0 := signer_fault hsc
  have halg : ¬ ¬ algEnabled cfg (-7) := by
    unfold algEnabled
    simp
  obtain ⟨r1, s1, v1, u1, -⟩ := typed junk hsc hD hfit (me := signer.setContentTypeUint 42) rfl rfl rfl
    (by unfold ctxFault; exact (if_neg halg).trans ((if_neg (by rw [hsc]; simp)).trans (if_neg (fun h => by first | exact h.2.2 rfl | exact h.2.1 rfl))))
    (ct := .num 42) (by unfold specCt; rw [hct]; rfl) (by simp) h1 (by decide +kernel)
    (k := ⟨-7, some scKid, none, none, none, some 42, [], [], [], []⟩)
    (by rw [hct]; decide +kernel) rfl rfl (by decide)
  obtain ⟨r2, s2, v2, -, u2⟩ := typed junk hsc hD hfit
    (me := signer.setContentTypeTstr (some textPlain)) rfl rfl rfl
    (by unfold ctxFault; exact (if_neg halg).trans ((if_neg (by rw [hsc]; simp)).trans (if_neg (fun h => by first | exact h.2.2 rfl | exact h.2.1 rfl))))
    (ct := .text textPlain) (by unfold specCt; rw [hct]; rfl) (by simp) h2 (by decide +kernel)
    (k := ⟨-7, some scKid, none, none, some textPlain, none, [], [], [], []⟩)
    (by rw [hct]; decide +kernel) rfl rfl (by decide)
  have e3 : (sign1Sign cfg C ((signer.setContentTypeTstr (some textPlain)).setContentTypeUint 42)
      (.data payloadText) (.buf m3)).1 = .error .duplicateParameter :=
    ctxFault_some (by
      unfold ctxFault
      exact (if_neg halg).trans ((if_neg (by rw [hsc]; simp)).trans (if_pos ⟨hct, by decide, by decide⟩))) _ _ _ _ _
  unfold contentTypeTest
  simp only [s1, data_bytes]
  refine (if_neg (fun h => h v1)).trans ((if_neg (fun h => h u1)).trans ?_)
  simp only [s2, data_bytes]
  exact (if_neg (fun h => h v2)).trans ((if_neg (fun h => h u2)).trans (if_neg (fun h => h e3)))

/-! ### Tags -/

/-- The signer that omits the tag. -/
def untagger : SignCtx := SignCtx.init (shortCircuitFlag ||| 2 ^ optOmitTag) algES256

/-- The verifier that wants the tag. -/
def wantsTag : VerifyCtx := VerifyCtx.init (shortCircuitFlag ||| 2 ^ optTagRequired)

/-- The verifier that does not want the tag. -/
def noTagWanted : VerifyCtx := VerifyCtx.init (shortCircuitFlag ||| 2 ^ optTagProhibited)

theorem stepMsg_assoc (ts : List Nat) (tag : Bool) (w : Bytes) :
    stepMsg D ts tag w = ((ts.map (Spec.head 6)).flatten ++ beforeSig tag (some scKid) .none (some w)) ++
      ([0x58, 0x40] ++ sigOf D [] w) := (List.append_assoc ..).symm

theorem compareCwt_left {first a b : Bytes} (h2 : first.length + 36 ≤ a.length)
    (h3 : rfc8392.length ≤ (bufTail a (first.length + 36)).length) :
    compareCwt first (a ++ b) = compareCwt first a := by
  unfold compareCwt
  rw [bufHead_left (by omega), bufTail_left h2, bufHead_left h3]

theorem two_tags : ∀ t ∈ [900, 901], t < 2 ^ 64 := by decide

theorem tags_first (hsc : cfg.disableShortCircuit = false) (hD : Digests32 cfg C D)
    (hfit : SignFits C) (m : Bytes) (hm : m.length = 200) :
    tagsTest1 cfg QParams.std C junk m = 0 := by
  have hs := signer_two_step hsc hD hfit [900, 901] claims claimOctets claims_octets m
    (by decide +kernel) (by decide) (by decide) (by rw [hm]; decide +kernel) (by decide +kernel)
  have hl := sigOf_length hD [] claimOctets
  have hv : ∀ me : VerifyCtx, Spec.Opt.decodeOnly me.flags = false →
      Spec.Opt.allowShortCircuit me.flags = true → TagPolicy me.flags ([900, 901] ++ [18]).reverse →
      (sign1Verify cfg QParams.std C junk me (stepMsg D [900, 901] true claimOctets) true false).res =
        .ok () ∧
      (sign1Verify cfg QParams.std C junk me (stepMsg D [900, 901] true claimOctets) true
        false).payload.map (·.ub.bytes) = some claimOctets := by
    intro me f1 f2 hpol
    obtain ⟨v1, v2⟩ := plain_verify junk hsc hD (ts := [900, 901]) (tag := true) (w := claimOctets)
      (s := sigOf D [] claimOctets) two_tags (by decide) hl (by decide +kernel) (by decide)
      (aad := .nil) rfl (by decide) me hpol false
    have v1 := v1.trans (sigOf_outcome hD f1 f2 [] claimOctets [] claimOctets)
    rw [if_pos rfl] at v1
    exact ⟨v1, v2 v1⟩
  obtain ⟨v1, v2⟩ := hv verifier good_flags.1 good_flags.2 (verifier_policy _)
  obtain ⟨v3, -⟩ := hv wantsTag (by decide) (by decide) ⟨by decide, by decide⟩
  have v4 : (sign1Verify cfg QParams.std C junk noTagWanted (stepMsg D [900, 901] true claimOctets) true
      false).res = .error .incorrectlyTagged :=
    sc_untagged junk two_tags (by decide) hl (by decide +kernel) (by simp) true noTagWanted
      (fun h => h.2 (by decide) rfl) false
  have ht : ∀ n, n ≠ 4 → (sign1Verify cfg QParams.std C junk verifier
      (stepMsg D [900, 901] true claimOctets) true false).ctx.getNthTag n =
      some ((enclosing [18, 901, 900])[n]?.getD noTag) := fun n hn =>
    sc_tags junk two_tags (by decide) (tag := true) hl (by decide +kernel) (by simp) true verifier
      (by decide) (by decide) (by decide) false n hn
  have hc : compareCwt cwtFirstTagged (stepMsg D [900, 901] true claimOctets) = none := by
    rw [stepMsg_assoc, compareCwt_left (by decide +kernel) (by decide +kernel)]
    decide +kernel
  unfold tagsTest1
  rw [hs]
  simp only [hc]
  rw [v1]
  simp only
  refine (if_neg (fun h => h (ht 0 (by decide)))).trans ((if_neg (fun h => h (ht 1 (by decide)))).trans
    ((if_neg (fun h => h (ht 2 (by decide)))).trans ((if_neg (fun h => h v2)).trans ?_)))
  exact (if_neg (fun h => h v3)).trans (if_neg (fun h => h v4))

/-- Five tags and the one of COSE_Sign1. -/
def sixTags : Bytes := (([900, 901, 902, 903, 904] : List Nat).map (Spec.head 6)).flatten ++ [0xd2, 0x84]

theorem tags_second (hsc : cfg.disableShortCircuit = false) (hD : Digests32 cfg C D)
    (hfit : SignFits C) (m : Bytes) (hm : m.length = 200) :
    tagsTest2 cfg QParams.std C junk m = 0 := by
  have hs := signer_two_step hsc hD hfit [900, 901, 902, 903, 904] shortClaims
    (encAll shortClaims) rfl m (by decide +kernel) (by decide) (by decide +kernel)
    (by rw [hm]; decide +kernel) (by decide +kernel)
  have h0 : (verifyInternal cfg QParams.std C junk verifier sixTags .nil (.inline true) false).res =
      .error .tooManyTags := verify_of_decode_error (.inl (by decide +kernel))
  have hinc : ¬ ∃ v, IsView QParams.std sixTags v := by
    rintro ⟨v, -, n, c1, e0, e1, e2, e3, cEnd, mm, c2, hen, -⟩
    have : (match (entry QParams.std false ⟨0, sixTags⟩).1 with
      | .ok (_, ⟨_, _, none⟩) => true | _ => false) = false := by decide +kernel
    rw [hen] at this
    cases this
  have hd : ∃ x, stepMsg D [900, 901, 902, 903, 904] true (encAll shortClaims) = sixTags ++ x ∧
      x.length ≤ 1000 := by
    refine ⟨(beforeSig true (some scKid) .none (some (encAll shortClaims))).drop 2 ++
      ([0x58, 0x40] ++ sigOf D [] (encAll shortClaims)), ?_, ?_⟩
    · unfold stepMsg scMessage sixTags
      have h2 : beforeSig true (some scKid) .none (some (encAll shortClaims)) =
        [0xd2, 0x84] ++ (beforeSig true (some scKid) .none (some (encAll shortClaims))).drop 2 := by
        decide +kernel
      rw [List.append_assoc, ← List.append_assoc [0xd2, 0x84], ← h2]
    · have hl := sigOf_length hD [] (encAll shortClaims)
      have h3 : ((beforeSig true (some scKid) .none (some (encAll shortClaims))).drop 2).length ≤ 500 := by
        decide +kernel
      simp only [List.length_append, hl, List.length_cons, List.length_nil]
      omega
  obtain ⟨x, hx, hxl⟩ := hd
  have v1 : (sign1Verify cfg QParams.std C junk verifier
      (stepMsg D [900, 901, 902, 903, 904] true (encAll shortClaims)) true false).res =
      .error .tooManyTags := by
    rw [hx]
    have h6 : sixTags.length = 17 := by decide +kernel
    exact C61_refused cfg QParams.std C junk verifier sixTags .nil (.inline true) false (by decide) h0
      hinc (by decide) x (by rw [List.length_append, h6]; omega) C junk verifier rfl .nil false
  unfold tagsTest2
  rw [hs]
  simp only
  exact if_neg (fun h => h v1)

theorem tags_third (hsc : cfg.disableShortCircuit = false) (hD : Digests32 cfg C D)
    (hfit : SignFits C) (m : Bytes) (hm : m.length = 200) :
    tagsTest3 cfg QParams.std C junk m = 0 := by
  have hl := sigOf_length hD [] claimOctets
  have hct : specCt cfg untagger = .none := by unfold specCt; split <;> rfl
  have hst : startOf cfg untagger false claimOctets =
      beforeSig false (some scKid) .none (some claimOctets) := by
    unfold startOf
    rw [hct]
    rfl
  have hs := sc_two_step hD hfit (me := untagger) rfl (by decide) (signer_fault hsc) [900, 901] claims m
    (by decide +kernel) (by decide) (by rw [claims_octets]; decide) (by decide +kernel) (by decide)
    (by rw [claims_octets, hst, hm]; decide +kernel)
  rw [claims_octets, prot7, hct] at hs
  have hs : makeTwoStep cfg C untagger [900, 901] claims m =
    .ok (stepMsg D [900, 901] false claimOctets) := hs
  have v1 : (sign1Verify cfg QParams.std C junk wantsTag (stepMsg D [900, 901] false claimOctets) true
      false).res = .error .incorrectlyTagged :=
    sc_untagged junk two_tags (by decide) hl (by decide +kernel) (by simp) true wantsTag
      (fun h => by have := h.1 (by decide); cases this) false
  have v2 : (sign1Verify cfg QParams.std C junk noTagWanted (stepMsg D [900, 901] false claimOctets) true
      false).res = .ok () := by
    obtain ⟨v1, -⟩ := plain_verify junk hsc hD (ts := [900, 901]) (tag := false) (w := claimOctets)
      (s := sigOf D [] claimOctets) two_tags (by decide) hl (by decide +kernel) (by decide)
      (aad := .nil) rfl (by decide) noTagWanted ⟨by decide, by decide⟩ false
    have v1 := v1.trans (sigOf_outcome hD (by decide) (by decide) [] claimOctets [] claimOctets)
    rw [if_pos rfl] at v1
    exact v1
  have hc : bufHead (stepMsg D [900, 901] false claimOctets) cwtFirstOmitted.length = cwtFirstOmitted := by
    rw [stepMsg_assoc, bufHead_left (by decide +kernel)]
    decide +kernel
  unfold tagsTest3
  rw [show SignCtx.init (shortCircuitFlag ||| 2 ^ optOmitTag) algES256 = untagger from rfl, hs]
  simp only
  exact (if_neg (fun h => h hc)).trans ((if_neg (fun h => h v1)).trans (if_neg (fun h => h v2)))

/-- **C72 (tags).** Tags around a message are reported from the inside out, too many are an
error, and the options for the tag of COSE_Sign1 are followed. -/
theorem C72_tags (hsc : cfg.disableShortCircuit = false) (hD : Digests32 cfg C D)
    (hfit : SignFits C) (m1 m2 m3 : Bytes) (h1 : m1.length = 200) (h2 : m2.length = 200)
    (h3 : m3.length = 200) :
    tagsTest cfg QParams.std C junk m1 m2 m3 = 0 := by
  unfold tagsTest
  rw [if_neg (fun h => h (tags_first junk hsc hD hfit m1 h1)),
    if_neg (fun h => h (tags_second junk hsc hD hfit m2 h2))]
  exact tags_third junk hsc hD hfit m3 h3

/-! ### Sizes -/

theorem steps_of {me : SignCtx} {cs : List Content} {out : Mem} {r : UB}
    (h : twoStepSign cfg C me .nil cs out = .ok r) :
    ∃ me1 e1 me2 e2, sign1EncodeParameters cfg me (Enc.init out) = (.ok (), me1, e1) ∧
      sign1EncodeSignature cfg C me1 (runAll cs e1) = (.ok (), me2, e2) ∧ e2.finish = .ok r := by
  unfold twoStepSign at h
  generalize hp : sign1EncodeParameters cfg me (Enc.init out) = q at h
  obtain ⟨r1, me1, e1⟩ := q
  cases r1 with
  | error x => cases h
  | ok u =>
    simp only at h
    generalize hq : sign1EncodeSignatureAad cfg C me1 .nil (runAll cs e1) = q at h
    obtain ⟨r2, me2, e2⟩ := q
    cases r2 with
    | error x => cases h
    | ok u =>
      refine ⟨me1, e1, me2, e2, rfl, hq, ?_⟩
      simp only at h
      unfold callerFinish at h
      split at h
      · cases h
      · cases h
      · split at h
        · rename_i r' hr
          rw [hr]
          cases h
          rfl
        · cases h

/-- **C72 (sizes).** The size asked for is the size that results, both ways of signing. -/
theorem C72_get_size (hsc : cfg.disableShortCircuit = false) (hD : Digests32 cfg C D)
    (hfit : SignFits C) (cap : Nat) (hcap : 200 ≤ cap) (m1 m2 : Bytes) (h1 : m1.length = 300)
    (h2 : m2.length = 300) :
    getSizeTest cfg C cap m1 m2 = 0 := by
  have hlen : (beforeSig true (some scKid) .none (some payloadText)).length = 50 := by decide +kernel
  have hsz : ∀ s : Bytes, s.length = 64 → (finished cfg signer false payloadText s).length = 116 := by
    intro s hs
    rw [finished_start rfl _ _ hs, signer_start]
    simp only [List.length_append, hlen, List.length_cons, List.length_nil, hs]
  have hb : begun cfg signer false payloadText = 49 := by
    rw [begun_start rfl, signer_start, hlen]
  have hq : (signAadInternal cfg C signer false (.data payloadText) .nil (.null cap)).1 =
      .ok (.null 116) := by
    rw [C67_size (N := 4294967295) cfg C (fun _ => D) signer false (.data payloadText) .nil hD.hashes cap
      ⟨by decide, by decide, by decide, by decide⟩ rfl rfl (by simp) (by decide)
      (by rw [data_bytes, hb]; decide)]
    have ho : queryOutcome cfg C signer false payloadText []
        (toBeSignedHash cfg (fun _ => D) signer payloadText []) cap = .ok 116 := by
      unfold queryOutcome
      rw [signer_fault hsc, hD.tbs rfl]
      simp only
      rw [hb, if_neg (by omega)]
      rw [show askSize C signer payloadText [] (.ok (D (sigStructure (protectedHeader (-7)) []
        payloadText))) = .ok 64 from rfl]
      simp only
      rw [hsz _ (List.length_replicate ..), if_neg (by omega)]
    rw [show queryOutcome cfg C signer false (UB.data payloadText).bytes UB.nil.bytes
      (toBeSignedHash cfg (fun _ => D) signer (UB.data payloadText).bytes UB.nil.bytes) cap = _ from ho]
    rfl
  have hone : ∀ m : Bytes, m.length = 300 →
      (signAadInternal cfg C signer false (.data payloadText) .nil (.buf m)).1 =
        .ok (.data (plainMsg D [] payloadText)) := fun m hm =>
    signer_signs hsc hD hfit payloadText .nil rfl (by decide) (by decide) (by rw [hm]; decide +kernel)
      (by decide +kernel)
  have htwo : ∀ out, twoStepSign cfg C signer .nil [.raw payloadText] out =
      (signAadInternal cfg C signer false (.data payloadText) .nil out).1 := fun out =>
    C06_two_step_equals_one_shot cfg C hfit signer .nil [.raw payloadText] out (by decide +kernel)
      (by decide) (by decide +kernel) (fun h => by cases h.1)
  obtain ⟨a1, b1, c1, d1, p1, q1, r1⟩ := steps_of ((htwo _).trans hq)
  obtain ⟨a2, b2, c2, d2, p2, q2, r2⟩ := steps_of ((htwo _).trans (hone m1 h1))
  have hpl : (UB.data (plainMsg D [] payloadText)).len = 116 := by
    show (plainMsg D [] payloadText).length = 116
    unfold plainMsg scMessage
    simp only [List.length_append, hlen, List.length_cons, List.length_nil, sigOf_length hD]
    rfl
  unfold getSizeTest
  rw [p1]
  simp only
  rw [show sign1EncodeSignature cfg C a1 (b1.addEncoded (.data payloadText)) = _ from q1]
  simp only
  rw [r1]
  simp only
  refine (if_neg (by decide)).trans ?_
  rw [p2]
  simp only
  rw [show sign1EncodeSignature cfg C a2 (b2.addEncoded (.data payloadText)) = _ from q2]
  simp only
  rw [r2]
  simp only
  refine (if_neg (fun h => h hpl)).trans ?_
  rw [show (sign1Sign cfg C signer (.data payloadText) (.buf m2)).1 = _ from hone m2 h2]
  simp only
  exact if_neg (fun h => h hpl)

/-! ### Structure -/

theorem samples_toy (cfg : Config) : ∀ s ∈ samples,
    (verifyInternal cfg QParams.std toyCrypto noJunk (VerifyCtx.init (2 ^ optDecodeOnly)) s.1 .nil
      (.inline true) false).res = s.2 := by
  obtain ⟨b1, b2, b3, b4, b5, b6, b7, b8⟩ := cfg
  cases b1 <;> cases b2 <;> cases b3 <;> cases b4 <;> cases b5 <;> cases b6 <;> cases b7 <;> cases b8 <;>
    decide +kernel

/-- The loop over samples: 0 exactly if every sample has the result given with it, and
otherwise the number of the first that has not, with the result. -/
theorem sampleLoop_spec (P : QParams) : ∀ (i : Nat) (l : List (Bytes × Except Err Unit)),
    ((∀ s ∈ l, (sign1Verify cfg P C junk (VerifyCtx.init (2 ^ optDecodeOnly)) s.1 true false).res =
        s.2) ∧ sampleLoop cfg P C junk i l = 0) ∨
    ∃ (pre : List (Bytes × Except Err Unit)) (s : Bytes × Except Err Unit) (post : _),
      l = pre ++ s :: post ∧
      (∀ s ∈ pre, (sign1Verify cfg P C junk (VerifyCtx.init (2 ^ optDecodeOnly)) s.1 true false).res =
        s.2) ∧
      (sign1Verify cfg P C junk (VerifyCtx.init (2 ^ optDecodeOnly)) s.1 true false).res ≠ s.2 ∧
      sampleLoop cfg P C junk i l = (i + pre.length + 1 : Nat) * 100 +
        resNo (sign1Verify cfg P C junk (VerifyCtx.init (2 ^ optDecodeOnly)) s.1 true false).res
  | i, [] => .inl ⟨by simp, rfl⟩
  | i, s :: l => by
    by_cases hs : (sign1Verify cfg P C junk (VerifyCtx.init (2 ^ optDecodeOnly)) s.1 true false).res = s.2
    · have hl : sampleLoop cfg P C junk i (s :: l) = sampleLoop cfg P C junk (i + 1) l :=
        if_neg (fun h => h hs)
      rcases sampleLoop_spec P (i + 1) l with ⟨h1, h2⟩ | ⟨pre, t, post, h1, h2, h3, h4⟩
      · refine .inl ⟨fun t ht => ?_, hl.trans h2⟩
        rcases List.mem_cons.mp ht with rfl | ht
        · exact hs
        · exact h1 t ht
      · refine .inr ⟨s :: pre, t, post, by rw [h1]; rfl, fun x hx => ?_, h3, ?_⟩
        · rcases List.mem_cons.mp hx with rfl | hx
          · exact hs
          · exact h2 x hx
        · rw [hl, h4, List.length_cons]
          congr 3
          omega
    · exact .inr ⟨[], s, l, rfl, by simp, hs, (if_pos hs).trans (by simp)⟩

/-- **C72 (structure).** Every sample gets the result in the table, in every build and with
every adapter. -/
theorem C72_structure : structureTest cfg QParams.std C junk = 0 ∧
    ∀ s ∈ samples, (sign1Verify cfg QParams.std C junk (VerifyCtx.init (2 ^ optDecodeOnly)) s.1 true
      false).res = s.2 := by
  have h : ∀ s ∈ samples, (sign1Verify cfg QParams.std C junk (VerifyCtx.init (2 ^ optDecodeOnly)) s.1
      true false).res = s.2 := by
    intro s hs
    have h1 := (C14_no_crypto cfg QParams.std toyCrypto noJunk (VerifyCtx.init (2 ^ optDecodeOnly)) s.1
      .nil (.inline true) false C Key.null (by decide)).1
    have h2 : sign1Verify cfg QParams.std C junk (VerifyCtx.init (2 ^ optDecodeOnly)) s.1 true false =
        verifyInternal cfg QParams.std C noJunk (VerifyCtx.init (2 ^ optDecodeOnly)) s.1 .nil
          (.inline true) false := C20_no_uninitialised _ _ _ _ _ _ _ _ _ _
    rw [h2]
    exact Eq.trans rfl (h1.trans (samples_toy cfg s hs))
  refine ⟨?_, h⟩
  rcases sampleLoop_spec (cfg := cfg) (C := C) junk QParams.std 0 samples with ⟨-, h2⟩ | ⟨pre, s, post, h1, -, h3, -⟩
  · exact h2
  · exact absurd (h s (by rw [h1]; simp)) h3

/-! ### The test and the order of arguments -/

/-- **C72 (order).** The self test passes although `t_cose_sign1_sign_aad` takes the
payload for the additional data (C05), because it also calls it with the arguments in
the wrong order. With a function that takes them as documented it would fail, with
every adapter that hashes. -/
theorem C72_order_masked (hsc : cfg.disableShortCircuit = false) (hD : Digests32 cfg C D)
    (hfit : SignFits C) (m : Bytes) (hm : m.length = 200) :
    selfTestAad cfg QParams.std C junk (fun me a b out => (sign1SignAad cfg C me a b out).1) m = 0 ∧
    selfTestAad cfg QParams.std C junk
      (fun me aad payload out => (signAadInternal cfg C me false payload aad out).1) m =
      if D (es256Tbs someAad someAad) = D (es256Tbs content someAad) then 3000 else 2013 := by
  refine ⟨self_aad junk hsc hD hfit hm, ?_⟩
  have hs : (signAadInternal cfg C signer false (.data someAad) (.data content) (.buf m)).1 =
      .ok (.data (plainMsg D content someAad)) := signer_signs hsc hD hfit someAad (.data content) rfl
    (by decide) (by decide) (by rw [hm]; decide +kernel) (by decide +kernel)
  obtain ⟨v1, v2⟩ := verify_plainMsg junk hsc hD (a := content) (w := someAad) (a' := .data someAad)
    (by decide +kernel) (by decide) rfl (by decide)
  rw [data_bytes] at v1
  unfold selfTestAad
  simp only [hs, data_bytes]
  by_cases hc : D (es256Tbs someAad someAad) = D (es256Tbs content someAad)
  · rw [if_pos hc] at v1
    rw [if_pos hc, v1]
    exact if_pos (fun h => absurd ((v2 v1).symm.trans h) (by decide))
  · rw [if_neg hc] at v1
    rw [if_neg hc, v1]
    rfl

/-! ### The test adapter -/

theorem test_digests32 (fresh : Bytes) (hf : fresh.length = 64) :
    Digests32 cfg (testCrypto cfg 0 fresh) Sha256.sha256 := by
  refine ⟨?_, fun b => by simp [Sha256.sha256, Sha256.Vars.bytes, Sha256.beBytes]⟩
  exact (test_digests cfg 0 rfl fresh hf).as

/-- **C72 (test adapter).** With the adapter of the tests, which computes SHA-256, all these
tests pass; no hash is assumed. -/
theorem C72_test_adapter (hsc : cfg.disableShortCircuit = false) (fresh : Bytes)
    (hf : fresh.length = 64) (cap : Nat) (hcap : 200 ≤ cap) (s t u v w : Bytes)
    (hs : s.length = 200) (ht : t.length = 200) (hu : u.length = 300) (hv : v.length = 15)
    (hw : w.length = 10) :
    selfTest cfg QParams.std (testCrypto cfg 0 fresh) junk s t = 0 ∧
    detachedTest cfg QParams.std (testCrypto cfg 0 fresh) junk s = 0 ∧
    verifyFailTest cfg QParams.std (testCrypto cfg 0 fresh) junk s t = 0 ∧
    signingErrorsTest cfg (testCrypto cfg 0 fresh) u u u v = 0 ∧
    makeCwtTest cfg QParams.std (testCrypto cfg 0 fresh) junk s = 0 ∧
    decodeOnlyTest cfg QParams.std (testCrypto cfg 0 fresh) junk s w = 0 ∧
    coseExampleTest cfg (testCrypto cfg 0 fresh) s = 0 ∧
    (cfg.disableContentType = false →
      contentTypeTest cfg QParams.std (testCrypto cfg 0 fresh) junk s t t = 0) ∧
    structureTest cfg QParams.std (testCrypto cfg 0 fresh) junk = 0 ∧
    hashFailTest cfg (fun n => testCrypto cfg n fresh) s t = 0 ∧
    tagsTest cfg QParams.std (testCrypto cfg 0 fresh) junk s s s = 0 ∧
    getSizeTest cfg (testCrypto cfg 0 fresh) cap u u = 0 := by
  have hD := test_digests32 (cfg := cfg) fresh hf
  have hfit := test_signFits cfg 0 fresh
  have h1 : Sha256.sha256 (es256Tbs [] content) = hashOfTbs := by
    rw [← Sha256.fastSha_eq]; decide +kernel
  have h2 : Sha256.sha256 (es256Tbs [] tampered) ≠ Sha256.sha256 (es256Tbs [] content) := by
    rw [← Sha256.fastSha_eq, ← Sha256.fastSha_eq]; decide +kernel
  have h3 : Sha256.sha256 (es256Tbs homeAad content) ≠ Sha256.sha256 (es256Tbs someAad content) := by
    rw [← Sha256.fastSha_eq, ← Sha256.fastSha_eq]; decide +kernel
  refine ⟨?_, ?_, ?_, C72_signing_errors hsc u u u v hu hv, C72_cwt junk hsc hD hfit s hs,
    C72_decode_only junk hsc hD hfit s w hs hw, C72_example hsc hD hfit s hs,
    fun hct => C72_content_type junk hsc hct hD hfit s t t hs ht, (C72_structure junk).1,
    C72_hash_fail hsc fresh s t hs ht hf, C72_tags junk hsc hD hfit s s s hs hs hs,
    C72_get_size hsc hD hfit cap hcap u u hu hu⟩
  · rw [C72_self junk hsc hD hfit s t hs ht, if_pos h1]
  · rw [C72_detached junk hsc hD hfit s hs, if_pos h1]
  · rw [C72_verify_fail junk hsc hD hfit s t hs ht, if_pos ⟨h2, h3⟩]

/- The conditions hold, with buffers and hash contexts full of something else. -/
example : tagsTest Config.full QParams.std (testCrypto Config.full 0 (List.replicate 64 0x5a)) noJunk
    (List.replicate 200 1) (List.replicate 200 1) (List.replicate 200 1) = 0 :=
  (C72_test_adapter noJunk rfl _ List.length_replicate 300 (by decide) (List.replicate 200 1)
    (List.replicate 200 2) (List.replicate 300 3) (List.replicate 15 4) (List.replicate 10 5)
    List.length_replicate List.length_replicate List.length_replicate List.length_replicate
    List.length_replicate).2.2.2.2.2.2.2.2.2.2.1

/- With SHA-256 the self test would report 2013 (T_COSE_ERR_SIG_VERIFY) if signing took its
arguments in the order of its documentation; with the toy hash the self test reports that the
hash is not the one expected. -/
example : selfTestAad Config.full QParams.std (testCrypto Config.full 0 (List.replicate 64 0)) noJunk
    (fun me aad payload out => (signAadInternal Config.full
      (testCrypto Config.full 0 (List.replicate 64 0)) me false payload aad out).1)
    (List.replicate 200 0xa5) = 2013 := by
  rw [(C72_order_masked noJunk rfl (test_digests32 _ List.length_replicate) (test_signFits _ _ _) _
    List.length_replicate).2]
  refine if_neg ?_
  rw [← Sha256.fastSha_eq, ← Sha256.fastSha_eq]
  decide +kernel

example : selfTest Config.full QParams.std toyCrypto noJunk (List.replicate 200 0xa5)
    (List.replicate 200 0xa5) = 4000 := by
  decide +kernel

/- The sample messages, and the first that the loop reports if a result is wrong. -/
example : samples.length = 10 ∧
    sampleLoop Config.full QParams.std toyCrypto noJunk 0 (samples.take 2 ++ [([0x80], .ok ())]) ≠ 0 := by
  decide +kernel

end TCose.Props
