import Verif.Props.Accepts

/-!
# C115: what the test adapter accepts
-/

namespace TCose.Props
open TCose Spec

variable (cfg : Config) (P : QParams) (C : Crypto) (junk : Junk)
  (me : VerifyCtx) (msg : Bytes) (aad : UB) (pay : VPayload) (want : Bool)

/-- A string with the form of a message is judged by `settle`. -/
theorem sign1_run (hP : P.maxTags ≤ 4) (hl : P.Local) (hargs : ArgsOk aad pay) {f : Found4}
    (hf : IsSign1 P cfg.disableContentType me.flags pay.octets msg f) :
    (verifyInternal cfg P C junk me msg aad pay want).res =
      settle cfg C me f.known (fun alg => createTbsHash cfg C alg (.data f.prot) aad
        (pay.buffer f.payload) (maxHashSize cfg)) (sigStructure f.prot aad.bytes f.payload) f.sig := by
  obtain ⟨hlen, x, xs, hp, hr, h1, h2, h0, h3⟩ := hf
  have hh : HeaderIn P x hp := by
    intro ys pb hy hy0
    rw [h1] at hy
    cases hy
    rw [((readArray_ok P).mp h3).1] at hy0
    cases hy0
    exact h0
  have e := item_run cfg P C junk me x msg [] aad pay hp want hP hl hr (by simpa using hlen) hh hargs
  rw [List.append_nil] at e
  rw [e]
  unfold itemOutcome
  rw [h1]
  simp only
  have h3' : readArray P cfg.disableContentType pay.octets xs hp (!([] : Bytes).isEmpty) = .ok f := h3
  rw [if_neg (not_not_intro h2), h3']

/-- **C115.** What is accepted with the test adapter, when more than decoding is asked for, is a message with a
short-circuit signature: the caller allows it, the build has it, the key id is the one for it, the hash is SHA-256 and the
signature begins with the hash of what is to be signed.  No key makes another message accepted. -/
theorem C115_accepts (mode : Nat) (fresh : Bytes) (hfr : fresh.length = 64) (hP : P.maxTags ≤ 4)
    (hl : P.Local) (hargs : ArgsOk aad pay)
    (hN : ∀ f, IsSign1 P cfg.disableContentType me.flags pay.octets msg f →
      PiecesUpTo (2 ^ 32 - 1) f.prot aad.bytes f.payload)
    (hd : Opt.decodeOnly me.flags = false)
    (h : (verifyInternal cfg P (testCrypto cfg mode fresh) junk me msg aad pay want).res = .ok ()) :
    cfg.disableShortCircuit = false ∧ Opt.allowShortCircuit me.flags = true ∧ mode ≠ 1 ∧ mode ≠ 2 ∧
      ∃ f, IsSign1 P cfg.disableContentType me.flags pay.octets msg f ∧ f.known.kid = some scKid ∧
        hashFor cfg f.known.alg = some (-16) ∧
        Sha256.sha256 (sigStructure f.prot aad.bytes f.payload) <+: f.sig := by
  obtain ⟨f, hf, hs⟩ := (C90_test cfg P junk me msg aad pay want mode fresh hfr hP hl hargs hN).mp h
  unfold settle at hs
  simp only [hd, Bool.false_eq_true, if_false] at hs
  split at hs
  · cases hs
  split at hs
  · cases hs
  split at hs
  · rename_i h3
    split at hs
    · cases hs
    rename_i h4
    have h4' : Opt.allowShortCircuit me.flags = true := by simpa using h4
    unfold testDigest at hs
    cases hh : hashFor cfg f.known.alg with
    | none => rw [hh] at hs; cases hs
    | some ha =>
      rw [hh] at hs
      by_cases m1 : mode = 1
      · simp [m1] at hs
      by_cases h16 : ha = -16
      · by_cases m2 : mode = 2
        · simp [m2, h16] at hs
        · refine ⟨h3.1, h4', m1, m2, f, hf, h3.2, by rw [hh, h16], ?_⟩
          by_cases hn : Sha256.sha256 (sigStructure f.prot aad.bytes f.payload) <+: f.sig
          · exact hn
          · simp [m1, m2, h16, hn] at hs
      · simp [m1, h16] at hs
  · split at hs
    · split at hs
      · cases hs
      split at hs
      · cases hs
      cases hs
    · split at hs <;> cases hs

/-- **C115.** A message in order that is not a short-circuit one, with a key id if one is required and no
unknown critical parameter, is refused with UNSUPPORTED_SIGNING_ALG if the algorithm is EdDSA and there is an
auxiliary buffer with room for what is to be signed. -/
theorem C115_eddsa (mode : Nat) (fresh : Bytes) (hP : P.maxTags ≤ 4) (hl : P.Local) (hargs : ArgsOk aad pay) {f : Found4}
    (hf : IsSign1 P cfg.disableContentType me.flags pay.octets msg f)
    (hd : Opt.decodeOnly me.flags = false) (hk : Opt.requireKid me.flags = true → f.known.kid ≠ none)
    (hb : Opt.unknownCritAllowed me.flags = false → ¬ f.known.blocked)
    (hs : cfg.disableShortCircuit = false → f.known.kid ≠ some scKid)
    (he : cfg.disableEDDSA = false) (ha : f.known.alg = -8)
    (hx : (sigStructure f.prot aad.bytes f.payload).length ≤ me.aux.cap) (hn : me.aux.isNull = false) :
    (verifyInternal cfg P (testCrypto cfg mode fresh) junk me msg aad pay want).res = .error .unsupportedSigningAlg := by
  rw [sign1_run cfg P _ junk me msg aad pay want hP hl hargs hf]
  unfold settle
  rw [if_neg (fun h => hk h.1 h.2), if_neg (fun h => hb h.1 h.2), if_neg (fun h => hs h.1 h.2), if_pos ⟨he, ha⟩,
    if_neg (by omega), if_neg (by simp [hd]), if_neg (by simp [hn])]
  rfl

/-- **C115.** With another algorithm it is refused with the error of hashing or, if hashing succeeds, with
UNSUPPORTED_SIGNING_ALG. -/
theorem C115_hashed (mode : Nat) (fresh : Bytes) (hfr : fresh.length = 64) (hP : P.maxTags ≤ 4) (hl : P.Local)
    (hargs : ArgsOk aad pay) {f : Found4}
    (hf : IsSign1 P cfg.disableContentType me.flags pay.octets msg f)
    (hN : PiecesUpTo (2 ^ 32 - 1) f.prot aad.bytes f.payload)
    (hd : Opt.decodeOnly me.flags = false) (hk : Opt.requireKid me.flags = true → f.known.kid ≠ none)
    (hb : Opt.unknownCritAllowed me.flags = false → ¬ f.known.blocked)
    (hs : cfg.disableShortCircuit = false → f.known.kid ≠ some scKid)
    (ha : cfg.disableEDDSA = false → f.known.alg ≠ -8) :
    (verifyInternal cfg P (testCrypto cfg mode fresh) junk me msg aad pay want).res = .error
      (match hashFor cfg f.known.alg with
       | none => .unsupportedSigningAlg
       | some h => if mode = 1 then .hashGeneralFail else if h ≠ -16 then .unsupportedHash
           else if mode = 2 then .hashGeneralFail else .unsupportedSigningAlg) := by
  rw [sign1_run cfg P _ junk me msg aad pay want hP hl hargs hf,
    sign1_settle cfg P _ me msg aad pay (digest := testDigest cfg mode (sigStructure f.prot aad.bytes f.payload)) hf hargs]
  · unfold settle
    rw [if_neg (fun h => hk h.1 h.2), if_neg (fun h => hb h.1 h.2), if_neg (fun h => hs h.1 h.2),
      if_neg (fun h => ha h.1 h.2), if_neg (by simp [hd])]
    unfold testDigest
    cases hashFor cfg f.known.alg with
    | none => rfl
    | some h =>
      by_cases m1 : mode = 1
      · simp [m1]
      by_cases h16 : h = -16
      · by_cases m2 : mode = 2
        · simp [m2, h16]
        · simp [m1, m2, h16, testCrypto]
      · simp [m1, h16]
  · intro hpb hpw
    rw [test_tbs_hash cfg mode fresh hfr f.known.alg (p := .data f.prot) rfl hargs.1 hpw
      (by rw [hpb]; exact hN), hpb]
    rfl

/-- A message with the algorithm in `alg`, verified with the test adapter. -/
def testVerify (mode flags : Nat) (aux : Mem) (alg : Bytes) (unprot : Bytes) : Except Err Unit :=
  (verifyInternal Config.full QParams.std (testCrypto Config.full mode (List.replicate 64 7)) noJunk
    { VerifyCtx.init flags with aux := aux }
    ([0x84, 0x40 + UInt8.ofNat (alg.length + 2), 0xa1, 0x01] ++ alg ++ unprot ++ [0x41, 0x07, 0x41, 0x09]) (.null 0)
    (.inline true) true).res

/-- EdDSA with an auxiliary buffer, with a short one; ES256, also with hashing that fails; ES384, for which there is no
hash; and an algorithm that is not known. -/
example :
    testVerify 0 0 (.buf (List.replicate 100 0)) [0x27] [0xa0] = .error .unsupportedSigningAlg ∧
    testVerify 0 0 (.buf [0]) [0x27] [0xa0] = .error .auxiliaryBufferSize ∧
    testVerify 0 0 (.buf []) [0x26] [0xa0] = .error .unsupportedSigningAlg ∧
    testVerify 2 0 (.buf []) [0x26] [0xa0] = .error .hashGeneralFail ∧
    testVerify 0 0 (.buf []) [0x38, 0x22] [0xa0] = .error .unsupportedHash ∧
    testVerify 0 0 (.buf []) [0x18, 0x63] [0xa0] = .error .unsupportedSigningAlg := by
  decide +kernel

end TCose.Props
