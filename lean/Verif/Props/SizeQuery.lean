import Verif.Props.SignOutcome

/-!
# C67: the size query with OpenSSL and with PSA
-/

namespace TCose.Props
open TCose Spec

/-- What is hashed in a size query: the Sig_structure without the octets of the
protected header and of an inline payload, which are not there yet. -/
def hashedInQuery (me : SignCtx) (det : Bool) (payload aad : Bytes) : Bytes :=
  [0x84, 0x6a] ++ "Signature1".toUTF8.toList ++ Spec.head 2 (protectedHeader me.alg).length ++
    Spec.head 2 aad.length ++ aad ++ Spec.head 2 payload.length ++ (if det then payload else [])

theorem query_parts (me : SignCtx) (det : Bool) (payload : Bytes) {aad : UB} (ha : aad.wf) :
    (given (tbsChunks (seen true (protMap me.alg)) aad (paySeen det true payload))).flatten =
      hashedInQuery me det payload aad.bytes := by
  have hc : "Signature1".toUTF8.toList = contextString := by decide +kernel
  unfold hashedInQuery tbsChunks
  rw [hc, protectedHeader_eq]
  cases aad with
  | data b => cases det <;> simp [given, seen, paySeen, UB.len, UB.bytes, encodeHead_eq_head]
  | null n =>
    have : n = 0 := ha
    subst this
    cases det <;> simp [given, seen, paySeen, UB.len, UB.bytes, encodeHead_eq_head]

variable (cfg : Config) (me : SignCtx) (det : Bool) (payload aad : UB)

/-- **C67 (size query, OpenSSL).** With the OpenSSL adapter, whatever its hash calls
report: the error of the first that fails is returned. -/
theorem C67_size_openssl (L : Ossl.Lib)
    (hdg : ∀ md, (L.digestFinal md).2.length ≤ digestRoom cfg) (n : Nat)
    (hp : payload.wf) (ha : aad.wf) (hd : det = true → payload.isNull = false)
    (hx : Spec.Opt.shortCircuit me.flags = false → me.alg = -8 → me.aux.isNull = true)
    (hlim : begun cfg me det payload.bytes < 2 ^ 32 - 9) :
    ∃ parts, parts.flatten = hashedInQuery me det payload.bytes aad.bytes ∧
      (signAadInternal cfg (Ossl.crypto cfg L) me det payload aad (.null n)).1 =
        (queryOutcome cfg (Ossl.crypto cfg L) me det payload.bytes aad.bytes
          (match hashFor cfg me.alg with
            | none => .error .unsupportedSigningAlg
            | some h => Spec.Ossl.hashRun L h parts) n).map UB.null := by
  refine ⟨_, query_parts me det payload.bytes ha, ?_⟩
  refine size_outcome cfg _ me det payload aad n hp ha hd (hash_any ?_) hx hlim
  rw [maxHashSize_eq, createTbsHash_eq]
  cases hh : hashFor cfg me.alg with
  | none => rw [if_pos (hashFor_none.mp hh)]
  | some h =>
    obtain ⟨h1, h2⟩ := hashFor_some hh
    rw [if_neg h2, h1]
    have := ossl_hash_run cfg L me.alg h
      (tbsChunks (seen true (protMap me.alg)) aad (paySeen det true payload.bytes)) (digestRoom cfg) hh
      (fun md _ => hdg md)
    simp only []
    rw [← this]
    cases (Ossl.crypto cfg L).hashStart h <;> rfl

/-- **C67 (size query, PSA).** The same with the PSA adapter. -/
theorem C67_size_psa (L : Psa.Lib) (n : Nat)
    (hp : payload.wf) (ha : aad.wf) (hd : det = true → payload.isNull = false)
    (hx : Spec.Opt.shortCircuit me.flags = false → me.alg = -8 → me.aux.isNull = true)
    (hlim : begun cfg me det payload.bytes < 2 ^ 32 - 9) :
    ∃ parts, parts.flatten = hashedInQuery me det payload.bytes aad.bytes ∧
      (signAadInternal cfg (Psa.crypto cfg L) me det payload aad (.null n)).1 =
        (queryOutcome cfg (Psa.crypto cfg L) me det payload.bytes aad.bytes
          (match hashFor cfg me.alg with
            | none => .error .unsupportedSigningAlg
            | some h => Spec.Psa.coded Spec.Psa.hashTableCodes .hashGeneralFail
                (Spec.Psa.hashRun L (Spec.Psa.hashTable h) parts (digestRoom cfg)).1
                (Spec.Psa.hashRun L (Spec.Psa.hashTable h) parts (digestRoom cfg)).2) n).map UB.null := by
  refine ⟨_, query_parts me det payload.bytes ha, ?_⟩
  refine size_outcome cfg _ me det payload aad n hp ha hd (hash_any ?_) hx hlim
  rw [maxHashSize_eq, createTbsHash_eq]
  cases hh : hashFor cfg me.alg with
  | none => rw [if_pos (hashFor_none.mp hh)]
  | some h =>
    obtain ⟨h1, h2⟩ := hashFor_some hh
    rw [if_neg h2, h1]
    have := psa_hash_run cfg L h
      (tbsChunks (seen true (protMap me.alg)) aad (paySeen det true payload.bytes)) (digestRoom cfg)
    rw [hashId_of_hashFor hh] at this
    simp only []
    rw [← this]
    cases (Psa.crypto cfg L).hashStart h <;> rfl

/-- Libraries that fail while hashing make the size query fail, with their codes; and one
that works. -/
example :
    (sign1Sign Config.full (Ossl.crypto Config.full { Ossl.demoLib 256 with mdCtxNew := false }) exCtx
      (.data [1, 2, 3]) (.null 100)).1 = .error .insufficientMemory ∧
    (sign1Sign Config.full (Ossl.crypto Config.full (Ossl.demoLib 256)) exCtx
      (.data [1, 2, 3]) (.null 100)).1 = .ok (.null 87) ∧
    (sign1Sign Config.full (Psa.crypto Config.full (Psa.demoPsa fun _ => true))
      { exCtx with key := ⟨.psa, 5⟩ } (.data [1, 2, 3]) (.null 100)).1 = .error .hashGeneralFail ∧
    hashedInQuery exCtx false [1, 2, 3] [9] =
      0x84 :: 0x6a :: "Signature1".toUTF8.toList ++ [0x43, 0x41, 9, 0x43] := by
  decide +kernel

end TCose.Props
