import Verif.Lemmas.SignMain
import Verif.Crypto.Toy

/-!
# C01, C02: the to-be-signed octets
-/

namespace TCose.Props
open TCose

/-- **C02 (EdDSA path).** Whatever `create_tbs` writes is the Sig_structure of
RFC 8152; it fails only for lack of room, and never copies from NULL. -/
theorem C02_create_tbs (prot aad payload : UB) (hp : prot.wf) (ha : aad.wf) (hw : payload.wf)
    (m : Bytes) :
    createTbs prot aad payload (.buf m) =
      (if m.length < (Spec.sigStructure prot.bytes aad.bytes payload.bytes).length
        then .error .tooSmall
        else .ok (.data (Spec.sigStructure prot.bytes aad.bytes payload.bytes)), false) := by
  rw [createTbs_run (.buf m) (UB.wf_src hp _) (UB.wf_src ha _) (UB.wf_src hw _)]
  rfl

example : (createTbs (.data [0xa1, 1, 0x26]) .nil (.data [1, 2]) (.buf (List.replicate 22 0))).1
    = .ok (.data ([0x84, 0x6a] ++ contextString ++ [0x43, 0xa1, 1, 0x26, 0x40, 0x42, 1, 2])) := by
  decide +kernel

/-- **C02 (hash path).** For every build configuration, every adapter whose three
hash functions compute a digest `D`, and all inputs (NULL counting as empty):
the digest used is the digest of the Sig_structure under the hash the COSE
registry pairs with the algorithm. -/
theorem C02_create_tbs_hash (cfg : Config) (C : Crypto) (D : Int → Bytes → Bytes)
    (hD : Spec.StreamHash C D) (alg : Int) (prot aad payload : UB) (room : Nat) (h : Bytes)
    (hp : prot.wf) (ha : aad.wf) (hw : payload.wf)
    (hh : createTbsHash cfg C alg prot aad payload room = .ok h) :
    ∃ hal, Spec.hashOf alg = some hal ∧
      h = D hal (Spec.sigStructure prot.bytes aad.bytes payload.bytes) :=
  createTbsHash_ok hD hp ha hw hh

example : Spec.StreamHash toyCrypto toyDigest ∧
    createTbsHash Config.full toyCrypto algES256 (.data [0xa1, 1, 0x26]) .nil (.data [1, 2]) 64
      = .ok (toyDigest algSHA256 (Spec.sigStructure [0xa1, 1, 0x26] [] [1, 2])) :=
  ⟨toy_streamHash, by decide +kernel⟩

/-- **C02 (no other outcome).** Hashing is refused exactly for the algorithms that
have no hash in this build; otherwise the outcome is the adapter's. -/
theorem C02_hash_unsupported (cfg : Config) (C : Crypto) (alg : Int) (prot aad payload : UB)
    (room : Nat) (h : Spec.hashOf alg = none) :
    createTbsHash cfg C alg prot aad payload room = .error .unsupportedSigningAlg := by
  rw [createTbsHash_eq, if_pos]
  refine Classical.byContradiction fun hc => ?_
  rw [hashAlg_hashOf hc] at h
  cases h

example : Spec.hashOf algEDDSA = none := by decide

/-- **C01.** The to-be-signed octets determine the protected header, the
external data and the payload. The bound is the range of `size_t`. -/
theorem C01_tbs_injective (prot aad payload prot' aad' payload' : UB) (m m' t : Bytes)
    (hp : prot.wf) (ha : aad.wf) (hw : payload.wf)
    (hp' : prot'.wf) (ha' : aad'.wf) (hw' : payload'.wf)
    (b1 : prot.len < 2 ^ 64) (b2 : aad.len < 2 ^ 64) (b3 : payload.len < 2 ^ 64)
    (b1' : prot'.len < 2 ^ 64) (b2' : aad'.len < 2 ^ 64) (b3' : payload'.len < 2 ^ 64)
    (h : (createTbs prot aad payload (.buf m)).1 = .ok (.data t))
    (h' : (createTbs prot' aad' payload' (.buf m')).1 = .ok (.data t)) :
    prot.bytes = prot'.bytes ∧ aad.bytes = aad'.bytes ∧ payload.bytes = payload'.bytes := by
  rw [C02_create_tbs _ _ _ hp ha hw] at h
  rw [C02_create_tbs _ _ _ hp' ha' hw'] at h'
  simp only [] at h h'
  split at h
  · cases h
  · split at h'
    · cases h'
    · injection h with h; injection h with h
      injection h' with h'; injection h' with h'
      rw [UB.wf] at *
      exact sigStructure_inj (by omega) (by omega) (by omega) (by omega) (by omega) (by omega)
        (h.trans h'.symm)

example : (createTbs (.data [1]) (.data [2]) (.data [3]) (.buf (List.replicate 30 0))).1
    = .ok (.data ([0x84, 0x6a] ++ contextString ++ [0x41, 1, 0x41, 2, 0x41, 3])) := by decide +kernel

/-- **C01 (hash path).** The octets fed to the hash, concatenated, are injective
too: with a hash that has no collision on the two Sig_structures, equal digests
mean equal protected header, external data and payload. -/
theorem C01_hash_injective (cfg : Config) (C : Crypto) (D : Int → Bytes → Bytes)
    (hD : Spec.StreamHash C D) (alg : Int) (prot aad payload prot' aad' payload' : UB)
    (room : Nat) (h : Bytes)
    (hp : prot.wf) (ha : aad.wf) (hw : payload.wf)
    (hp' : prot'.wf) (ha' : aad'.wf) (hw' : payload'.wf)
    (b1 : prot.len < 2 ^ 64) (b2 : aad.len < 2 ^ 64) (b3 : payload.len < 2 ^ 64)
    (b1' : prot'.len < 2 ^ 64) (b2' : aad'.len < 2 ^ 64) (b3' : payload'.len < 2 ^ 64)
    (hcoll : ∀ hal, Spec.hashOf alg = some hal →
      D hal (Spec.sigStructure prot.bytes aad.bytes payload.bytes)
        = D hal (Spec.sigStructure prot'.bytes aad'.bytes payload'.bytes) →
      Spec.sigStructure prot.bytes aad.bytes payload.bytes
        = Spec.sigStructure prot'.bytes aad'.bytes payload'.bytes)
    (h1 : createTbsHash cfg C alg prot aad payload room = .ok h)
    (h2 : createTbsHash cfg C alg prot' aad' payload' room = .ok h) :
    prot.bytes = prot'.bytes ∧ aad.bytes = aad'.bytes ∧ payload.bytes = payload'.bytes := by
  obtain ⟨hal, e1, e2⟩ := C02_create_tbs_hash cfg C D hD alg _ _ _ room h hp ha hw h1
  obtain ⟨hal', e1', e2'⟩ := C02_create_tbs_hash cfg C D hD alg _ _ _ room h hp' ha' hw' h2
  rw [e1] at e1'; cases e1'
  have := hcoll hal e1 (e2.symm.trans e2')
  rw [UB.wf] at *
  exact sigStructure_inj (by omega) (by omega) (by omega) (by omega) (by omega) (by omega) this

example : createTbsHash Config.full toyCrypto algES384 (.data [7]) (.data []) .nil 64
    = createTbsHash Config.full toyCrypto algES384 (.data [7]) .nil (.data []) 64 := by decide +kernel

end TCose.Props
