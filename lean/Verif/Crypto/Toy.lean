import Verif.Spec.Crypto

/-!
# A small adapter for non-vacuity examples

Not a model of any file in /repo: it only witnesses that the adapter contracts
of `Spec.Crypto` can be met, and lets `example`s run the model end to end.
-/

namespace TCose

/-- 32 octets depending on the input. -/
def toyDigest (alg : Int) (b : Bytes) : Bytes :=
  List.replicate 32 (b.foldl (fun a x => a * 3 + x + 1) (UInt8.ofNat alg.natAbs))

/-- 64 octets from a digest or message. -/
def toySig (b : Bytes) : Bytes := (b ++ List.replicate 64 0x5a).take 64

def toyCrypto : Crypto where
  HashCtx := Int × Bytes
  hashStart alg :=
    if alg = algSHA256 ∨ alg = algSHA384 ∨ alg = algSHA512 then .ok (alg, [])
    else .error .unsupportedHash
  hashUpdate h u := (h.1, h.2 ++ u.bytes)
  hashFinish h n := if n < 32 then .error .hashBufferSize else .ok (toyDigest h.1 h.2)
  sigSize _ _ := .ok 64
  sign _ _ h n := if n < 64 then .error .sigBufferSize else .ok (toySig h)
  verify _ _ _ h s := if s = toySig h then .ok () else .error .sigVerify
  signEddsa _ tbs n := if n < 64 then .error .sigBufferSize else .ok (toySig tbs)
  verifyEddsa _ _ tbs s := if s = toySig tbs then .ok () else .error .sigVerify

theorem toySig_length (b : Bytes) : (toySig b).length = 64 := by
  simp [toySig]

theorem toy_streamHash : Spec.StreamHash toyCrypto toyDigest := by
  refine ⟨fun h alg b => h = (alg, b), ?_, ?_, ?_, ?_⟩
  · intro alg h hh
    unfold toyCrypto at h hh
    simp only [] at h hh
    by_cases hc : alg = algSHA256 ∨ alg = algSHA384 ∨ alg = algSHA512
    · rw [if_pos hc] at hh; injection hh with hh; exact hh.symm
    · rw [if_neg hc] at hh; cases hh
  · intro h alg b u hh; subst hh; rfl
  · intro h alg b n hh; subst hh
    show (alg, b ++ []) = (alg, b)
    simp
  · intro h alg b n r hh hf
    subst hh
    change (if n < 32 then Except.error Err.hashBufferSize else Except.ok (toyDigest alg b)) = _ at hf
    split at hf
    · cases hf
    · injection hf with hf; exact hf.symm

theorem toy_hashesAs {ha : Int} (h : ha = algSHA256 ∨ ha = algSHA384 ∨ ha = algSHA512) {n : Nat}
    (hn : 32 ≤ n) : Spec.HashesAs toyCrypto ha n (toyDigest ha) := by
  refine ⟨fun h b => h = (ha, b), ⟨(ha, []), ?_, rfl⟩, ?_, ?_, ?_⟩
  · simp only [toyCrypto, if_pos h]
  · intro h b u hh; subst hh; rfl
  · intro h b n hh; subst hh
    show (ha, b ++ []) = (ha, b)
    simp
  · intro h b hh
    subst hh
    show (if n < 32 then Except.error Err.hashBufferSize else Except.ok (toyDigest ha b)) = _
    rw [if_neg (by omega)]

theorem toy_hashFits : Spec.HashFits toyCrypto := by
  intro h n r hr
  change (if n < 32 then Except.error Err.hashBufferSize else Except.ok (toyDigest h.1 h.2)) = _ at hr
  split at hr
  · cases hr
  · injection hr with hr
    subst hr
    simp only [toyDigest, List.length_replicate]
    exact ⟨by simp, by omega⟩

theorem toy_signFits : Spec.SignFits toyCrypto where
  sign := by
    intro alg key h n s hs
    simp only [toyCrypto] at hs
    split at hs
    · simp at hs
    · simp at hs; subst hs; rw [toySig_length]; omega
  eddsa := by
    intro key h n s hs
    simp only [toyCrypto] at hs
    split at hs
    · simp at hs
    · simp at hs; subst hs; rw [toySig_length]; omega

theorem toy_sigSizeExact : Spec.SigSizeExact toyCrypto where
  sign := by
    intro alg key h n s hs
    simp only [toyCrypto] at hs ⊢
    split at hs
    · simp at hs
    · simp at hs; subst hs; rw [toySig_length]
  eddsa := by
    intro key h n s hs
    simp only [toyCrypto] at hs ⊢
    split at hs
    · simp at hs
    · simp at hs; subst hs; rw [toySig_length]

theorem toy_signVerify (sk pk : Key) : Spec.SignVerify toyCrypto sk pk where
  sign := by
    intro alg h n s kid hs
    simp only [toyCrypto] at hs ⊢
    split at hs
    · simp at hs
    · simp at hs; simp [hs]
  eddsa := by
    intro h n s kid hs
    simp only [toyCrypto] at hs ⊢
    split at hs
    · simp at hs
    · simp at hs; simp [hs]

end TCose
