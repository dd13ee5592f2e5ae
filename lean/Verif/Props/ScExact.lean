import Verif.Props.SignOutcome

/-!
# C13: exactly which short-circuit signatures are empty
-/

namespace TCose.Props
open TCose Spec

variable {cfg : Config} {C : Crypto} {D : Int → Bytes → Bytes} {me : SignCtx} {det : Bool} {payload aad : UB} {N : Nat}

/-- **C13 (exactly when).** Every message made with a short-circuit signature has the octets of RFC 8152 with some
signature, and that is empty if and only if the algorithm is one of the three with RSASSA-PSS. -/
theorem C13_exact (hfit : SignFits C) (hD : Hashes N cfg C D me.alg) (m : Bytes) (hp : payload.wf) (ha : aad.wf)
    (hN : PiecesUpTo N (protectedHeader me.alg) aad.bytes payload.bytes) (hd : det = true → payload.isNull = false)
    (hlim : begun cfg me det payload.bytes < 2 ^ 32 - 9) (hsc : Spec.Opt.shortCircuit me.flags = true) {r : UB}
    (h : (signAadInternal cfg C me det payload aad (.buf m)).1 = .ok r) :
    ∃ s, r = .data (coseSign1 (!Spec.Opt.omitTag me.flags) me.alg (specKid me) (specCt cfg me)
        (if det then none else some payload.bytes) s).enc ∧
      (s = [] ↔ me.alg = -37 ∨ me.alg = -38 ∨ me.alg = -39) := by
  rw [C67_sign _ _ _ _ _ _ _ hfit hD m hp ha hN hd hlim] at h
  cases ho : outcome cfg C me det payload.bytes aad.bytes (toBeSignedHash cfg D me payload.bytes aad.bytes)
      m.length with
  | error x => rw [ho] at h; cases h
  | ok b =>
    rw [ho] at h
    cases h
    unfold outcome at ho
    split at ho
    · cases ho
    split at ho
    · cases ho
    split at ho
    · split at ho <;> cases ho
    split at ho
    · cases ho
    rename_i s hs
    split at ho
    · cases ho
    cases ho
    refine ⟨s, rfl, ?_⟩
    unfold makeSig at hs
    rw [if_pos hsc] at hs
    cases hh : hashFor cfg me.alg with
    | none =>
      rw [toBeSignedHash, hh] at hs
      cases hs
    | some g =>
      rw [toBeSignedHash, hh] at hs
      simp only [] at hs
      split at hs
      · cases hs
      cases hs
      have hne := (hD g hh).2 (toBeSigned me payload.bytes aad.bytes)
      generalize D g (toBeSigned me payload.bytes aad.bytes) = d at hne
      have halg : me.alg = -7 ∨ me.alg = -35 ∨ me.alg = -36 ∨ me.alg = -37 ∨ me.alg = -38 ∨ me.alg = -39 := by
        unfold hashFor at hh
        split at hh
        · unfold hashOf at hh
          repeat' split at hh
          all_goals first | (cases hh; done) | (rename_i h; simp_all; done) | skip
          all_goals omega
        · cases hh
      have hlen : ((List.replicate (scOctets me.alg) d).flatten.take (scOctets me.alg)).length = scOctets me.alg := by
        have h1 : 1 ≤ d.length := by cases d with | nil => exact absurd rfl hne | cons _ _ => simp
        have h2 : scOctets me.alg * 1 ≤ scOctets me.alg * d.length := Nat.mul_le_mul_left _ h1
        simp only [List.length_take, List.length_flatten, List.map_replicate, List.sum_replicate_nat]
        omega
      rw [← List.length_eq_zero_iff, hlen]
      unfold scOctets
      rcases halg with h | h | h | h | h | h <;> rw [h] <;> decide

example : let me : SignCtx := SignCtx.init 1 (-38)
    (signAadInternal Config.full toyCrypto me true (.data [1]) .nil (.buf (List.replicate 60 0))).1 =
      .ok (.data (coseSign1 true (-38) (some scKid) .none none []).enc) ∧
    begun Config.full me true [1] < 2 ^ 32 - 9 ∧
    (signAadInternal Config.full toyCrypto (SignCtx.init 1 (-7)) true (.data [1]) .nil
      (.buf (List.replicate 150 0))).1.toOption.isSome = true := by
  decide +kernel

end TCose.Props
