import Verif.TCose.Util
import Verif.Spec.Limits

/-! Helper lemmas: the numbers of the model are those of `Spec.Limits`. -/

namespace TCose
open Spec

theorem hashFor_eq (cfg : Config) (alg : Int) : (hashFor cfg alg).getD 0 = hashAlgOfSigAlg cfg alg := by
  obtain ⟨d1, d2, d3, d4, d5, d6, d7, d8⟩ := cfg
  unfold hashFor hashAlgOfSigAlg hashOf algEnabled
  simp only [algES256, algES384, algES512, algPS256, algPS384, algPS512, algSHA256, algSHA384,
    algSHA512, algNone]
  cases d1 <;> cases d2 <;> cases d3 <;> cases d4 <;> cases d5 <;> cases d6 <;> simp <;> grind

theorem hashFor_none {cfg : Config} {alg : Int} :
    hashFor cfg alg = none ↔ hashAlgOfSigAlg cfg alg = algNone := by
  rw [← hashFor_eq]
  constructor
  · intro h; rw [h]; rfl
  · intro h
    cases hh : hashFor cfg alg with
    | none => rfl
    | some x =>
      rw [hh] at h
      unfold hashFor hashOf at hh
      simp only [algNone, Option.getD_some] at h
      subst h
      split at hh
      · repeat' split at hh
        all_goals simp at hh
      · cases hh

theorem hashFor_some {cfg : Config} {alg ha : Int} (h : hashFor cfg alg = some ha) :
    hashAlgOfSigAlg cfg alg = ha ∧ hashAlgOfSigAlg cfg alg ≠ algNone := by
  have hne : hashAlgOfSigAlg cfg alg ≠ algNone := by
    intro hc; rw [hashFor_none.mpr hc] at h; cases h
  exact ⟨by rw [← hashFor_eq, h]; rfl, hne⟩

theorem hashFor_of_ne {cfg : Config} {alg : Int} (h : hashAlgOfSigAlg cfg alg ≠ algNone) :
    hashFor cfg alg = some (hashAlgOfSigAlg cfg alg) := by
  cases hh : hashFor cfg alg with
  | none => exact absurd (hashFor_none.mp hh) h
  | some x => rw [(hashFor_some hh).1]

theorem maxHashSize_eq (cfg : Config) : maxHashSize cfg = digestRoom cfg := by
  obtain ⟨d1, d2, d3, d4, d5, d6, d7, d8⟩ := cfg
  revert d1 d2 d3 d4 d5 d6 d7 d8
  decide +kernel

theorem ecdsa_iff (cfg : Config) (alg : Int) : algIsEcdsa cfg alg = true ↔ IsEcdsa cfg alg := by
  obtain ⟨d1, d2, d3, d4, d5, d6, d7, d8⟩ := cfg
  unfold algIsEcdsa IsEcdsa algEnabled
  cases d1 <;> cases d2 <;> simp [checkList, algES256, algES384, algES512] <;> grind

theorem pss_iff (cfg : Config) (alg : Int) : algIsPss cfg alg = true ↔ IsPss cfg alg := by
  obtain ⟨d1, d2, d3, d4, d5, d6, d7, d8⟩ := cfg
  unfold algIsPss IsPss algEnabled
  cases d4 <;> cases d5 <;> cases d6 <;> cases d3 <;>
    simp [checkList, algPS256, algPS384, algPS512] <;> grind

end TCose
