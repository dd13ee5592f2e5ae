import Verif.Spec.Psa

/-!
# A PSA library for examples

Meets the contracts of `Verif.Spec.Psa`, so that theorems with such hypotheses
are not vacuous. It has the one key 5.
-/

namespace TCose.Psa
open TCose.Spec.Psa

def psaDigest (a : HashAlg) (b : Bytes) : Bytes :=
  List.replicate (Spec.Psa.digestLen a) (b.foldl (fun a x => a * 3 + x + 1) 7)

/-- `fails` tells which updates fail. -/
def demoPsa (fails : Bytes → Bool) : Lib where
  Op := HashAlg × Bytes
  hashSetup a := if a = .bad then (errNotSupported, (a, [])) else (success, (a, []))
  hashUpdate op u := if fails u then (-132, op) else (success, (op.1, op.2 ++ u))
  hashFinish op n :=
    if n < Spec.Psa.digestLen op.1 then (errBufferTooSmall, [])
    else if op.1 = .bad then (-137, []) else (success, psaDigest op.1 op.2)
  signHash k a h n :=
    if k ≠ 5 then (-136, [])
    else if a = .zero then (errNotSupported, [])
    else if n < 64 then (errBufferTooSmall, [])
    else (success, List.replicate 64 (h.headD 0))
  verifyHash k _ h s :=
    if k ≠ 5 then -136
    else if s = List.replicate 64 (h.headD 0) then success else errInvalidSignature
  keyAttributes k := if k = 5 then (success, 0x7112, 256) else (-136, 0, 0)
  signOutputSize _ _ _ := 64

theorem demoPsa_finish {f : Bytes → Bool} {op : HashAlg × Bytes} {n : Nat}
    (h : ((demoPsa f).hashFinish op n).1 = success) :
    Spec.Psa.digestLen op.1 ≤ n ∧ op.1 ≠ .bad ∧
      ((demoPsa f).hashFinish op n).2 = psaDigest op.1 op.2 := by
  simp only [demoPsa] at h ⊢
  by_cases h1 : n < Spec.Psa.digestLen op.1
  · rw [if_pos h1] at h; cases h
  · rw [if_neg h1] at h ⊢
    by_cases h2 : op.1 = .bad
    · rw [if_pos h2] at h; cases h
    · rw [if_neg h2]; exact ⟨by omega, h2, rfl⟩

theorem demoPsa_sign {f : Bytes → Bool} {k : Nat} {a : SigAlg} {h : Bytes} {n : Nat}
    (hs : ((demoPsa f).signHash k a h n).1 = success) :
    k = 5 ∧ 64 ≤ n ∧ ((demoPsa f).signHash k a h n).2 = List.replicate 64 (h.headD 0) := by
  simp only [demoPsa] at hs ⊢
  by_cases h1 : k ≠ 5
  · rw [if_pos h1] at hs; cases hs
  · rw [if_neg h1] at hs ⊢
    by_cases h2 : a = .zero
    · rw [if_pos h2] at hs; cases hs
    · rw [if_neg h2] at hs ⊢
      by_cases h3 : n < 64
      · rw [if_pos h3] at hs; cases hs
      · rw [if_neg h3]; exact ⟨by simpa using h1, by omega, rfl⟩

theorem demoPsa_digests (f : Bytes → Bool) : Spec.Psa.Digests (demoPsa f) psaDigest (fun op a b => op = (a, b)) where
  init := by
    intro a h
    simp only [demoPsa] at h ⊢
    split
    · rfl
    · rfl
  update := by
    intro op a b u ho h
    subst ho
    simp only [demoPsa] at h ⊢
    split at h
    · cases h
    · rename_i hh; rw [if_neg hh]
  final := by
    intro op a b n ho h
    subst ho
    exact (demoPsa_finish h).2.2

theorem demoPsa_fits (f : Bytes → Bool) : Spec.Psa.Fits (demoPsa f) where
  hash := by
    intro (op : HashAlg × Bytes) n h
    obtain ⟨h1, h2, h3⟩ := demoPsa_finish h
    rw [h3]
    obtain ⟨a, b⟩ := op
    refine ⟨?_, by simpa [psaDigest] using h1⟩
    cases a <;> simp [psaDigest, Spec.Psa.digestLen, List.replicate] at h2 ⊢
  sign := by
    intro k a h n hs
    obtain ⟨-, h1, h2⟩ := demoPsa_sign hs
    rw [h2]; simpa using h1

theorem demoPsa_sizes (f : Bytes → Bool) : Spec.Psa.Sizes (demoPsa f) := by
  intro k a h n hs
  obtain ⟨rfl, h1, h2⟩ := demoPsa_sign hs
  rw [h2]
  exact ⟨rfl, by simp [demoPsa]⟩

theorem demoPsa_verifies (f : Bytes → Bool) : Spec.Psa.Verifies (demoPsa f) 5 5 := by
  intro a h n hs
  obtain ⟨-, h1, h2⟩ := demoPsa_sign hs
  rw [h2]
  simp [demoPsa]

theorem demoPsa_signs : Spec.Psa.Signs (demoPsa fun _ => false)
    (fun op a b => op = (a, b) ∧ a ≠ .bad) 5 where
  update := fun op u => rfl
  final := by
    intro op a b n ho hn
    obtain ⟨rfl, ha⟩ := ho
    simp only [demoPsa]
    rw [if_neg (by simpa using hn), if_neg ha]
  sign := by
    intro a h n ha hn
    simp only [demoPsa] at hn ⊢
    rw [if_neg (by simp), if_neg (by intro hh; rw [hh] at ha; exact ha rfl), if_neg (by omega)]

end TCose.Psa
