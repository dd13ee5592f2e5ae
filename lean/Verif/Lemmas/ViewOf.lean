import Verif.Lemmas.VerifyMain

/-!
# Computing the view of a message (used by examples and witnesses)
-/

namespace TCose
open Spec

/-- The parameters in a wrapped protected header. -/
def protectedOf (P : QParams) (s : Str) : Option (List Entry) :=
  if s.bytes = [] then some []
  else
    match entry P false ⟨s.off, s.bytes⟩ with
    | (.ok (none, ⟨.map k, _, none⟩), c3) =>
      match elements P true 12 k c3 with
      | .ok (es, _) => some es
      | .error _ => none
    | _ => none

/-- The view of a message. -/
def viewOf (P : QParams) (msg : Bytes) : Option MsgView :=
  if msg.length ≤ maxDecodeInput then
    match entry P false ⟨0, msg⟩ with
    | (.ok (none, ⟨.arr n, tags, none⟩), c1) =>
      match elements P false 14 n c1 with
      | .ok (⟨_, ⟨.bstr prot, [], none⟩, _⟩ :: ⟨_, ⟨.map m, _, none⟩, cm⟩ ::
             ⟨_, ⟨pv, pt, none⟩, _⟩ :: ⟨_, ⟨.bstr sig, [], none⟩, _⟩ :: extra, ⟨_, []⟩) =>
        match protectedOf P prot, elements P true 13 m cm with
        | some pes, .ok (ues, _) => some ⟨tags, prot, pes, ues, pv, pt, sig, extra⟩
        | _, _ => none
      | _ => none
    | _ => none
  else none

theorem protectedOf_sound {P : QParams} {s : Str} {es : List Entry}
    (h : protectedOf P s = some es) : IsProtected P s es := by
  unfold protectedOf at h
  split at h
  · rename_i hb
    exact .inl ⟨hb, by simpa using h.symm⟩
  · rename_i hb
    right
    split at h
    · rename_i k tags c3 hen
      split at h
      · rename_i es' c4 hel
        simp only [Option.some.injEq] at h
        subst h
        exact ⟨hb, _, k, c3, c4, hen, rfl, rfl, hel⟩
      · simp at h
    · simp at h

theorem viewOf_sound {P : QParams} {msg : Bytes} {v : MsgView} (h : viewOf P msg = some v) :
    IsView P msg v := by
  unfold viewOf at h
  split at h
  · rename_i hlen
    refine ⟨hlen, ?_⟩
    split at h
    · rename_i n tags c1 hen
      split at h
      · rename_i l0 prot c0 l1 m mt cm l2 pv pt c2 l3 sig c3 extra p hel
        split at h
        · rename_i pes ues cu hp hu
          simp only [Option.some.injEq] at h
          subst h
          exact ⟨n, c1, _, _, _, _, _, m, cu, hen, hel, rfl, rfl, protectedOf_sound hp, rfl, rfl, hu,
            rfl, rfl⟩
        · simp at h
      · simp at h
    · simp at h
  · simp at h

/-- The view exists and satisfies a decidable property (for examples). -/
theorem exists_view {P : QParams} {msg : Bytes} (p : MsgView → Bool)
    (h : ((viewOf P msg).any p) = true) : ∃ v, IsView P msg v ∧ p v = true := by
  cases hv : viewOf P msg with
  | none => rw [hv] at h; simp at h
  | some v => rw [hv] at h; exact ⟨v, viewOf_sound hv, by simpa using h⟩

end TCose
