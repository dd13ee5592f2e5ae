import Verif.Lemmas.CheckDecoded
import Verif.Spec.Header

/-!
# The returned parameters are those of the view
-/

namespace TCose
open Spec

theorem param_none {i : Int} {es : List Entry} (h : param i es = none) :
    ∀ e ∈ es, e.label ≠ some (.int i) := by
  unfold param at h
  rw [Option.map_eq_none_iff, List.find?_eq_none] at h
  intro e he hl
  exact h e he (by simpa using hl)

theorem param_none_of {i : Int} {es : List Entry} (h : ∀ e ∈ es, e.label ≠ some (.int i)) :
    param i es = none := by
  unfold param
  rw [Option.map_eq_none_iff, List.find?_eq_none]
  intro e he
  simpa using h e he

theorem param_some {i : Int} {es : List Entry} {v : Val} (h : param i es = some v) :
    ∃ e ∈ es, e.label = some (.int i) ∧ e.itm.val = v := by
  unfold param at h
  rw [Option.map_eq_some_iff] at h
  obtain ⟨e, he, rfl⟩ := h
  exact ⟨e, List.mem_of_find?_eq_some he, by simpa using List.find?_some he, rfl⟩

theorem param_append (i : Int) (a b : List Entry) :
    param i (a ++ b) = (param i a).or (param i b) := by
  unfold param
  rw [List.find?_append]
  cases List.find? _ a <;> rfl

/-- With at most one entry of the label, its value is the parameter. -/
theorem param_mem {i : Int} {es : List Entry} {e : Entry} (he : e ∈ es)
    (hl : e.label = some (.int i))
    (h1 : (es.filter (fun e => e.key = some i)).length ≤ 1) : param i es = some e.itm.val := by
  have hm : e ∈ es.filter (fun e => e.key = some i) :=
    List.mem_filter.mpr ⟨he, by simpa using key_iff.mpr hl⟩
  cases hp : param i es with
  | none => exact absurd hl (param_none hp e he)
  | some v =>
    obtain ⟨e', he', hl', hv⟩ := param_some hp
    have hm' : e' ∈ es.filter (fun e => e.key = some i) :=
      List.mem_filter.mpr ⟨he', by simpa using key_iff.mpr hl'⟩
    cases hf : es.filter (fun e => e.key = some i) with
    | nil => rw [hf] at hm; cases hm
    | cons a t =>
      rw [hf] at hm hm' h1
      cases t with
      | nil =>
        rw [List.mem_singleton] at hm hm'
        rw [hm, ← hm', hv]
      | cons b t => simp at h1

variable {cfg : Config} {P : QParams} {v : MsgView} {x : Decoded} {p1 : Params}

theorem HeadersMean.alg (h : HeadersMean cfg P v x p1) :
    (∀ e ∈ v.unprotEntries, e.label ≠ some (.int 1)) ∧
    ((v.alg = none ∧ x.params.alg = 0 ∧ ∀ e ∈ v.protEntries, e.label ≠ some (.int 1)) ∨
     ∃ i, v.alg = some i ∧ i ≠ 0 ∧ i ≤ 2147483647 ∧ x.params.alg = toInt32 i) := by
  have hu : ∀ e ∈ v.unprotEntries, e.label ≠ some (.int 1) := by
    intro e he hl
    have := (h.unprot.alg e he hl).1
    cases this
  refine ⟨hu, ?_⟩
  have h2 := h.unprot.noAlg hu
  unfold MsgView.alg
  cases hp : param 1 v.protEntries with
  | none =>
    left
    exact ⟨rfl, by rw [h2, h.prot.noAlg (param_none hp)]; rfl, param_none hp⟩
  | some w =>
    right
    obtain ⟨e, he, hl, rfl⟩ := param_some hp
    obtain ⟨-, i, hi, h0, hm, ha⟩ := h.prot.alg e he hl
    rw [hi]
    exact ⟨i, rfl, h0, hm, by rw [h2, ha]⟩

theorem HeadersMean.kid (h : HeadersMean cfg P v x p1) : x.params.kid = v.kid ∧
    (∀ e ∈ v.protEntries, ∀ e' ∈ v.unprotEntries, e.label = some (.int 4) →
      e'.label ≠ some (.int 4)) := by
  constructor
  · unfold MsgView.kid MsgView.entries
    rw [param_append]
    cases hp : param 4 v.protEntries with
    | none =>
      have h1 := h.prot.noKid (param_none hp)
      cases hq : param 4 v.unprotEntries with
      | none => rw [h.unprot.noKid (param_none hq), h1]; rfl
      | some w =>
        obtain ⟨e, he, hl, rfl⟩ := param_some hq
        obtain ⟨-, s, hs, hr⟩ := h.unprot.kid e he hl
        rw [hr, hs]; rfl
    | some w =>
      obtain ⟨e, he, hl, rfl⟩ := param_some hp
      obtain ⟨-, s, hs, hr⟩ := h.prot.kid e he hl
      have : ∀ e ∈ v.unprotEntries, e.label ≠ some (.int 4) := by
        intro e he hl
        have := (h.unprot.kid e he hl).1
        rw [hr] at this; cases this
      rw [h.unprot.noKid this, hr, hs]; rfl
  · intro e he e' he' hl hl'
    obtain ⟨-, s, hs, hr⟩ := h.prot.kid e he hl
    have := (h.unprot.kid e' he' hl').1
    rw [hr] at this; cases this

theorem HeadersMean.iv (h : HeadersMean cfg P v x p1) : x.params.iv = v.iv ∧
    (∀ e ∈ v.protEntries, ∀ e' ∈ v.unprotEntries, e.label = some (.int 5) →
      e'.label ≠ some (.int 5)) := by
  constructor
  · unfold MsgView.iv MsgView.entries
    rw [param_append]
    cases hp : param 5 v.protEntries with
    | none =>
      have h1 := h.prot.noIv (param_none hp)
      cases hq : param 5 v.unprotEntries with
      | none => rw [h.unprot.noIv (param_none hq), h1]; rfl
      | some w =>
        obtain ⟨e, he, hl, rfl⟩ := param_some hq
        obtain ⟨-, s, hs, hr⟩ := h.unprot.iv e he hl
        rw [hr, hs]; rfl
    | some w =>
      obtain ⟨e, he, hl, rfl⟩ := param_some hp
      obtain ⟨-, s, hs, hr⟩ := h.prot.iv e he hl
      have : ∀ e ∈ v.unprotEntries, e.label ≠ some (.int 5) := by
        intro e he hl
        have := (h.unprot.iv e he hl).1
        rw [hr] at this; cases this
      rw [h.unprot.noIv this, hr, hs]; rfl
  · intro e he e' he' hl hl'
    obtain ⟨-, s, hs, hr⟩ := h.prot.iv e he hl
    have := (h.unprot.iv e' he' hl').1
    rw [hr] at this; cases this

theorem HeadersMean.piv (h : HeadersMean cfg P v x p1) : x.params.partialIv = v.partialIv ∧
    (∀ e ∈ v.protEntries, ∀ e' ∈ v.unprotEntries, e.label = some (.int 6) →
      e'.label ≠ some (.int 6)) := by
  constructor
  · unfold MsgView.partialIv MsgView.entries
    rw [param_append]
    cases hp : param 6 v.protEntries with
    | none =>
      have h1 := h.prot.noPiv (param_none hp)
      cases hq : param 6 v.unprotEntries with
      | none => rw [h.unprot.noPiv (param_none hq), h1]; rfl
      | some w =>
        obtain ⟨e, he, hl, rfl⟩ := param_some hq
        obtain ⟨-, s, hs, hr⟩ := h.unprot.piv e he hl
        rw [hr, hs]; rfl
    | some w =>
      obtain ⟨e, he, hl, rfl⟩ := param_some hp
      obtain ⟨-, s, hs, hr⟩ := h.prot.piv e he hl
      have : ∀ e ∈ v.unprotEntries, e.label ≠ some (.int 6) := by
        intro e he hl
        have := (h.unprot.piv e he hl).1
        rw [hr] at this; cases this
      rw [h.unprot.noPiv this, hr, hs]; rfl
  · intro e he e' he' hl hl'
    obtain ⟨-, s, hs, hr⟩ := h.prot.piv e he hl
    have := (h.unprot.piv e' he' hl').1
    rw [hr] at this; cases this

theorem toInt32_of (i : Int) : Int32Of i (toInt32 i) := by
  unfold Int32Of toInt32
  omega

theorem toInt32_eq {i : Int} (h1 : -2147483648 ≤ i) (h2 : i ≤ 2147483647) : toInt32 i = i := by
  unfold toInt32
  omega

theorem slice_of_strIn {msg : Bytes} {s : Str} (h : StrIn ⟨0, msg⟩ s) : Slice msg s := by
  obtain ⟨k, n, hkn, rfl⟩ := h
  simp only at hkn
  refine ⟨msg.take k, (msg.drop k).drop n, ?_, by simp; omega⟩
  simp only [List.append_assoc, List.take_append_drop]

/-- The hash algorithm exists only for an algorithm enabled in the build. -/
theorem createTbsHash_supported {cfg : Config} {C : Crypto} {alg : Int} {prot aad pay : UB}
    {room : Nat} {h : Bytes} (hh : createTbsHash cfg C alg prot aad pay room = .ok h) :
    sigAlgSupported cfg alg = true ∧ alg ≠ 0 ∧ alg ≠ algEDDSA := by
  rw [createTbsHash_eq] at hh
  split at hh
  · cases hh
  · rename_i hn
    unfold hashAlgOfSigAlg at hn
    unfold sigAlgSupported
    split at hn
    · rename_i he; subst he; exact ⟨rfl, by decide, by decide⟩
    · split at hn
      · rename_i he; obtain ⟨hc, rfl⟩ := he; simp [hc]; decide
      · split at hn
        · rename_i he; obtain ⟨hc, rfl⟩ := he; simp [hc]; decide
        · split at hn
          · rename_i he; obtain ⟨hc, rfl⟩ := he; simp [hc]; decide
          · split at hn
            · rename_i he; obtain ⟨hc, rfl⟩ := he; simp [hc]; decide
            · split at hn
              · rename_i he; obtain ⟨hc, rfl⟩ := he; simp [hc]; decide
              · exact absurd rfl hn

end TCose
