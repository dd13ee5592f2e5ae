import Verif.Spec.MovedOut
import Verif.Props.Alike

/-!
# C105: the payload inside or outside the message
-/

namespace TCose.Props
open TCose Spec

variable {cfg : Config} {P : QParams} {C : Crypto} {junk : Junk} {me : VerifyCtx} {b b' p : Bytes}
  {aad : UB} {want wantPayload : Bool}

/-- **C105.** A message with a payload, and the same message with null in its place, for which the caller passes the
payload: the same result, with the error code, and the same is stored, except that no payload is returned. -/
theorem C105_moved_out (hP : P.maxTags ≤ 4) (hl : P.Local) (ha : aad.wf) (hr : MovedOut P p b b') :
    effectOf (verifyInternal cfg P C junk me b' aad (.detached (.data p)) want) =
      { effectOf (verifyInternal cfg P C junk me b aad (.inline wantPayload) want) with payload := none } := by
  rw [(C95_everything cfg P C junk me b aad (.inline wantPayload) want hP hl ⟨ha, fun _ h => by cases h⟩).1,
    (C95_everything cfg P C junk me b' aad (.detached (.data p)) want hP hl ⟨ha, fun _ h => by cases h; trivial⟩).1]
  obtain ⟨x, x', xs, xs', z, r1, r2, ht, ha, ha', hx, h2, h2', hz⟩ := hr.items
  have m1 := messageAt_item r1 []
  have m2 := messageAt_item r2 []
  rw [List.append_nil, ha, if_pos rfl] at m1
  rw [List.append_nil, ha', if_pos rfl] at m2
  have s1 := hr.size
  have s2 := hr.size'
  have hra : readAll P cfg.disableContentType (some p) xs' [] none =
      readAll P cfg.disableContentType none xs [] none := by
    unfold readAll
    rw [← hx 0 (by omega), ← hx 1 (by omega), ← hx 3 (by omega), h2, h2']
    simp only [payloadAt, stringAt, Option.map_some, hz]
  have hpay : ∀ f, readAll P cfg.disableContentType none xs [] none = .ok f → f.payload = p := by
    intro f hf
    unfold readAll at hf
    rw [h2] at hf
    simp only [payloadAt, stringAt] at hf
    split at hf
    · cases hf
    · split at hf
      · cases hf
      split at hf
      · cases hf
      split at hf
      · cases hf
      cases hf
      rfl
    · split at hf <;> cases hf
  unfold effectAll
  rw [if_neg (by omega), if_neg (by omega), m1, m2]
  simp only
  have o1 : (VPayload.detached (.data p)).octets = some p := rfl
  have o2 : (VPayload.inline wantPayload).octets = none := rfl
  rw [ht, o1, o2, hra]
  by_cases hp : TagPolicy me.flags x'.tagList.reverse
  rotate_left
  · rw [if_pos hp, if_pos hp]; rfl
  rw [if_neg (not_not_intro hp), if_neg (not_not_intro hp)]
  cases hf : readAll P cfg.disableContentType none xs [] none with
  | error e => rfl
  | ok f =>
    have e := hpay f hf
    simp only [VPayload.buffer, e]
    split
    · rfl
    · rfl

/-- A signed message, with its payload or with null in its place. -/
def movedItem (inside : Bool) : Item :=
  tagged [18] (({ devMsg [devAlg] [] with payload := if inside then some [1] else none } : Message).body
    (Header.item [devAlg]).enc)

theorem moved_reads (inside : Bool) : Reads 4 15 (movedItem inside) (movedItem inside).enc := by
  refine (enc_encodes _ ?_).reads ?_
  · refine ⟨by decide, by simp, (by decide +kernel : (Header.item [devAlg]).enc.length < 2 ^ 64), ?_, ?_,
      (by decide +kernel : (devMsg [devAlg] []).sig.length < 2 ^ 64), trivial⟩
    · change (Header.item []).small
      simp [Header.item, Item.small, smallPairs]
    · cases inside <;> simp [Message.payItem, Item.small]
  · cases inside <;> decide +kernel

/-- Both are accepted. -/
example : MovedOut QParams.std [1] (movedItem true).enc (movedItem false).enc ∧
    (verifyInternal Config.full QParams.std toyCrypto noJunk (VerifyCtx.init 0) (movedItem true).enc (.null 0)
      (.inline true) true).res = .ok () ∧
    (verifyInternal Config.full QParams.std toyCrypto noJunk (VerifyCtx.init 0) (movedItem false).enc (.null 0)
      (.detached (.data [1])) true).res = .ok () := by
  refine ⟨⟨⟨_, _, _, _, .null, moved_reads true, moved_reads false, rfl, rfl, rfl, ?_, rfl, rfl, rfl⟩,
    by decide +kernel, by decide +kernel⟩, by decide +kernel, by decide +kernel⟩
  intro i hi
  match i with
  | 0 => rfl
  | 1 => rfl
  | 2 => exact absurd rfl hi
  | 3 => rfl
  | i + 4 => rfl

end TCose.Props
