import Verif.Props.WholeEffect

/-!
# C16, C57: the tags, for every index and after any sequence of calls
-/

namespace TCose.Props
open TCose Spec

variable (cfg : Config) (P : QParams) (C : Crypto) (junk : Junk)
  (me : VerifyCtx) (msg : Bytes) (aad : UB) (pay : VPayload) (want : Bool)

/-- The tags of a message, innermost first, if it is an array within the limits whose tags are as the options ask. -/
def tagsPassed (flags : Nat) : Option (List Nat) :=
  if maxMessage < msg.length then none
  else
    match messageAt P msg with
    | .error _ => none
    | .ok (ts, _) => if TagPolicy flags ts.reverse then some ts.reverse else none

/-- Options and tags in the context after a call. -/
def tagsStep (s : Nat × List Nat) : VerifyCall → Nat × List Nat
  | .init flags => (flags, [0, 0, 0, 0])
  | .setKey _ | .setAux _ => s
  | .verify b _ _ | .verifyAad b _ _ _ | .verifyDetached b _ _ _ =>
    (s.1, ((tagsPassed P b s.1).map tagsLeft).getD s.2)

/-- One verification: the tags of the message if it got past the check of its tags, whatever becomes of it later, and
what was there before if not. -/
theorem C57_call (hP : P.maxTags ≤ 4) (hl : P.Local) (hargs : ArgsOk aad pay) :
    (verifyInternal cfg P C junk me msg aad pay want).ctx.flags = me.flags ∧
      (verifyInternal cfg P C junk me msg aad pay want).ctx.auTags =
        ((tagsPassed P msg me.flags).map tagsLeft).getD me.auTags := by
  have key := (C95_everything cfg P C junk me msg aad pay want hP hl hargs).1
  have hc : (verifyInternal cfg P C junk me msg aad pay want).ctx =
    (effectOf (verifyInternal cfg P C junk me msg aad pay want)).ctx := rfl
  rw [hc, key]
  unfold effectAll tagsPassed
  by_cases hlen : maxMessage < msg.length
  · rw [if_pos hlen, if_pos hlen]; exact ⟨rfl, rfl⟩
  rw [if_neg hlen, if_neg hlen]
  cases messageAt P msg with
  | error e => exact ⟨rfl, rfl⟩
  | ok q =>
    obtain ⟨ts, xs, last, fin⟩ := q
    simp only
    by_cases h0 : ¬ TagPolicy me.flags ts.reverse
    · rw [if_pos h0, if_neg h0]; exact ⟨rfl, rfl⟩
    rw [if_neg h0, if_pos (Classical.not_not.mp h0)]
    cases readAll P cfg.disableContentType pay.octets xs last fin with
    | error e => exact ⟨rfl, rfl⟩
    | ok f =>
      simp only
      generalize settle cfg C me f.known _ _ _ = r
      by_cases hs : SizeStored cfg me f.known (sigStructure f.prot aad.bytes f.payload)
      · rw [if_pos hs]; cases r <;> exact ⟨rfl, rfl⟩
      · rw [if_neg hs]; cases r <;> exact ⟨rfl, rfl⟩

/-- **C57 (exactly).** After any sequence of calls the context has the tags of the last verified message that got past
the check of its tags since the last initialisation, and zeros if there was none. -/
theorem C57_exact (hP : P.maxTags ≤ 4) (hl : P.Local) (calls : List (Junk × VerifyCall))
    (hok : ∀ c ∈ calls, CallOk c.2) :
    (inTurn (callDone cfg P C) me calls).1.auTags =
      ((calls.map (·.2)).foldl (tagsStep P) (me.flags, me.auTags)).2 := by
  suffices h : ((inTurn (callDone cfg P C) me calls).1.flags, (inTurn (callDone cfg P C) me calls).1.auTags) =
      (calls.map (·.2)).foldl (tagsStep P) (me.flags, me.auTags) by rw [← h]
  induction calls generalizing me with
  | nil => rfl
  | cons c cs ih =>
    obtain ⟨j, c⟩ := c
    have hc : CallOk c := hok _ (.head _)
    have key : ((callDone cfg P C me (j, c)).1.flags, (callDone cfg P C me (j, c)).1.auTags) =
        tagsStep P (me.flags, me.auTags) c := by
      cases c with
      | init flags => rfl
      | setKey k => rfl
      | setAux m =>
        show ((me.setAux cfg m).flags, (me.setAux cfg m).auTags) = _
        unfold VerifyCtx.setAux
        split <;> rfl
      | verify b wp wq =>
        obtain ⟨h1, h2⟩ := C57_call cfg P C j me b .nil (.inline wp) wq hP hl ⟨rfl, by intro p h; cases h⟩
        exact Prod.ext h1 h2
      | verifyAad b aad wp wq =>
        obtain ⟨h1, h2⟩ := C57_call cfg P C j me b aad (.inline wp) wq hP hl ⟨hc, by intro p h; cases h⟩
        exact Prod.ext h1 h2
      | verifyDetached b aad p wq =>
        obtain ⟨h1, h2⟩ := C57_call cfg P C j me b aad (.detached p) wq hP hl
          ⟨hc.1, by intro p h; cases h; exact hc.2⟩
        exact Prod.ext h1 h2
    simp only [inTurn, List.map_cons, List.foldl_cons]
    rw [ih _ (fun c h => hok c (.tail _ h)), key]

/-- **C57 (when it is right).** What C57 asks for after a verification — the tags of its message, and none if that did
not get past the check — is there just if the message got past it or no tags were there before. -/
theorem C57_right_iff (hP : P.maxTags ≤ 4) (hl : P.Local) (hargs : ArgsOk aad pay) :
    (verifyInternal cfg P C junk me msg aad pay want).ctx.auTags = tagsLeft ((tagsPassed P msg me.flags).getD []) ↔
      tagsPassed P msg me.flags ≠ none ∨ me.auTags = [noTag, noTag, noTag, noTag] := by
  rw [(C57_call cfg P C junk me msg aad pay want hP hl hargs).2]
  cases tagsPassed P msg me.flags with
  | none => simp [tagsLeft, List.replicate]
  | some ts => simp

/-- **C16 (exactly).** The query for every index, after a verification whose message got past the check of its tags: the
tags from the inside out without that of COSE_Sign1, but only up to one behind the first that is the number meaning
none; the invalid tag for larger indices; and a read behind the array for index 4, whatever the message. -/
theorem C16_exact (hP : P.maxTags ≤ 4) (hl : P.Local) (hargs : ArgsOk aad pay) {ts : List Nat}
    (h : tagsPassed P msg me.flags = some ts) (n : Nat) :
    (verifyInternal cfg P C junk me msg aad pay want).ctx.getNthTag n =
      if n = 4 then none
      else some (((ts.take 1).filter (· != 18) ++ (ts.drop 1).takeWhile (· != noTag))[n]?.getD noTag) := by
  have ht := (C57_call cfg P C junk me msg aad pay want hP hl hargs).2
  have hlen : ts.length ≤ 4 := by
    unfold tagsPassed at h
    split at h
    · cases h
    rename_i hm
    have key := octets_decode (cfg := cfg) (P := P) (junk := junk) (pay := pay) hl (Nat.le_of_not_lt hm)
    cases hq : messageAt P msg with
    | error e => rw [hq] at h; cases h
    | ok q =>
      obtain ⟨us, xs, last, fin⟩ := q
      rw [hq] at key h
      simp only at h
      split at h
      · cases h
        rw [List.length_reverse]
        exact Nat.le_trans key.2.2.1 hP
      · cases h
  rw [h] at ht
  simp only [Option.map_some, Option.getD_some, tagsLeft] at ht
  have hl4 : ((ts.take 1).filter (· != 18) ++ (ts.drop 1).takeWhile (· != noTag)).length ≤ 4 := by
    have h1 := List.length_filter_le (· != 18) (ts.take 1)
    have h2 := (List.takeWhile_prefix (l := ts.drop 1) (· != noTag)).length_le
    simp only [List.length_append, List.length_take, List.length_drop] at *
    omega
  generalize (ts.take 1).filter (· != 18) ++ (ts.drop 1).takeWhile (· != noTag) = l at ht hl4 ⊢
  unfold VerifyCtx.getNthTag maxTagsToReturn
  rw [ht]
  by_cases h4 : n > 4
  · rw [if_pos h4, if_neg (by omega), List.getElem?_eq_none (by omega)]; rfl
  rw [if_neg h4]
  by_cases hn : n = 4
  · rw [if_pos hn, List.getElem?_eq_none (by rw [List.length_append, List.length_replicate]; omega)]
  rw [if_neg hn]
  by_cases hln : n < l.length
  · rw [List.getElem?_append_left hln, List.getElem?_eq_getElem hln]; rfl
  · rw [List.getElem?_append_right (by omega), List.getElem?_eq_none (l := l) (by omega), List.getElem?_replicate,
      if_pos (by omega)]; rfl

/-- With a tag required: fresh; after a message with tags 900 and 18; after one without, which is refused, and which
leaves the 900; after one with 901 and 18 that fails to verify; and after octets that are no message. -/
example :
    let C := testCrypto Config.full 0 (List.replicate 64 7)
    let m1 : Bytes := [0xd9, 0x03, 0x84, 0xd2, 0x84, 0x43, 0xa1, 0x01, 0x27, 0xa0, 0x41, 0x01, 0x40]
    let m2 : Bytes := [0x84, 0x43, 0xa1, 0x01, 0x26, 0xa0, 0x41, 0x01, 0x40]
    let m3 : Bytes := [0xd9, 0x03, 0x85, 0xd2, 0x84, 0x43, 0xa1, 0x01, 0x26, 0xa0, 0x41, 0x01, 0x40]
    let calls : List VerifyCall := [.init 4, .verify m1 true true, .verify m2 true true, .verify m3 true true,
      .verify [0x01] true true]
    (List.range 5).map (fun n => ((inTurn (callDone Config.full QParams.std C) (VerifyCtx.init 0)
        ((calls.take (n + 1)).map (noJunk, ·))).1.auTags.take 2)) =
      [[0, 0], [900, noTag], [900, noTag], [901, noTag], [901, noTag]] ∧
    (List.range 5).map (fun n => ((calls.take (n + 1)).foldl (tagsStep QParams.std) (0, [0, 0, 0, 0])).2.take 2) =
      [[0, 0], [900, noTag], [900, noTag], [901, noTag], [901, noTag]] ∧
    tagsPassed QParams.std m3 4 = some [18, 901] ∧
    (List.range 6).map (sign1Verify Config.full QParams.std C noJunk (VerifyCtx.init 4) m3 true true).ctx.getNthTag =
      [some 901, some noTag, some noTag, some noTag, none, some noTag] := by
  decide +kernel

end TCose.Props
