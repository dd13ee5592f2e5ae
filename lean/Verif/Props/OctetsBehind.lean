import Verif.Props.TagInFront

/-!
# C101: octets behind a message

For everything that is read as an item: what octets behind it change in verification.
-/

namespace TCose.Props
open TCose Spec

variable {cfg : Config} {P : QParams} {C : Crypto} {junk : Junk} {me : VerifyCtx} {b r : Bytes} {x : Item}
  {aad : UB} {pay : VPayload} {want : Bool} {f : Nat}

/-- With nothing behind it, the last check is passed. -/
theorem messageAt_item (h : Reads P.maxTags 15 x b) (r : Bytes) :
    messageAt P (b ++ r) = match arrayOf P x with
      | .error e => .error e
      | .ok xs => .ok (x.tagList, xs, [], if r = [] then none else some .cborNotWellFormed) := by
  have h1 : readItem P.maxTags 15 (b ++ r) = some (x, r) := parse_complete h _ (by simp) r
  unfold messageAt
  rw [h1]
  simp only
  cases arrayOf P x <;> rfl

theorem readAll_fin {noCt : Bool} {det : Option Bytes} {xs : List Item} {last : Bytes} (e : Err) :
    readAll P noCt det xs last (some e) = match readAll P noCt det xs last none with
      | .error y => .error y
      | .ok _ => .error e := by
  unfold readAll
  split
  · rfl
  · split
    · rfl
    · split
      · rfl
      · split
        · rfl
        · split <;> rfl
  · split <;> rfl

/-- **C101.** Something is read as an item.  With octets behind it the result is the same, if it was refused for
anything that is looked at before: the tags, the headers, the types of the elements.  All else is refused as not
well-formed: what was accepted, and what was refused for key id, critical parameters, algorithm, key or signature. -/
theorem C101_behind (hP : P.maxTags ≤ 4) (hl : P.Local) (hargs : ArgsOk aad pay) (h : Reads P.maxTags 15 x b)
    (hr : r ≠ []) (hlen : (b ++ r).length ≤ maxMessage) :
    resultWith cfg P C junk me (b ++ r) aad pay want f =
      match foundIn cfg P b pay f with
      | some _ => .error .cborNotWellFormed
      | none => resultWith cfg P C junk me b aad pay want f := by
  have hlen' : b.length ≤ maxMessage := by simp at hlen; omega
  have m1 := messageAt_item h r
  have m2 := messageAt_item h []
  rw [List.append_nil] at m2
  rw [if_neg hr] at m1
  rw [if_pos rfl] at m2
  rw [resultWith_eq hP hl hargs, resultWith_eq hP hl hargs]
  unfold verifyAll foundIn
  rw [if_neg (by omega), if_neg (by omega), if_neg (by omega), m1, m2]
  cases arrayOf P x with
  | error e => rfl
  | ok xs =>
    simp only
    by_cases hp : TagPolicy f x.tagList.reverse
    · rw [if_neg (not_not_intro hp), if_neg (not_not_intro hp), if_neg (not_not_intro hp), readAll_fin]
      cases readAll P cfg.disableContentType pay.octets xs [] none <;> rfl
    · rw [if_pos hp, if_pos hp, if_pos hp]

/-- **C101 (never accepted).** Nothing that is read as an item with octets behind it is accepted, whatever the options. -/
theorem C101_never (hP : P.maxTags ≤ 4) (hl : P.Local) (hargs : ArgsOk aad pay) (h : Reads P.maxTags 15 x b)
    (hr : r ≠ []) : resultWith cfg P C junk me (b ++ r) aad pay want f ≠ .ok () := by
  by_cases hlen : (b ++ r).length ≤ maxMessage
  · rw [C101_behind hP hl hargs h hr hlen]
    have hlen' : b.length ≤ maxMessage := by simp at hlen; omega
    cases hf : foundIn cfg P b pay f with
    | some y => nofun
    | none =>
      simp only
      rw [resultWith_eq hP hl hargs]
      unfold verifyAll
      unfold foundIn at hf
      rw [if_neg (by omega)] at hf ⊢
      split
      · nofun
      · rename_i ts xs last fin hm
        rw [hm] at hf
        simp only at hf
        by_cases hp : TagPolicy f ts.reverse
        · rw [if_neg (not_not_intro hp)] at hf ⊢
          cases hra : readAll P cfg.disableContentType pay.octets xs last fin with
          | error e => nofun
          | ok y => rw [hra] at hf; cases hf
        · rw [if_pos hp]; nofun
  · rw [resultWith_eq hP hl hargs]
    unfold verifyAll
    rw [if_pos (by omega)]
    nofun

/-- **C101 (which octets).** It does not matter which octets they are, nor how many. -/
theorem C101_which (hP : P.maxTags ≤ 4) (hl : P.Local) (hargs : ArgsOk aad pay) (h : Reads P.maxTags 15 x b)
    {r' : Bytes} (hr : r ≠ []) (hr' : r' ≠ []) (hlen : (b ++ r).length ≤ maxMessage) (hlen' : (b ++ r').length ≤ maxMessage) :
    effectOf (verifyInternal cfg P C junk me (b ++ r) aad pay want) =
      effectOf (verifyInternal cfg P C junk me (b ++ r') aad pay want) := by
  rw [(C95_everything cfg P C junk me (b ++ r) aad pay want hP hl hargs).1,
    (C95_everything cfg P C junk me (b ++ r') aad pay want hP hl hargs).1]
  unfold effectAll
  rw [if_neg (by omega), if_neg (by omega), messageAt_item h r, messageAt_item h r', if_neg hr, if_neg hr']

/-- **C101 (what is stored).** With octets behind it nothing is stored but the tags. -/
theorem C101_stored (hP : P.maxTags ≤ 4) (hl : P.Local) (hargs : ArgsOk aad pay) (h : Reads P.maxTags 15 x b)
    (hr : r ≠ []) :
    let v := effectOf (verifyInternal cfg P C junk me (b ++ r) aad pay want)
    v.params = none ∧ v.payload = none ∧
    (v.ctx = me ∨ v.ctx = { me with auTags := tagsLeft x.tagList.reverse }) := by
  simp only
  rw [(C95_everything cfg P C junk me (b ++ r) aad pay want hP hl hargs).1]
  unfold effectAll
  split
  · exact ⟨rfl, rfl, .inl rfl⟩
  · rw [messageAt_item h r, if_neg hr]
    cases arrayOf P x with
    | error e => exact ⟨rfl, rfl, .inl rfl⟩
    | ok xs =>
      simp only
      split
      · exact ⟨rfl, rfl, .inl rfl⟩
      · rw [readAll_fin]
        cases readAll P cfg.disableContentType pay.octets xs [] none <;> exact ⟨rfl, rfl, .inr rfl⟩

/-- A signed message; one without signature of use, one without key id where one is required; one with the payload of
another type. -/
example :
    let r := fun f m => resultWith Config.full QParams.std toyCrypto noJunk (VerifyCtx.init 0) m .nil (.inline true) true f
    let m := toyMsg true es256Hdr [] [1]
    (readItem 4 15 m).map (·.2) = some [] ∧
    r 0 m = .ok () ∧ r 0 (m ++ [0]) = .error .cborNotWellFormed ∧ r 0 (m ++ [0xff, 0]) = .error .cborNotWellFormed ∧
    r 2 m = .error .noKid ∧ r 2 (m ++ [0]) = .error .cborNotWellFormed ∧
    r 16 m = .error .incorrectlyTagged ∧ r 16 (m ++ [0]) = .error .incorrectlyTagged ∧
    r 0 [0x80] = .error .parameterCbor ∧ r 0 [0x80, 0] = .error .parameterCbor := by
  decide +kernel

end TCose.Props
