import Verif.Props.SignerKey

/-!
# C112: what the caller asks to get back
-/

namespace TCose.Props
open TCose Spec

variable {cfg : Config} {P : QParams} {C : Crypto} {junk : Junk} {me : VerifyCtx} {b : Bytes} {aad : UB}

/-- **C112.** Whether the parameters are asked for changes nothing but whether they are stored: of a message that is accepted
they are, if they are asked for, and else nothing is. -/
theorem C112_parameters (pay : VPayload) :
    let asked := verifyInternal cfg P C junk me b aad pay true
    verifyInternal cfg P C junk me b aad pay false = { asked with params := none } ∧
    (asked.params.isSome = true ↔ asked.res = .ok ()) := by
  intro asked
  show verifyInternal cfg P C junk me b aad pay false = { verifyInternal cfg P C junk me b aad pay true with params := none } ∧
    ((verifyInternal cfg P C junk me b aad pay true).params.isSome = true ↔
      (verifyInternal cfg P C junk me b aad pay true).res = .ok ())
  unfold verifyInternal
  dsimp only
  split
  · exact ⟨rfl, by simp [VRes.fail]⟩
  split
  · exact ⟨rfl, by simp [VRes.fail]⟩
  split
  · exact ⟨rfl, by simp [VRes.fail]⟩
  split
  · exact ⟨rfl, by simp [VRes.fail]⟩
  · exact ⟨rfl, by simp⟩

/-- **C112.** Whether a payload inside the message is asked for changes nothing but whether it is stored: of a message that
is accepted it is, if it is asked for, and else nothing is.  A detached payload is never stored. -/
theorem C112_payload (want : Bool) :
    let asked := verifyInternal cfg P C junk me b aad (.inline true) want
    verifyInternal cfg P C junk me b aad (.inline false) want = { asked with payload := none } ∧
    (asked.payload.isSome = true ↔ asked.res = .ok ()) ∧
    ∀ p, (verifyInternal cfg P C junk me b aad (.detached p) want).payload = none := by
  intro asked
  show verifyInternal cfg P C junk me b aad (.inline false) want =
      { verifyInternal cfg P C junk me b aad (.inline true) want with payload := none } ∧
    ((verifyInternal cfg P C junk me b aad (.inline true) want).payload.isSome = true ↔
      (verifyInternal cfg P C junk me b aad (.inline true) want).res = .ok ()) ∧ _
  have hd : ∀ d, decodeBody cfg P d (.inline false) junk = decodeBody cfg P d (.inline true) junk := fun _ => rfl
  unfold verifyInternal
  dsimp only
  simp only [hd]
  refine ⟨?_, ?_, fun p => ?_⟩
  · split
    · rfl
    split
    · rfl
    split
    · rfl
    split <;> rfl
  · split
    · simp [VRes.fail]
    split
    · simp [VRes.fail]
    split
    · simp [VRes.fail]
    split
    · simp [VRes.fail]
    · simp
  · split
    · rfl
    split
    · rfl
    split
    · rfl
    split <;> rfl

/-- A message that is accepted and one that is not, with and without asking. -/
example :
    let v := fun b pay want => verifyInternal Config.full QParams.std toyCrypto noJunk (VerifyCtx.init 0) b (.null 0) pay want
    let b := devBytes [devAlg] []
    ((v b (.inline true) true).params.isSome, (v b (.inline true) true).payload.isSome) = (true, true) ∧
    ((v b (.inline false) false).params.isSome, (v b (.inline false) false).payload.isSome) = (false, false) ∧
    (v b (.inline false) false).res = .ok () ∧
    ((v (b ++ [0]) (.inline true) true).params.isSome, (v (b ++ [0]) (.inline true) true).payload.isSome) = (false, false) := by
  decide +kernel

end TCose.Props
