import Verif.Lemmas.RefuseMsg
import Verif.Props.Options

/-!
# C61: what a refusal depends on

The decoder works from the front. An error that names something it has seen in the
header parameters or the tags does not depend on what comes behind; only the errors
that say "these octets cannot be read" can.
-/

namespace TCose.Spec

/-- The codes that say no more than that the octets cannot be read as COSE_Sign1:
`T_COSE_ERR_CBOR_NOT_WELL_FORMED`, `T_COSE_ERR_PARAMETER_CBOR`,
`T_COSE_ERR_SIGN1_FORMAT`, `T_COSE_ERR_CBOR_FORMATTING`. -/
abbrev formatCodes : List Err := [.cborNotWellFormed, .parameterCbor, .sign1Format, .cborFormatting]

end TCose.Spec

namespace TCose.Props
open TCose Spec

variable (cfg : Config) (P : QParams) (C : Crypto) (junk : Junk) (me : VerifyCtx)
  (msg : Bytes) (aad : UB) (pay : VPayload) (want : Bool)

theorem isFormat_of {y : Err} (h : y ∉ formatCodes) (hh : y ≠ .modelHang) : y.isFormat = false := by
  cases y <;> first | rfl | exact absurd rfl hh | simp at h

/-- **C61.** Octets that are not a complete message, refused with a code other than
those for unreadable input, are refused with that same code however they continue
(up to the length QCBOR accepts), whatever adapter, key, auxiliary buffer and
external data the other call uses. -/
theorem C61_refused (hP : P.maxTags ≤ 4) {y : Err}
    (h : (verifyInternal cfg P C junk me msg aad pay want).res = .error y)
    (hinc : ¬ ∃ v, IsView P msg v) (hy : y ∉ formatCodes)
    (x : Bytes) (hlen : (msg ++ x).length ≤ 4294967293)
    (C' : Crypto) (junk' : Junk) (me' : VerifyCtx) (hfl : me'.flags = me.flags) (aad' : UB)
    (want' : Bool) :
    (verifyInternal cfg P C' junk' me' (msg ++ x) aad' pay want').res = .error y := by
  refine verify_refused_ext hlen hfl h hinc (isFormat_of hy ?_)
  rcases verify_cases (cfg := cfg) (C := C) (junk := junk) (me := me) (msg := msg) (aad := aad)
    (pay := pay) (want := want) hP with ⟨x, hx, h1⟩ | ⟨x, tags, hx, -, h1⟩ | ⟨v, x, hv, -⟩
  · rw [h1] at h; simp only [VRes.fail, Except.error.injEq] at h; subst h; exact hx
  · rw [h1] at h; simp only [VRes.fail, Except.error.injEq] at h; subst h; exact hx
  · exact absurd ⟨v, hv⟩ hinc

/-- **C61 (truncation).** In the same kind of call (build, options, way of passing
the payload) every proper prefix of an accepted message is refused as unreadable,
never for what it says: a truncated good message cannot be reported as, say,
wrongly tagged, or as one with unprotected or duplicate parameters. -/
theorem C61_truncated (hP : P.maxTags ≤ 4)
    (h : (verifyInternal cfg P C junk me msg aad pay want).res = .ok ())
    (n : Nat) (hn : n < msg.length)
    (C' : Crypto) (junk' : Junk) (me' : VerifyCtx) (hfl : me'.flags = me.flags) (aad' : UB)
    (want' : Bool) :
    ∃ y ∈ formatCodes,
      (verifyInternal cfg P C' junk' me' (msg.take n) aad' pay want').res = .error y := by
  obtain ⟨v, x, m1, ub, hacc, -⟩ := verify_ok hP h
  have hd : msg.drop n ≠ [] := by
    intro hd
    have := congrArg List.length hd
    simp at this
    omega
  have hinc : ¬ ∃ v, IsView P (msg.take n) v := by
    rintro ⟨v', hv'⟩
    have hv := hacc.view
    rw [← List.take_append_drop n msg] at hv
    exact hd (hv'.prefix_free hv)
  cases hr : (verifyInternal cfg P C' junk' me' (msg.take n) aad' pay want').res with
  | ok u =>
    exact absurd hr (C51_truncated cfg P C junk me msg aad pay want hP h n hn cfg C' junk' me' aad'
      pay want')
  | error y =>
    refine ⟨y, ?_, rfl⟩
    apply Classical.byContradiction
    intro hy
    have hlen : (msg.take n ++ msg.drop n).length ≤ 4294967293 := by
      rw [List.take_append_drop]; exact hacc.view.1
    have := C61_refused cfg P C' junk' me' (msg.take n) aad' pay want' hP hr hinc hy (msg.drop n)
      hlen C junk me hfl.symm aad want
    rw [List.take_append_drop, h] at this
    cases this

/-- The algorithm in the unprotected bucket: refused before payload and signature
are there, and with them. -/
example :
    let m := toyMsg true [] [(.uint 1, .nint 6)] [1, 2, 3]
    (toyVerify 0 (m.take 7)).res = .error .parameterNotProtected ∧
    (toyVerify 0 (m.take 8)).res = .error .parameterNotProtected ∧
    (toyVerify 0 m).res = .error .parameterNotProtected ∧
    (toyVerify 0 (m.take 6)).res = .error .cborNotWellFormed := by decide +kernel

/-- All prefixes of a good message. -/
example :
    let m := toyMsg true es256Hdr [(.uint 4, .bstr [7])] [1]
    (toyVerify 4 m).res = .ok () ∧
    (List.range m.length).map (fun n => match (toyVerify 4 (m.take n)).res with
      | .error y => decide (y ∈ formatCodes)
      | .ok _ => false) = List.replicate m.length true := by decide +kernel

/-- A complete message is different: the error of a check behind the decoding
gives way to the one for octets behind the message. -/
example :
    let m := toyMsg true es256Hdr [] [1]
    (toyVerify 2 m).res = .error .noKid ∧ (toyVerify 2 (m ++ [0])).res = .error .cborNotWellFormed := by
  decide +kernel

end TCose.Props
