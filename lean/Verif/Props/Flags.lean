import Verif.Props.RealAdapters
import Verif.Props.VerifyState

/-!
# What the undefined-behaviour flag stands for, and what the test adapter refuses

C09 and C24 say that the flag is never set.  Here is when it would be, so that the
claims are about accesses and not about a flag.
-/

namespace TCose.Props
open TCose Spec

/-- **C24 (flag).** Going through a label list to add to it sets the flag exactly if the list has no
terminator, and storing at an index exactly if that is outside.  Looking up
critical labels sets it exactly if one of the lists has no terminator. -/
theorem C24_flag (l crit unk : LabelList) (i : Int) (s : Str) (n : Nat) :
    ((addLabel (some (.int i)) l).2.ub = true ↔ l.ub = true ∨ (0 : Int) ∉ l.ints) ∧
    ((addLabel (some (.tstr s)) l).2.ub = true ↔ l.ub = true ∨ (none : Option Str) ∉ l.tstrs) ∧
    ((l.setInt n i).ub = true ↔ l.ub = true ∨ l.ints.length ≤ n) ∧
    ((l.setTstr n s).ub = true ↔ l.ub = true ∨ l.tstrs.length ≤ n) ∧
    ((checkCritical crit unk).2 = true ↔ (0 : Int) ∉ crit.ints ∨ (none : Option Str) ∉ crit.tstrs ∨
      (0 : Int) ∉ unk.ints ∨ (none : Option Str) ∉ unk.tstrs) := by
  have hi : l.ints.length ≤ l.ints.findIdx (· == 0) ↔ (0 : Int) ∉ l.ints := by
    rw [← Nat.not_lt, List.findIdx_lt_length]
    simp only [beq_iff_eq, exists_eq_right]
  have ht : l.tstrs.length ≤ l.tstrs.findIdx (·.isNone) ↔ (none : Option Str) ∉ l.tstrs := by
    rw [← Nat.not_lt, List.findIdx_lt_length]
    simp only [Option.isNone_iff_eq_none, exists_eq_right]
  have hset : ∀ n, ((l.setInt n i).ub = true ↔ l.ub = true ∨ l.ints.length ≤ n) := by
    intro n
    unfold LabelList.setInt
    split
    · rename_i h; simp only; exact ⟨.inl, fun h' => h'.elim id fun h' => by omega⟩
    · rename_i h; exact ⟨fun _ => .inr (by omega), fun _ => rfl⟩
  have hsets : ∀ n, ((l.setTstr n s).ub = true ↔ l.ub = true ∨ l.tstrs.length ≤ n) := by
    intro n
    unfold LabelList.setTstr
    split
    · rename_i h; simp only; exact ⟨.inl, fun h' => h'.elim id fun h' => by omega⟩
    · rename_i h; exact ⟨fun _ => .inr (by omega), fun _ => rfl⟩
  refine ⟨?_, ?_, hset n, hsets n, ?_⟩
  · unfold addLabel
    simp only
    split
    · rename_i h; exact ⟨fun _ => .inr (hi.mp h), fun _ => rfl⟩
    · rename_i h
      have h' : ¬ (0 : Int) ∉ l.ints := fun h0 => h (hi.mpr h0)
      split
      · exact ⟨.inl, fun h0 => h0.elim id fun h0 => absurd h0 h'⟩
      · rw [hset]
        exact ⟨fun h0 => h0.elim .inl fun h0 => absurd h0 h, fun h0 => h0.elim .inl fun h0 => absurd h0 h'⟩
  · unfold addLabel
    simp only
    split
    · rename_i h; exact ⟨fun _ => .inr (ht.mp h), fun _ => rfl⟩
    · rename_i h
      have h' : ¬ (none : Option Str) ∉ l.tstrs := fun h0 => h (ht.mpr h0)
      split
      · exact ⟨.inl, fun h0 => h0.elim id fun h0 => absurd h0 h'⟩
      · rw [hsets]
        exact ⟨fun h0 => h0.elim .inl fun h0 => absurd h0 h, fun h0 => h0.elim .inl fun h0 => absurd h0 h'⟩
  · unfold checkCritical LabelList.terminated
    simp only [Bool.not_eq_true', Bool.and_eq_false_iff, List.contains_eq_mem, decide_eq_false_iff_not]
    exact or_assoc

/-- **C09 (flag).** Inserting into the output sets the flag exactly if octets are copied from a NULL
pointer, and writing a signature exactly if there is not that much room. -/
theorem C09_flag (e : Enc) (u : UB) (pos : Nat) (s : Bytes) :
    ((e.insert u pos).ub = true ↔ e.ub = true ∨ (e.small = false ∧ u.len ≤ e.mem.cap - e.len ∧
      pos ≤ e.len ∧ (∃ m, e.mem = .buf m) ∧ ∃ n, u = .null n ∧ n ≠ 0)) ∧
    ((e.writePlace s).ub = true ↔ e.ub = true ∨ ∃ m, e.mem = .buf m ∧ m.length < e.len + s.length ∧
      s ≠ []) := by
  constructor
  · unfold Enc.insert
    cases hs : e.small with
    | true => simp
    | false =>
      simp only [Bool.false_eq_true, if_false, true_and]
      by_cases h1 : e.mem.cap - e.len < u.len
      · rw [if_pos h1]
        simp only
        exact ⟨.inl, fun h => h.elim id fun h => by omega⟩
      rw [if_neg h1]
      by_cases h2 : e.len < pos
      · rw [if_pos h2]
        simp only
        exact ⟨.inl, fun h => h.elim id fun h => by omega⟩
      rw [if_neg h2]
      cases hm : e.mem with
      | null k => simp
      | buf m =>
        rw [hm] at h1
        cases u with
        | data b => simp
        | null n =>
          simp only
          by_cases h0 : n = 0
          · rw [if_pos h0]; simp [h0]
          · rw [if_neg h0]
            refine ⟨fun _ => .inr ⟨by omega, by omega, ⟨m, rfl⟩, n, rfl, h0⟩, fun _ => rfl⟩
  · unfold Enc.writePlace
    cases hm : e.mem with
    | null k => simp
    | buf m =>
      simp only
      by_cases h : m.length - e.len < s.length
      · rw [if_pos h]
        refine ⟨fun _ => .inr ⟨m, rfl, by omega, ?_⟩, fun _ => rfl⟩
        rintro rfl
        simp at h
      · rw [if_neg h]
        simp only
        refine ⟨.inl, fun h0 => h0.elim id ?_⟩
        rintro ⟨m', hm', h1, h2⟩
        cases hm'
        have : s.length ≠ 0 := by simpa using h2
        omega

/-- Lists without terminator, and a signature of three octets where two are left. -/
example : (addLabel (some (.int 7)) ⟨[1, 2], [], false⟩).2.ub = true ∧
    (addLabel (some (.int 7)) ⟨[1, 0], [], false⟩).2.ub = false ∧
    ((Enc.init (.buf [0, 0])).writePlace [1, 2, 3]).ub = true ∧
    ((Enc.init (.buf [0, 0])).writePlace [1, 2]).ub = false := by decide +kernel

variable (cfg : Config) (P : QParams) (junk : Junk) (me : VerifyCtx) (m : Message)
  (pb msg : Bytes) (aad : UB) (pay : VPayload) (want : Bool)

/-- **C70 (codes, test adapter).** A message that is good up to its signature, which is not a
short-circuit signature, is refused by the test adapter: with UNSUPPORTED_SIGNING_ALG, unless the hash
fails before or, for EdDSA, the auxiliary buffer is not there or too small. -/
theorem C70_test_code (mode : Nat) (fresh : Bytes) (hfr : fresh.length = 64)
    (hP : P.maxTags ≤ 4) (he : m.Encoded pb msg) (hf : m.Fits P msg)
    (hp : Header.Plain m.prot) (hu : Header.Plain m.unprot) (hargs : ArgsOk aad pay)
    (hN : PiecesUpTo (2 ^ 32 - 1) pb aad.bytes (payloadOf m pay))
    (hpol : TagPolicy me.flags m.tags.reverse) {k : Known} (hk : m.read cfg.disableContentType = .ok k)
    (hpf : m.payloadFault pay.isDetached = none)
    (hkid : Opt.requireKid me.flags = true → k.kid ≠ none)
    (hcrit : Opt.unknownCritAllowed me.flags = false → ¬ k.blocked)
    (hsc : cfg.disableShortCircuit = false → k.kid ≠ some scKid)
    (hdo : Opt.decodeOnly me.flags = false) :
    (verifyInternal cfg P (testCrypto cfg mode fresh) junk me msg aad pay want).res =
      .error (if cfg.disableEDDSA = false ∧ k.alg = -8 then
        if me.aux.cap < (sigStructure pb aad.bytes (payloadOf m pay)).length then .auxiliaryBufferSize
        else if me.aux.isNull = true then .needAuxiliaryBuffer
        else .unsupportedSigningAlg
      else match hashFor cfg k.alg with
        | none => .unsupportedSigningAlg
        | some ha =>
          if mode = 1 then .hashGeneralFail
          else if ha ≠ -16 then .unsupportedHash
          else if mode = 2 then .hashGeneralFail
          else .unsupportedSigningAlg) := by
  rw [C70_verify_test cfg P junk me m pb msg aad pay want mode fresh hfr hP he hf hp hu hargs hN]
  unfold verdict
  rw [if_neg (by simpa using hpol), hk]
  simp only
  rw [hpf]
  simp only
  unfold settle
  rw [if_neg (fun h => hkid h.1 h.2), if_neg (fun h => hcrit h.1 h.2), if_neg (fun h => hsc h.1 h.2), hdo]
  simp only [Bool.false_eq_true, if_false]
  by_cases h8 : cfg.disableEDDSA = false ∧ k.alg = -8
  · rw [if_pos (show cfg.disableEDDSA = false ∧ k.alg = algEDDSA from h8), if_pos h8]
    split
    · rfl
    · split <;> rfl
  · rw [if_neg (show ¬ (cfg.disableEDDSA = false ∧ k.alg = algEDDSA) from h8), if_neg h8]
    unfold testDigest
    cases hashFor cfg k.alg with
    | none => rfl
    | some ha =>
      simp only
      by_cases h1 : mode = 1
      · simp only [if_pos h1]
      simp only [if_neg h1]
      by_cases h2 : ha ≠ -16
      · simp only [if_pos h2]
      simp only [if_neg h2]
      by_cases h3 : mode = 2
      · simp only [if_pos h3]
      · simp only [if_neg h3]; rfl

/-- The sample message, under the options of `C70_verify_test`'s example. -/
example : sampleMsg.Encoded samplePb sampleEnc ∧ sampleMsg.Fits QParams.std sampleEnc ∧
    (∃ k, sampleMsg.read false = .ok k ∧ k.kid ≠ some scKid ∧ k.alg = -7) ∧
    sampleMsg.payloadFault false = none ∧ Opt.decodeOnly 32 = false ∧
    Opt.unknownCritAllowed 32 = true ∧
    (sign1Verify Config.full QParams.std (testCrypto Config.full 0 (List.replicate 64 7)) noJunk
      (VerifyCtx.init 32) sampleEnc true false).res = .error .unsupportedSigningAlg := by
  refine ⟨sample_encoded, sample_fits, ?_, by decide +kernel, by decide, by decide, by decide +kernel⟩
  cases h : sampleMsg.read false with
  | error e => exact absurd h (by cases e <;> decide +kernel)
  | ok k =>
    refine ⟨k, rfl, ?_, ?_⟩
    · have : (match sampleMsg.read false with | .ok k => decide (k.kid ≠ some scKid) | _ => false) = true := by
        decide +kernel
      rw [h] at this
      simpa using this
    · have : (match sampleMsg.read false with | .ok k => decide (k.alg = -7) | _ => false) = true := by
        decide +kernel
      rw [h] at this
      simpa using this

/-- **C70 (codes, test adapter, signing).** Without short-circuit signatures the test adapter makes no
signature with EdDSA either, however large the buffers are. -/
theorem C70_test_no_eddsa (mode : Nat) (fresh : Bytes) (hfr : fresh.length = 64) (me : SignCtx)
    (det : Bool) (payload : UB) (b : Bytes) (hp : payload.wf) (ha : aad.wf)
    (hd : det = true → payload.isNull = false)
    (hN : PiecesUpTo (2 ^ 32 - 1) (protectedHeader me.alg) aad.bytes payload.bytes)
    (halg : me.alg = -8) (hsc : Opt.shortCircuit me.flags = false) (hcf : ctxFault cfg me = none)
    (hlim : begun cfg me det payload.bytes < 2 ^ 32 - 9)
    (hb : begun cfg me det payload.bytes < b.length) :
    (signAadInternal cfg (testCrypto cfg mode fresh) me det payload aad (.buf b)).1 =
      .error (if me.aux.cap < (toBeSigned me payload.bytes aad.bytes).length then .auxiliaryBufferSize
        else if me.aux.isNull = true then .needAuxiliaryBuffer else .unsupportedSigningAlg) := by
  rw [C70_sign_test cfg aad mode fresh hfr me det payload b hp ha hd hN hlim]
  unfold outcome
  rw [hcf]
  simp only
  rw [if_neg (by omega), if_neg (by omega)]
  unfold makeSig
  rw [hsc, if_neg (by decide), if_pos halg]
  by_cases h1 : me.aux.cap < (toBeSigned me payload.bytes aad.bytes).length
  · rw [if_pos h1, if_pos h1]; rfl
  rw [if_neg h1, if_neg h1]
  by_cases h2 : me.aux.isNull = true
  · rw [if_pos h2, if_pos h2]; rfl
  · rw [if_neg h2, if_neg h2]; rfl

/-- A context for EdDSA with an auxiliary buffer of a hundred octets, and three octets of payload. -/
example : (SignCtx.init 0 (-8)).alg = -8 ∧ Opt.shortCircuit (SignCtx.init 0 (-8)).flags = false ∧
    ctxFault Config.full (SignCtx.init 0 (-8)) = none ∧
    begun Config.full (SignCtx.init 0 (-8)) false [1, 2, 3] < 2 ^ 32 - 9 ∧
    begun Config.full (SignCtx.init 0 (-8)) false [1, 2, 3] < (List.replicate 100 (0 : UInt8)).length ∧
    ctxFault Config.full { SignCtx.init 0 (-8) with aux := .buf (List.replicate 100 0) } = none := by
  decide +kernel

end TCose.Props
