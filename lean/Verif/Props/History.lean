import Verif.Spec.Api
import Verif.Props.Sign
import Verif.Props.AuxBuffer
import Verif.Props.ShortCircuit
import Verif.Props.TwoStep
import Verif.Props.Header

/-!
# C55, C56, C57: histories of API calls
-/

namespace TCose.Props
open TCose Spec

/-! ## C55: signing -/

/-- The context after a call. -/
def signStep (cfg : Config) (C : Crypto) (me : SignCtx) : SignCall → SignCtx
  | .init flags alg => SignCtx.init flags alg
  | .setKey k kid => me.setKey k kid
  | .setAux m => me.setAux cfg m
  | .setContentTypeUint t => me.setContentTypeUint t
  | .setContentTypeTstr t => me.setContentTypeTstr t
  | .sign payload out => (sign1Sign cfg C me payload out).2.1
  | .signAad aad payload out => (sign1SignAad cfg C me aad payload out).2.1
  | .signDetached aad payload out => (sign1SignDetached cfg C me aad payload out).2.1
  | .encodeParameters e => (sign1EncodeParameters cfg me e).2.1
  | .encodeSignature e => (sign1EncodeSignature cfg C me e).2.1
  | .encodeSignatureAad aad e => (sign1EncodeSignatureAad cfg C me aad e).2.1

/-- The context after some calls. -/
def signRun (cfg : Config) (C : Crypto) (me : SignCtx) (calls : List SignCall) : SignCtx :=
  calls.foldl (signStep cfg C) me

/-- The part of a signing context that is set by the user. -/
structure SameSigner (me me' : SignCtx) : Prop where
  alg : me'.alg = me.alg
  key : me'.key = me.key
  flags : me'.flags = me.flags
  kid : me'.kid = me.kid
  ctUint : me'.contentTypeUint = me.contentTypeUint
  ctTstr : me'.contentTypeTstr = me.contentTypeTstr
  aux : me'.aux = me.aux

theorem encParam_ctx {cfg : Config} {me : SignCtx} {det : Bool} {e : Enc} :
    ∃ pp, (encodeParametersInternal cfg me det e).2.1 = { me with protectedParams := pp } := by
  unfold encodeParametersInternal
  split
  · exact ⟨_, rfl⟩
  · simp only
    split
    · exact ⟨_, rfl⟩
    · generalize addUnprotected _ _ _ _ = q
      obtain ⟨r, e⟩ := q
      cases r <;> exact ⟨_, rfl⟩

/-- Calls that are neither a setter nor an initialisation leave the settings. -/
def SignCall.isWork : SignCall → Bool
  | .init _ _ | .setKey _ _ | .setAux _ | .setContentTypeUint _ | .setContentTypeTstr _ => false
  | _ => true

theorem signStep_work {cfg : Config} {C : Crypto} {me : SignCtx} {c : SignCall}
    (h : SignCall.isWork c = true) : SameSigner me (signStep cfg C me c) := by
  cases c with
  | init _ _ => cases h
  | setKey _ _ => cases h
  | setAux _ => cases h
  | setContentTypeUint _ => cases h
  | setContentTypeTstr _ => cases h
  | sign p out =>
    obtain ⟨pp, n, h⟩ := sign_ctx (cfg := cfg) (C := C) (me := me) (det := false) (payload := p)
      (aad := .nil) (out := out)
    simp only [signStep, sign1Sign, h]
    exact ⟨rfl, rfl, rfl, rfl, rfl, rfl, rfl⟩
  | signAad a p out =>
    obtain ⟨pp, n, h⟩ := sign_ctx (cfg := cfg) (C := C) (me := me) (det := false) (payload := a)
      (aad := p) (out := out)
    simp only [signStep, sign1SignAad, h]
    exact ⟨rfl, rfl, rfl, rfl, rfl, rfl, rfl⟩
  | signDetached a p out =>
    obtain ⟨pp, n, h⟩ := sign_ctx (cfg := cfg) (C := C) (me := me) (det := true) (payload := p)
      (aad := a) (out := out)
    simp only [signStep, sign1SignDetached, h]
    exact ⟨rfl, rfl, rfl, rfl, rfl, rfl, rfl⟩
  | encodeParameters e =>
    obtain ⟨pp, h⟩ := encParam_ctx (cfg := cfg) (me := me) (det := false) (e := e)
    simp only [signStep, sign1EncodeParameters, h]
    exact ⟨rfl, rfl, rfl, rfl, rfl, rfl, rfl⟩
  | encodeSignature e =>
    obtain ⟨n, h⟩ := encSig_ctx (cfg := cfg) (C := C) (m := me) (aad := .nil) (pl := .nil) (e2 := e)
    simp only [signStep, sign1EncodeSignature, h]
    exact ⟨rfl, rfl, rfl, rfl, rfl, rfl, rfl⟩
  | encodeSignatureAad a e =>
    obtain ⟨n, h⟩ := encSig_ctx (cfg := cfg) (C := C) (m := me) (aad := a) (pl := .nil) (e2 := e)
    simp only [signStep, sign1EncodeSignatureAad, h]
    exact ⟨rfl, rfl, rfl, rfl, rfl, rfl, rfl⟩

theorem lastOr_snoc {κ α : Type} (f : κ → Option α) (d : α) (calls : List κ) (c : κ) :
    lastOr f d (calls ++ [c]) = (f c).getD (lastOr f d calls) := by
  unfold lastOr
  rw [List.reverse_append, List.reverse_singleton, List.singleton_append, List.findSome?_cons]
  cases f c <;> rfl

/-- What the context holds for the user: what was set last since the
initialisation. -/
structure Holds (flags : Nat) (alg : Int) (rest : List SignCall) (me : SignCtx) : Prop where
  flags : me.flags = flags
  alg : me.alg = alg
  key : me.key = lastOr keySet Key.null rest
  kid : me.kid.bytes = lastOr kidSet [] rest
  num : me.contentTypeUint = (lastOr numSet none rest).getD noContentType
  numLt : ∀ n, lastOr numSet none rest = some n → n < 65536
  text : me.contentTypeTstr = lastOr textSet none rest

theorem Holds.work {flags : Nat} {alg : Int} {rest : List SignCall} {me me' : SignCtx}
    (h : Holds flags alg rest me) (hs : SameSigner me me') (c : SignCall)
    (hw : SignCall.isWork c = true) : Holds flags alg (rest ++ [c]) me' := by
  have h1 : keySet c = none := by cases c <;> first | rfl | cases hw
  have h2 : kidSet c = none := by cases c <;> first | rfl | cases hw
  have h3 : numSet c = none := by cases c <;> first | rfl | cases hw
  have h4 : textSet c = none := by cases c <;> first | rfl | cases hw
  refine ⟨hs.flags.trans h.flags, hs.alg.trans h.alg, ?_, ?_, ?_, ?_, ?_⟩
  · rw [lastOr_snoc, h1]; exact hs.key.trans h.key
  · rw [lastOr_snoc, h2, hs.kid]; exact h.kid
  · rw [lastOr_snoc, h3]; exact hs.ctUint.trans h.num
  · rw [lastOr_snoc, h3]; exact h.numLt
  · rw [lastOr_snoc, h4]; exact hs.ctTstr.trans h.text

theorem holds_step {cfg : Config} {C : Crypto} {flags : Nat} {alg : Int} {rest : List SignCall}
    {me : SignCtx} (h : Holds flags alg rest me) (c : SignCall) (hc : c.isInit = false) :
    Holds flags alg (rest ++ [c]) (signStep cfg C me c) := by
  by_cases hw : SignCall.isWork c = true
  · exact h.work (signStep_work hw) c hw
  · cases c with
    | init _ _ => cases hc
    | setKey k kid =>
      refine ⟨h.flags, h.alg, ?_, ?_, ?_, ?_, ?_⟩ <;> rw [lastOr_snoc]
      · rfl
      · rfl
      · exact h.num
      · exact h.numLt
      · exact h.text
    | setAux m =>
      have hs : (me.setAux cfg m).flags = me.flags ∧ (me.setAux cfg m).alg = me.alg ∧
          (me.setAux cfg m).key = me.key ∧ (me.setAux cfg m).kid = me.kid ∧
          (me.setAux cfg m).contentTypeUint = me.contentTypeUint ∧
          (me.setAux cfg m).contentTypeTstr = me.contentTypeTstr := by
        unfold SignCtx.setAux; split <;> exact ⟨rfl, rfl, rfl, rfl, rfl, rfl⟩
      obtain ⟨s1, s2, s3, s4, s5, s6⟩ := hs
      refine ⟨s1.trans h.flags, s2.trans h.alg, ?_, ?_, ?_, ?_, ?_⟩ <;> rw [lastOr_snoc]
      · exact s3.trans h.key
      · show (me.setAux cfg m).kid.bytes = _
        rw [s4]; exact h.kid
      · exact s5.trans h.num
      · exact h.numLt
      · exact s6.trans h.text
    | setContentTypeUint t =>
      refine ⟨h.flags, h.alg, ?_, ?_, ?_, ?_, ?_⟩ <;> rw [lastOr_snoc]
      · exact h.key
      · exact h.kid
      · rfl
      · intro n hn
        simp only [numSet, Option.getD_some, Option.some.injEq] at hn
        omega
      · exact h.text
    | setContentTypeTstr t =>
      refine ⟨h.flags, h.alg, ?_, ?_, ?_, ?_, ?_⟩ <;> rw [lastOr_snoc]
      · exact h.key
      · exact h.kid
      · exact h.num
      · exact h.numLt
      · rfl
    | sign _ _ => exact absurd rfl hw
    | signAad _ _ _ => exact absurd rfl hw
    | signDetached _ _ _ => exact absurd rfl hw
    | encodeParameters _ => exact absurd rfl hw
    | encodeSignature _ => exact absurd rfl hw
    | encodeSignatureAad _ _ => exact absurd rfl hw

theorem holds_run {cfg : Config} {C : Crypto} {flags : Nat} {alg : Int} (me0 : SignCtx)
    (pre rest : List SignCall) (hr : ∀ c ∈ rest, c.isInit = false) :
    Holds flags alg rest (signRun cfg C me0 (pre ++ .init flags alg :: rest)) := by
  unfold signRun
  rw [List.foldl_append, List.foldl_cons]
  show Holds flags alg rest (rest.foldl (signStep cfg C) (SignCtx.init flags alg))
  have base : Holds flags alg [] (SignCtx.init flags alg) :=
    ⟨rfl, rfl, rfl, rfl, rfl, (fun n h => by cases h), rfl⟩
  suffices ∀ (done todo : List SignCall) (m : SignCtx), Holds flags alg done m →
      (∀ c ∈ todo, c.isInit = false) →
      Holds flags alg (done ++ todo) (todo.foldl (signStep cfg C) m) by
    simpa using this [] rest _ base hr
  intro done todo
  induction todo generalizing done with
  | nil => intro m h _; simpa using h
  | cons c cs ih =>
    intro m h hi
    have := ih (done ++ [c]) _ (holds_step (cfg := cfg) (C := C) h c (hi c (.head _)))
      (fun c' hc' => hi c' (.tail _ hc'))
    simpa using this

theorem Holds.specKid {flags : Nat} {alg : Int} {rest : List SignCall} {me : SignCtx}
    (h : Holds flags alg rest me) : specKid me = kidFor flags (lastOr kidSet [] rest) := by
  unfold TCose.specKid kidFor
  rw [← h.kid, isNullOrEmpty_iff, ← h.flags]
  simp only [List.isEmpty_iff]
  rfl

theorem Holds.specCt {flags : Nat} {alg : Int} {rest : List SignCall} {me : SignCtx}
    (h : Holds flags alg rest me) (cfg : Config) :
    specCt cfg me = contentTypeFor cfg.disableContentType (lastOr numSet none rest)
      (lastOr textSet none rest) := by
  unfold TCose.specCt contentTypeFor
  rw [h.text, h.num]
  split
  · rfl
  · cases lastOr textSet none rest with
    | some t => rfl
    | none =>
      cases hn : lastOr numSet none rest with
      | none => rfl
      | some n =>
        have := h.numLt n hn
        simp only [Option.getD_some]
        rw [if_neg (by unfold noContentType; omega)]

theorem scLoop_empty {n : Nat} (hn : 0 < n) : ∀ (fuel : Nat) (buf : Bytes),
    scLoop [] n fuel 0 buf = none := by
  intro fuel
  induction fuel with
  | zero => intro buf; unfold scLoop; rw [if_pos hn]
  | succ f ih =>
    intro buf
    unfold scLoop
    rw [if_pos hn]
    exact ih _

theorem SigFor.signedBy {C : Crypto} {D : Int → Bytes → Bytes} {me : SignCtx} {tbs sig : Bytes}
    (h : SigFor C D me tbs sig) : SignedBy C D me.flags me.alg me.key tbs sig := by
  unfold SigFor at h
  have hfl : Opt.shortCircuit me.flags = me.flags.testBit 0 := rfl
  have hed : algEDDSA = -8 := rfl
  rw [hfl, hed] at h
  unfold SignedBy
  split at h
  · rename_i hf
    rw [if_pos hf]
    obtain ⟨ha, n, h1, h2⟩ := h
    refine ⟨ha, h1, ?_⟩
    cases he : ecdsaSize me.alg with
    | none =>
      rw [C13_violated_empty_signature me.alg he] at h2
      injection h2 with h2
      subst h2
      refine ⟨?_, by simp⟩
      unfold ecdsaSize algES256 algES384 algES512 at he
      unfold scSize
      split at he
      · cases he
      · split at he
        · cases he
        · split at he
          · cases he
          · rename_i a b c; rw [if_neg a, if_neg b, if_neg c]; rfl
    | some k =>
      have hk : scSize me.alg = k := by
        unfold ecdsaSize algES256 algES384 algES512 at he
        unfold scSize
        split at he
        · rename_i a; rw [if_pos a]; injection he
        · rename_i a; rw [if_neg a]
          split at he
          · rename_i a; rw [if_pos a]; injection he
          · rename_i a; rw [if_neg a]
            split at he
            · rename_i a; rw [if_pos a]; injection he
            · cases he
      by_cases hh : D ha tbs = []
      · rw [hh] at h2
        exfalso
        have hsz := scSigSize_ecdsa he
        have hpos : 0 < k := by
          unfold ecdsaSize at he
          split at he
          · injection he; omega
          · split at he
            · injection he; omega
            · split at he
              · injection he; omega
              · cases he
        unfold scSign at h2
        rw [hsz] at h2
        simp only [scLoop_empty hpos] at h2
        split at h2 <;> cases h2
      · obtain ⟨a, b⟩ := C12_sign_repeats me.alg k he (D ha tbs) hh n
        by_cases hr : k ≤ n
        · obtain ⟨s, s1, s2, s3⟩ := a hr
          rw [h2] at s1; injection s1 with s1; subst s1
          exact ⟨s2.trans hk.symm, fun j hj => s3 j (by omega)⟩
        · rw [b (by omega)] at h2; cases h2
  · rename_i hf
    rw [if_neg hf]
    split at h
    · rename_i he; rw [if_pos he]; exact h
    · rename_i he; rw [if_neg he]; exact h

/-- **C55.** After any history of calls on a signing context, in any order and with
any outcome, `t_cose_sign1_sign` (if it succeeds) makes the RFC 8152 message that the
last initialisation and the latest settings since then describe, signed with the
latest key. -/
theorem C55_sign (cfg : Config) (C : Crypto) (D : Int → Bytes → Bytes) (hD : StreamHash C D)
    (hfit : SignFits C) (me0 : SignCtx) (pre rest : List SignCall) (flags : Nat) (alg : Int)
    (hr : ∀ c ∈ rest, c.isInit = false) (payload m : Bytes) (r : UB) (me' : SignCtx) (e' : Enc)
    (h : sign1Sign cfg C (signRun cfg C me0 (pre ++ .init flags alg :: rest)) (.data payload)
      (.buf m) = (.ok r, me', e')) :
    ∃ sig, r = .data (coseSign1 (!flags.testBit 1) alg (kidFor flags (lastOr kidSet [] rest))
          (contentTypeFor cfg.disableContentType (lastOr numSet none rest)
            (lastOr textSet none rest)) (some payload) sig).enc ∧
      SignedBy C D flags alg (lastOr keySet Key.null rest)
        (sigStructure (protectedHeader alg) [] payload) sig := by
  have hh := holds_run (cfg := cfg) (C := C) (flags := flags) (alg := alg) me0 pre rest hr
  obtain ⟨sig, h1, h2⟩ := C07_sign cfg C D hD hfit _ me' payload m r e' h
  refine ⟨sig, ?_, ?_⟩
  · rw [h1, hh.specKid, hh.specCt, hh.flags, hh.alg]; rfl
  · have := SigFor.signedBy h2
    rwa [hh.flags, hh.alg, hh.key] at this

/-- **C55 for detached payloads.** -/
theorem C55_sign_detached (cfg : Config) (C : Crypto) (D : Int → Bytes → Bytes)
    (hD : StreamHash C D) (hfit : SignFits C) (me0 : SignCtx) (pre rest : List SignCall)
    (flags : Nat) (alg : Int) (hr : ∀ c ∈ rest, c.isInit = false) (payload aad m : Bytes)
    (r : UB) (me' : SignCtx) (e' : Enc)
    (h : sign1SignDetached cfg C (signRun cfg C me0 (pre ++ .init flags alg :: rest)) (.data aad)
      (.data payload) (.buf m) = (.ok r, me', e')) :
    ∃ sig, r = .data (coseSign1 (!flags.testBit 1) alg (kidFor flags (lastOr kidSet [] rest))
          (contentTypeFor cfg.disableContentType (lastOr numSet none rest)
            (lastOr textSet none rest)) none sig).enc ∧
      SignedBy C D flags alg (lastOr keySet Key.null rest)
        (sigStructure (protectedHeader alg) aad payload) sig := by
  have hh := holds_run (cfg := cfg) (C := C) (flags := flags) (alg := alg) me0 pre rest hr
  obtain ⟨sig, h1, h2⟩ := C07_sign_detached cfg C D hD hfit _ me' payload aad m r e' h
  refine ⟨sig, ?_, ?_⟩
  · rw [h1, hh.specKid, hh.specCt, hh.flags, hh.alg]; rfl
  · have := SigFor.signedBy h2
    rwa [hh.flags, hh.alg, hh.key] at this

/-- A history: another use of the context, a new initialisation, a key that is
replaced, a failing call, a content type. -/
def exHistory : List SignCall :=
  [.init 1 algES512, .setContentTypeUint 9, .sign (.data [1]) (.buf []), .init 2 algES256,
   .setKey { lib := .openssl, k := 5 } (.data [9]), .sign (.data [7]) (.buf [0, 0]),
   .setKey { lib := .openssl, k := 1 } (.data [0x6b]), .setContentTypeTstr (some [0x61]),
   .encodeParameters (Enc.init (.buf []))]

example : (sign1Sign Config.full toyCrypto (signRun Config.full toyCrypto (SignCtx.init 0 0) exHistory)
      (.data [1, 2, 3]) (.buf (List.replicate 200 0))).1
    = .ok (.data (coseSign1 false algES256 (some [0x6b]) (.text [0x61]) (some [1, 2, 3])
        (toySig (toyDigest algSHA256 (sigStructure (protectedHeader algES256) [] [1, 2, 3])))).enc) := by
  decide +kernel

theorem SameSigner.refl (me : SignCtx) : SameSigner me me := ⟨rfl, rfl, rfl, rfl, rfl, rfl, rfl⟩

theorem SameSigner.eq {me me' : SignCtx} (h : SameSigner me me') :
    me' = { me with protectedParams := me'.protectedParams, auxSize := me'.auxSize } := by
  cases me; cases me'
  obtain ⟨h1, h2, h3, h4, h5, h6, h7⟩ := h
  simp only at h1 h2 h3 h4 h5 h6 h7
  subst h1 h2 h3 h4 h5 h6 h7
  rfl

theorem SameSigner.step {cfg : Config} {C : Crypto} {me me' : SignCtx} (h : SameSigner me me')
    (c : SignCall) (hc : SignCall.isWork c = false) :
    SameSigner (signStep cfg C me c) (signStep cfg C me' c) := by
  cases c with
  | init f a => exact SameSigner.refl _
  | setKey k kid => exact ⟨h.alg, rfl, h.flags, rfl, h.ctUint, h.ctTstr, h.aux⟩
  | setAux m =>
    simp only [signStep, SignCtx.setAux]
    split
    · exact h
    · exact ⟨h.alg, h.key, h.flags, h.kid, h.ctUint, h.ctTstr, rfl⟩
  | setContentTypeUint t => exact ⟨h.alg, h.key, h.flags, h.kid, rfl, h.ctTstr, h.aux⟩
  | setContentTypeTstr t => exact ⟨h.alg, h.key, h.flags, h.kid, h.ctUint, rfl, h.aux⟩
  | sign _ _ => cases hc
  | signAad _ _ _ => cases hc
  | signDetached _ _ _ => cases hc
  | encodeParameters _ => cases hc
  | encodeSignature _ => cases hc
  | encodeSignatureAad _ _ => cases hc

theorem SameSigner.trans {a b c : SignCtx} (h : SameSigner a b) (h' : SameSigner b c) :
    SameSigner a c :=
  ⟨h'.alg.trans h.alg, h'.key.trans h.key, h'.flags.trans h.flags, h'.kid.trans h.kid,
   h'.ctUint.trans h.ctUint, h'.ctTstr.trans h.ctTstr, h'.aux.trans h.aux⟩

theorem run_filter {cfg : Config} {C : Crypto} (calls : List SignCall) :
    ∀ {me me' : SignCtx}, SameSigner me me' →
    SameSigner (signRun cfg C me (calls.filter fun c => !SignCall.isWork c))
      (signRun cfg C me' calls) := by
  induction calls with
  | nil => intro me me' h; exact h
  | cons c cs ih =>
    intro me me' h
    cases hw : SignCall.isWork c with
    | true =>
      rw [List.filter_cons_of_neg (by simp [hw])]
      exact ih (h.trans (signStep_work hw))
    | false =>
      rw [List.filter_cons_of_pos (by simp [hw])]
      exact ih (h.step c hw)

/-- **C55, other calls leave no trace.** What a one-call signing function returns and
writes after a history is what it returns and writes after the settings of that
history alone: signing calls, failed or not, size calculations and two-step calls
left unfinished do not matter. -/
theorem C55_work_irrelevant (cfg : Config) (C : Crypto) (me : SignCtx) (calls : List SignCall)
    (det : Bool) (payload aad : UB) (out : Mem) :
    (signAadInternal cfg C (signRun cfg C me calls) det payload aad out).1 =
      (signAadInternal cfg C (signRun cfg C me (calls.filter fun c => !SignCall.isWork c)) det
        payload aad out).1 ∧
    (signAadInternal cfg C (signRun cfg C me calls) det payload aad out).2.2 =
      (signAadInternal cfg C (signRun cfg C me (calls.filter fun c => !SignCall.isWork c)) det
        payload aad out).2.2 := by
  have h := run_filter (cfg := cfg) (C := C) calls (SameSigner.refl me)
  rw [h.eq]
  exact C29_sign_no_hidden_state cfg C _ det payload aad out _ _

example : (exHistory.filter fun c => !SignCall.isWork c).length = 6 := by decide

/-! ## C56: verification -/

/-- The context after a call. `junk` is what the uninitialised variables of the call
hold. -/
def verifyStep (cfg : Config) (P : QParams) (C : Crypto) (junk : Junk) (me : VerifyCtx) :
    VerifyCall → VerifyCtx
  | .init flags => VerifyCtx.init flags
  | .setKey k => me.setKey k
  | .setAux m => me.setAux cfg m
  | .verify msg wp wq => (sign1Verify cfg P C junk me msg wp wq).ctx
  | .verifyAad msg aad wp wq => (sign1VerifyAad cfg P C junk me msg aad wp wq).ctx
  | .verifyDetached msg aad p wq => (sign1VerifyDetached cfg P C junk me msg aad p wq).ctx

/-- The context after some calls. -/
def verifyHist (cfg : Config) (P : QParams) (C : Crypto) (junk : Junk) (me : VerifyCtx)
    (calls : List VerifyCall) : VerifyCtx :=
  calls.foldl (verifyStep cfg P C junk) me

def vkeySet : VerifyCall → Option Key
  | .setKey k => some k
  | _ => none
/-- In a build without EdDSA there is no auxiliary buffer to set. -/
def vauxSet (cfg : Config) : VerifyCall → Option Mem
  | .setAux m => if cfg.disableEDDSA then none else some m
  | _ => none

/-- Byte arguments are absent or proper buffers. -/
def CallOk : VerifyCall → Prop
  | .verifyAad _ aad _ _ => aad.wf
  | .verifyDetached _ aad p _ => aad.wf ∧ p.wf
  | _ => True

theorem verifyStep_setup {cfg : Config} {P : QParams} {C : Crypto} {junk : Junk} {me : VerifyCtx}
    (hP : P.maxTags ≤ 4) {flags : Nat} {rest : List VerifyCall} (c : VerifyCall) (hc : CallOk c)
    (hi : c.isInit = false) (h1 : me.flags = flags) (h2 : me.key = lastOr vkeySet Key.null rest)
    (h3 : me.aux = lastOr (vauxSet cfg) (.null 18446744073709551615) rest) :
    (verifyStep cfg P C junk me c).flags = flags ∧
    (verifyStep cfg P C junk me c).key = lastOr vkeySet Key.null (rest ++ [c]) ∧
    (verifyStep cfg P C junk me c).aux =
      lastOr (vauxSet cfg) (.null 18446744073709551615) (rest ++ [c]) := by
  rw [lastOr_snoc, lastOr_snoc]
  cases c with
  | init _ => cases hi
  | setKey k => exact ⟨h1, rfl, h3⟩
  | setAux m =>
    simp only [verifyStep, VerifyCtx.setAux, vauxSet, vkeySet]
    split
    · exact ⟨h1, h2, h3⟩
    · exact ⟨h1, h2, rfl⟩
  | verify msg wp wq =>
    obtain ⟨-, a, b, d⟩ := C19_outputs cfg P C junk me msg .nil (.inline wp) wq hP
      ⟨rfl, by intro p h; cases h⟩
    exact ⟨b.trans h1, a.trans h2, d.trans h3⟩
  | verifyAad msg aad wp wq =>
    obtain ⟨-, a, b, d⟩ := C19_outputs cfg P C junk me msg aad (.inline wp) wq hP
      ⟨hc, by intro p h; cases h⟩
    exact ⟨b.trans h1, a.trans h2, d.trans h3⟩
  | verifyDetached msg aad p wq =>
    obtain ⟨-, a, b, d⟩ := C19_outputs cfg P C junk me msg aad (.detached p) wq hP
      ⟨hc.1, by intro p h; cases h; exact hc.2⟩
    exact ⟨b.trans h1, a.trans h2, d.trans h3⟩

theorem verifyHist_setup {cfg : Config} {P : QParams} {C : Crypto} {junk : Junk}
    (hP : P.maxTags ≤ 4) (me0 : VerifyCtx) (pre rest : List VerifyCall) (flags : Nat)
    (hr : ∀ c ∈ rest, c.isInit = false ∧ CallOk c) :
    (verifyHist cfg P C junk me0 (pre ++ .init flags :: rest)).flags = flags ∧
    (verifyHist cfg P C junk me0 (pre ++ .init flags :: rest)).key =
      lastOr vkeySet Key.null rest ∧
    (verifyHist cfg P C junk me0 (pre ++ .init flags :: rest)).aux =
      lastOr (vauxSet cfg) (.null 18446744073709551615) rest := by
  unfold verifyHist
  rw [List.foldl_append, List.foldl_cons]
  show (rest.foldl (verifyStep cfg P C junk) (VerifyCtx.init flags)).flags = _ ∧
    (rest.foldl (verifyStep cfg P C junk) (VerifyCtx.init flags)).key = _ ∧
    (rest.foldl (verifyStep cfg P C junk) (VerifyCtx.init flags)).aux = _
  suffices ∀ (done todo : List VerifyCall) (m : VerifyCtx), m.flags = flags →
      m.key = lastOr vkeySet Key.null done →
      m.aux = lastOr (vauxSet cfg) (.null 18446744073709551615) done →
      (∀ c ∈ todo, c.isInit = false ∧ CallOk c) →
      (todo.foldl (verifyStep cfg P C junk) m).flags = flags ∧
      (todo.foldl (verifyStep cfg P C junk) m).key = lastOr vkeySet Key.null (done ++ todo) ∧
      (todo.foldl (verifyStep cfg P C junk) m).aux =
        lastOr (vauxSet cfg) (.null 18446744073709551615) (done ++ todo) by
    simpa using this [] rest _ rfl rfl rfl hr
  intro done todo
  induction todo generalizing done with
  | nil => intro m h1 h2 h3 _; simpa using ⟨h1, h2, h3⟩
  | cons c cs ih =>
    intro m h1 h2 h3 hi
    obtain ⟨k1, k2, k3⟩ := verifyStep_setup (C := C) (junk := junk) hP c (hi c (.head _)).2
      (hi c (.head _)).1 h1 h2 h3
    have := ih (done ++ [c]) _ k1 k2 k3 (fun c' hc' => hi c' (.tail _ hc'))
    simpa using this

/-- **C56.** After any history of calls on a verification context (successful and
failed verifications among them), a verification gives what it gives with a fresh
context that has the options of the last initialisation and the latest key and
auxiliary buffer. -/
theorem C56_verify (cfg : Config) (P : QParams) (C : Crypto) (junk junk' : Junk) (hP : P.maxTags ≤ 4)
    (me0 : VerifyCtx) (pre rest : List VerifyCall) (flags : Nat)
    (hr : ∀ c ∈ rest, c.isInit = false ∧ CallOk c)
    (msg : Bytes) (aad : UB) (pay : VPayload) (want : Bool) :
    let me := verifyHist cfg P C junk me0 (pre ++ .init flags :: rest)
    let fresh : VerifyCtx :=
      { VerifyCtx.init flags with
        key := lastOr vkeySet Key.null rest
        aux := lastOr (vauxSet cfg) (.null 18446744073709551615) rest }
    (verifyInternal cfg P C junk' me msg aad pay want).res =
      (verifyInternal cfg P C junk' fresh msg aad pay want).res ∧
    (verifyInternal cfg P C junk' me msg aad pay want).params =
      (verifyInternal cfg P C junk' fresh msg aad pay want).params ∧
    (verifyInternal cfg P C junk' me msg aad pay want).payload =
      (verifyInternal cfg P C junk' fresh msg aad pay want).payload := by
  intro me fresh
  obtain ⟨h1, h2, h3⟩ := verifyHist_setup (cfg := cfg) (C := C) (junk := junk) hP me0 pre rest flags hr
  obtain ⟨k1, k2, k3, -⟩ := C29_verify_no_hidden_state cfg P C junk' fresh msg aad pay want me
    ⟨h2, h1, h3⟩
  exact ⟨k1, k2, k3⟩

theorem isPayload_unique {pay : VPayload} {v : MsgView} {a b : Bytes} (h : IsPayload pay v a)
    (h' : IsPayload pay v b) : a = b := by
  cases pay with
  | inline w =>
    obtain ⟨s, h1, -, h2⟩ := h
    obtain ⟨s', h1', -, h2'⟩ := h'
    rw [h1] at h1'
    injection h1' with h1'
    rw [h2, h2', h1']
  | detached p => rw [h.2, h'.2]

/-- **C56, the options by their documented values.** A verification that succeeds
after any history, unless decode-only (0x08) was given: the adapter accepted the
signature under the latest key, or the message has the short-circuit kid and
short-circuit signatures were allowed (0x01).  In any case: with 0x02 there is a kid;
with 0x04 the innermost tag is 18; with 0x10 it is not. -/
theorem C56_options (cfg : Config) (P : QParams) (C : Crypto) (D : Int → Bytes → Bytes)
    (hD : StreamHash C D) (junk : Junk) (hP : P.maxTags ≤ 4)
    (me0 : VerifyCtx) (pre rest : List VerifyCall) (flags : Nat)
    (hr : ∀ c ∈ rest, c.isInit = false ∧ CallOk c)
    (msg : Bytes) (aad : UB) (pay : VPayload) (want : Bool) (hargs : ArgsOk aad pay)
    (h : (verifyInternal cfg P C junk (verifyHist cfg P C junk me0 (pre ++ .init flags :: rest)) msg
      aad pay want).res = .ok ()) :
    ∃ v, IsView P msg v ∧ ∃ payload, IsPayload pay v payload ∧
      (flags &&& 0x02 ≠ 0 → v.kid ≠ none) ∧
      (flags &&& 0x04 ≠ 0 → v.tags.head? = some 18) ∧
      (flags &&& 0x10 ≠ 0 → v.tags.head? ≠ some 18) ∧
      (flags &&& 0x08 = 0 →
        (flags &&& 0x01 ≠ 0 ∧ v.kid.map (·.bytes) = some scKid) ∨
        ∃ i a, v.alg = some i ∧ Int32Of i a ∧
          CryptoAccepted cfg C D (lastOr vkeySet Key.null rest) a (v.kid.map (·.bytes))
            (sigStructure v.prot.bytes aad.bytes payload) v.sig.bytes) := by
  obtain ⟨h1, h2, h3⟩ := verifyHist_setup (cfg := cfg) (C := C) (junk := junk) hP me0 pre rest flags hr
  generalize verifyHist cfg P C junk me0 (pre ++ .init flags :: rest) = me at *
  have bit : ∀ k, (flags &&& 2 ^ k ≠ 0) → hasFlag me.flags k = true := by
    intro k hk
    rw [h1]
    unfold hasFlag
    cases ht : flags.testBit k with
    | true => rfl
    | false =>
      exfalso
      apply hk
      apply Nat.eq_of_testBit_eq
      intro j
      rw [Nat.testBit_and, Nat.testBit_two_pow, Nat.zero_testBit]
      by_cases hj : k = j
      · subst hj; rw [ht]; rfl
      · simp [hj]
  have nobit : ∀ k, (flags &&& 2 ^ k = 0) → hasFlag me.flags k = false := by
    intro k hk
    rw [h1]
    unfold hasFlag
    have := congrArg (fun n => n.testBit k) hk
    simpa [Nat.testBit_and, Nat.testBit_two_pow_self] using this
  obtain ⟨v, hv, t1, t2⟩ := C15_policy cfg P C junk me msg aad pay want hP h
  obtain ⟨v', x, me', ub, hacc, heq⟩ := verify_ok hP h
  have := hv.unique hacc.view
  subst this
  refine ⟨v, hv, x.payload.ub.bytes, isPayload_of hacc.decodes, ?_, ?_, ?_, ?_⟩
  · intro hf
    obtain ⟨v', hv', s, hs, -⟩ := C27_require_kid cfg P C junk me msg aad pay want hP (bit 1 hf) h
    have := hv.unique hv'
    subst this
    unfold MsgView.kid
    rw [hs]; simp [Val.asBstr]
  · intro hf; exact t1 (bit 2 hf)
  · intro hf; exact t2 (bit 4 hf)
  · intro hf
    have hdec := nobit 3 hf
    obtain ⟨v', hv', pl, hpl, -, hcr⟩ :=
      C10_acceptance cfg P C junk me msg aad pay want D hD hP hargs hdec h
    have := hv.unique hv'
    subst this
    rw [isPayload_unique (isPayload_of hacc.decodes) hpl, ← h2]
    by_cases hk : v.kid.map (·.bytes) = some scKid
    · by_cases hs : cfg.disableShortCircuit = false
      · left
        refine ⟨?_, hk⟩
        have := (C11_short_circuit cfg P C junk me msg aad pay want D hD hP hargs v hv hs hk hdec h).1
        intro h0
        rw [opt_allowShortCircuit, show optAllowShortCircuit = 0 from rfl, nobit 0 h0] at this
        cases this
      · exact .inr (hcr (.inl (by simpa using hs)))
    · exact .inr (hcr (.inr hk))

/-- A history with two initialisations, a failed verification and a key that is
replaced. -/
def exVHistory : List VerifyCall :=
  [.init 1, .verify [0x84] true true, .init 6, .setKey { lib := .openssl, k := 5 },
   .verifyAad [0xd2, 0x80] (.data [1]) true true, .setKey { lib := .openssl, k := 1 }]

example : (sign1Verify Config.full QParams.std toyCrypto noJunk
      (verifyHist Config.full QParams.std toyCrypto noJunk (VerifyCtx.init 0) exVHistory)
      (toyMsg true es256Hdr [(.uint 4, .bstr [7])] [1]) true true).res = .ok () ∧
    (sign1Verify Config.full QParams.std toyCrypto noJunk
      (verifyHist Config.full QParams.std toyCrypto noJunk (VerifyCtx.init 0) exVHistory)
      (toyMsg true es256Hdr [] [1]) true true).res = .error .noKid ∧
    (∀ c ∈ exVHistory.drop 3, c.isInit = false) := by
  refine ⟨by decide +kernel, by decide +kernel, by decide⟩

/-! ## C57: the tags reported by a context with a history -/

/-- The full claim of C57: the query reports on the most recent verification; if that
was refused, or there was none, there are no tags to report. -/
def C57_claim : Prop :=
  ∀ (cfg : Config) (C : Crypto) (junk : Junk) (me0 : VerifyCtx) (pre rest : List VerifyCall)
    (flags : Nat) (msg : Bytes) (n : Nat), n < 4 →
    (∀ c ∈ rest, c.isInit = false ∧ CallOk c) →
    let me := verifyHist cfg QParams.std C junk me0 (pre ++ .init flags :: rest)
    (rest = [] → me.getNthTag n = some noTag) ∧
    ((sign1Verify cfg QParams.std C junk me msg true true).res = .error .incorrectlyTagged →
      (sign1Verify cfg QParams.std C junk me msg true true).ctx.getNthTag n = some noTag)

/-- **C57 is violated before the first verification**: a fresh context reports the
tag 0, not the invalid tag. -/
theorem C57_fresh_reports_zero (flags n : Nat) (hn : n < 4) :
    (VerifyCtx.init flags).getNthTag n = some 0 := by
  unfold VerifyCtx.getNthTag VerifyCtx.init maxTagsToReturn
  rw [if_neg (by omega)]
  simp only
  rw [List.getElem?_replicate, if_pos hn]

/-- **C57 is violated after a refusal.** If a message (an array behind its tags) is
refused for its tags, the query reports whatever it reported before, that is the tags
of an earlier message. -/
theorem C57_stale_tags (cfg : Config) (P : QParams) (C : Crypto) (junk : Junk) (hP : P.maxTags ≤ 4)
    (me : VerifyCtx) (msg : Bytes) (aad : UB) (pay : VPayload) (want : Bool)
    (hlen : msg.length ≤ maxMessage) (k : Option Nat) (tags : List Nat) (c1 : Cur)
    (hen : entry P false ⟨0, msg⟩ = (.ok (none, ⟨.arr k, tags, none⟩), c1))
    (hbad : (me.flags.testBit 2 = true ∧ tags.head? ≠ some 18) ∨
      (me.flags.testBit 4 = true ∧ tags.head? = some 18)) (n : Nat) :
    (verifyInternal cfg P C junk me msg aad pay want).res = .error .incorrectlyTagged ∧
    (verifyInternal cfg P C junk me msg aad pay want).ctx.getNthTag n = me.getNthTag n := by
  rw [C15_refused cfg P C junk me msg aad pay want hP hlen k tags c1 hen hbad]
  exact ⟨rfl, rfl⟩

theorem checkDecoded_auTags {cfg : Config} {C : Crypto} {me : VerifyCtx} {aad : UB} {x : Decoded} :
    (checkDecoded cfg C me aad x).2.1.auTags = me.auTags := by
  unfold checkDecoded
  split
  · rfl
  · simp only
    generalize (if hasFlag me.flags optUnknownCritAllowed then _ else _ : Except Err Unit × Bool) = q
    obtain ⟨r, b⟩ := q
    cases r with
    | error e => rfl
    | ok u =>
      simp only
      split
      · rfl
      · split
        · have : (verifyEddsa C me x.params x.sig.ub x.prot.ub aad x.payload.ub).2.1.auTags =
              me.auTags := by
            unfold verifyEddsa
            generalize createTbs x.prot.ub aad x.payload.ub me.aux = t
            obtain ⟨r, b⟩ := t
            cases r with
            | error e => cases e <;> rfl
            | ok w =>
              simp only
              split
              · rfl
              · split <;> rfl
          generalize verifyEddsa C me x.params x.sig.ub x.prot.ub aad x.payload.ub = t at this
          obtain ⟨r, m, b⟩ := t
          exact this
        · rfl

/-- **C57, partial (refused later).** If the message is an array behind its tags and
the tags are as asked for, the query reports on this message, whether it is accepted
or refused for any other reason, and whatever happened on the context before. -/
theorem C57_reported_partial (cfg : Config) (P : QParams) (C : Crypto) (junk : Junk)
    (hP : P.maxTags ≤ 4) (me : VerifyCtx) (msg : Bytes) (aad : UB) (pay : VPayload) (want : Bool)
    (hlen : msg.length ≤ maxMessage) (k : Option Nat) (tags : List Nat) (c1 : Cur)
    (hen : entry P false ⟨0, msg⟩ = (.ok (none, ⟨.arr k, tags, none⟩), c1))
    (h1 : me.flags.testBit 2 = true → tags.head? = some 18)
    (h2 : me.flags.testBit 4 = true → tags.head? ≠ some 18) (hinv : noTag ∉ tags)
    (n : Nat) (hn : n ≠ 4) :
    (verifyInternal cfg P C junk me msg aad pay want).ctx.getNthTag n =
      some ((enclosing tags)[n]?.getD noTag) := by
  have hd := enterArray_intro_msg hlen hen
  have he : ((Dec.init msg).enterArray P).err = none := by rw [hd]
  have ht : ((Dec.init msg).enterArray P).tags = tags := by rw [hd]
  have htl : tags.length ≤ P.maxTags := entry_tags_le hen
  have hau : (verifyInternal cfg P C junk me msg aad pay want).ctx.auTags =
      padTags (enclosing tags) := by
    unfold verifyInternal
    simp only
    rw [decodeErr_ok.mpr he]
    simp only
    rcases processTags_eq (me := me) he (by rw [ht]; exact htl) hP with ⟨-, hpt⟩ | ⟨hnp, -⟩
    · rw [hpt, ht, restTags_enclosing hinv]
      simp only
      generalize decodeBody cfg P ((Dec.init msg).enterArray P) pay junk = y
      obtain ⟨r, st⟩ := y
      cases r with
      | error x => rfl
      | ok x =>
        simp only
        have := checkDecoded_auTags (cfg := cfg) (C := C)
          (me := { me with auTags := padTags (enclosing tags) }) (aad := aad) (x := x)
        generalize checkDecoded cfg C _ aad x = q at this
        obtain ⟨r, m, b⟩ := q
        cases r <;> exact this
    · rw [ht] at hnp
      exact absurd ⟨h1, h2⟩ hnp
  have hle : (enclosing tags).length ≤ 4 := by
    have : (enclosing tags).length ≤ tags.length := by unfold enclosing; split <;> simp
    omega
  unfold VerifyCtx.getNthTag
  rw [hau]
  unfold maxTagsToReturn padTags maxTagsToReturn
  split
  · rename_i hgt
    rw [List.getElem?_eq_none (by omega)]; rfl
  · rename_i hgt
    by_cases hl : n < (enclosing tags).length
    · rw [List.getElem?_append_left hl, List.getElem?_eq_getElem hl]; rfl
    · rw [List.getElem?_append_right (by omega), List.getElem?_eq_none (l := enclosing tags) (by omega),
        List.getElem?_replicate, if_pos (by omega)]
      rfl

example : (∃ c1, entry QParams.std false ⟨0, (taggedMsg.set 20 0)⟩ =
      (.ok (none, ⟨.arr (some 4), [18, 900, 901], none⟩), c1)) ∧
    (toyVerify 4 (taggedMsg.set 20 0)).res ≠ .ok () ∧
    (toyVerify 4 (taggedMsg.set 20 0)).ctx.getNthTag 1 = some 901 :=
  ⟨⟨_, Prod.ext (by decide +kernel) rfl⟩, by decide +kernel, by decide +kernel⟩

theorem C57_claim_false : ¬ C57_claim := by
  intro h
  have := (h Config.full toyCrypto noJunk (VerifyCtx.init 0) [] [] 0 [] 0 (by decide)
    (by intro c hc; cases hc)).1 rfl
  exact absurd this (by decide +kernel)

/-- Tags 900 and 901 of an accepted message are reported for the next, untagged
message, which is refused. -/
example :
    let me := verifyHist Config.full QParams.std toyCrypto noJunk (VerifyCtx.init 0)
      [.init 4, .verify taggedMsg true true]
    let r := sign1Verify Config.full QParams.std toyCrypto noJunk me (toyMsg false es256Hdr [] [1])
      true true
    r.res = .error .incorrectlyTagged ∧ r.ctx.getNthTag 0 = some 900 ∧
      r.ctx.getNthTag 1 = some 901 := by
  refine ⟨by decide +kernel, by decide +kernel, by decide +kernel⟩

/-- **C57, partial.** After a successful verification the query gives the enclosing
tags of that message, whatever happened on the context before.  Missing from the full
claim: refused messages and fresh contexts (`C57_stale_tags`,
`C57_fresh_reports_zero`), index 4 and the tag 2^64-1 (see C16). -/
theorem C57_most_recent_partial (cfg : Config) (P : QParams) (C : Crypto) (junk : Junk)
    (hP : P.maxTags ≤ 4) (me0 : VerifyCtx) (calls : List VerifyCall) (msg : Bytes) (aad : UB)
    (pay : VPayload) (want : Bool) (hargs : ArgsOk aad pay)
    (h : (verifyInternal cfg P C junk (verifyHist cfg P C junk me0 calls) msg aad pay want).res =
      .ok ()) (n : Nat) (hn : n ≠ 4) :
    ∃ v, IsView P msg v ∧ (noTag ∉ v.tags →
      (verifyInternal cfg P C junk (verifyHist cfg P C junk me0 calls) msg aad pay want).ctx.getNthTag
        n = some ((enclosing v.tags)[n]?.getD noTag)) :=
  C16_nth_tag_partial cfg P C junk _ msg aad pay want hP hargs h n hn

end TCose.Props
