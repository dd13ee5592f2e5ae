import Verif.Props.SignOutcome
import Verif.Props.History
import Verif.Props.RealAdapters

/-!
# C96: the signing context as a machine

C67 is about the result of one call that signs.  Here it is also said what the call leaves in the context, and
what any sequence of setting and signing calls does.  The second half of the interface (two steps) is C71 and C92.
-/

namespace TCose.Props
open TCose Spec

variable (cfg : Config) (C : Crypto) (me : SignCtx) (det : Bool) (payload aad : UB) (out : Mem)

/-- The context without the pointer to the protected header, which is stale after every call. -/
def erased (me : SignCtx) : SignCtx := { me with protectedParams := .null 0 }

/-- When signing stores the size of the auxiliary buffer: nothing is wrong with the context, what comes before the
signature fits into the output, it is an EdDSA signature and not a short-circuit one, and what is signed fits into the
auxiliary buffer. -/
def SignStoresSize (payload aad : Bytes) : Prop :=
  ctxFault cfg me = none ∧ begun cfg me det payload ≤ out.cap ∧ Spec.Opt.shortCircuit me.flags = false ∧
  me.alg = -8 ∧ (toBeSigned me payload aad).length ≤ me.aux.cap

instance (payload aad : Bytes) : Decidable (SignStoresSize cfg me det out payload aad) := by
  unfold SignStoresSize; infer_instance

/-- The context after signing. -/
def afterSign (payload aad : Bytes) : SignCtx :=
  if SignStoresSize cfg me det out payload aad then { me with auxSize := (toBeSigned me payload aad).length }
  else me

/-- How a signing call ends: with the message, with its size, or with an error; `dig` gives the hash of what is to be
signed. -/
def signEnds (dig : Int → Bytes → Except Err Bytes) : Except Err UB :=
  match out with
  | .buf m => (outcome cfg C me det payload.bytes aad.bytes (dig me.alg (toBeSigned me payload.bytes aad.bytes))
      m.length).map UB.data
  | .null n => (queryOutcome cfg C me det payload.bytes aad.bytes
      (dig me.alg (toBeSigned me payload.bytes aad.bytes)) n).map UB.null

/-- What a signing call needs: proper buffers, a payload if it is detached, no string longer than the hash takes, a
message that begins within QCBOR's limit, and no auxiliary buffer in a size query for EdDSA. -/
structure SignArgs (N : Nat) : Prop where
  pay : payload.wf
  ext : aad.wf
  detached : det = true → payload.isNull = false
  pieces : PiecesUpTo N (protectedHeader me.alg) aad.bytes payload.bytes
  limit : begun cfg me det payload.bytes < 2 ^ 32 - 9
  query : out.isNull = true → Spec.Opt.shortCircuit me.flags = false → me.alg = -8 → me.aux.isNull = true

variable {cfg C me det payload aad out} {N : Nat}

theorem dispatch_ctx (hpre : SignPre cfg me) (ha : aad.wf) (w : Bytes) (nul : Bool) (place : Enc.Place) (pp : Enc.PRef)
    (hx : nul = true → Spec.Opt.shortCircuit me.flags = false → me.alg = -8 → me.aux.isNull = true) :
    (signDispatch cfg C { me with protectedParams := pp } (seen nul (protMap me.alg)) aad (paySeen det nul w) place).2.1 =
      if Spec.Opt.shortCircuit me.flags = false ∧ me.alg = -8 ∧
          (toBeSigned me w aad.bytes).length ≤ me.aux.cap then
        { me with protectedParams := pp, auxSize := (toBeSigned me w aad.bytes).length }
      else { me with protectedParams := pp } := by
  have htb : toBeSigned me w aad.bytes = sigStructure (protMap me.alg) aad.bytes w := by
    unfold toBeSigned; rw [protectedHeader_eq]
  rw [htb]
  cases hsc : hasFlag me.flags optShortCircuit with
  | true =>
    have hdis : cfg.disableShortCircuit = false := by
      cases h : cfg.disableShortCircuit
      · rfl
      · exact absurd ⟨hsc, h⟩ hpre.sc
    rw [if_neg (fun h => by rw [opt_shortCircuit, hsc] at h; exact absurd h.1 (by simp))]
    unfold signDispatch
    rw [if_pos (by simp [hsc, hdis])]
  | false =>
    by_cases hal : me.alg = -8
    · have := signDispatch_eddsa (cfg := cfg) (C := C) (me := { me with protectedParams := pp })
        (aad := aad) (det := det) (nul := nul) (w := w) (place := place)
        (eddsa_on hpre hal) hal hsc ha (fun h => hx h (by rw [opt_shortCircuit, hsc]) hal) (protMap me.alg)
      rw [this]
      by_cases h1 : me.aux.cap < (sigStructure (protMap me.alg) aad.bytes w).length
      · rw [if_pos h1, if_neg (fun h => absurd h.2.2 (by omega))]
      · rw [if_neg h1, if_pos ⟨by rw [opt_shortCircuit, hsc], hal, by omega⟩]
    · rw [if_neg (fun h => hal h.2.1)]
      unfold signDispatch
      rw [if_neg (by simp [hsc]), if_neg (by simp [algEDDSA, hal])]

/-- **C96 (context).** The context after a signing call, with every adapter. -/
theorem C96_context (h : SignArgs cfg me det payload aad out N) :
    erased (signAadInternal cfg C me det payload aad out).2.1 =
      erased (afterSign cfg me det out payload.bytes aad.bytes) := by
  unfold afterSign
  rcases hf : ctxFault cfg me with _ | x
  rotate_left
  · rw [if_neg (fun h => by have := h.1; rw [hf] at this; cases this)]
    have h1 := ctxFault_params hf det (Enc.init out)
    obtain ⟨pp, h2⟩ := encParam_ctx (cfg := cfg) (me := me) (det := det) (e := Enc.init out)
    unfold signAadInternal
    generalize encodeParametersInternal cfg me det (Enc.init out) = q at h1 h2
    obtain ⟨r, m, e⟩ := q
    cases h1
    cases h2
    rfl
  · have hpre := ctxFault_none hf
    have hlim := h.limit
    have hbeg := begun_eq (det := det) (payload := payload.bytes) hpre.ct
    rw [hbeg] at hlim
    have hlim : (preSig cfg me det payload.bytes).length < Enc.maxStart := by unfold Enc.maxStart; omega
    have hH : det = true ∨ (tagPart me ++ hdrBytes cfg me).length < Enc.maxStart :=
      .inr (Nat.lt_of_le_of_lt (hdr_le _ _ _ _) hlim)
    by_cases hc : out.cap < (preSig cfg me det payload.bytes).length
    · rw [if_neg (fun h => absurd h.2.1 (by omega))]
      obtain ⟨pp, dp, e1, hsign, hst1, -⟩ := sign_stage cfg C me det payload aad payload.bytes out hpre
        (payArg_wf h.pay h.detached _) hH
      have hsm : (closePayload dp e1).1.small = true := by
        cases hh : (closePayload dp e1).1.small with
        | true => rfl
        | false =>
          have h1 := (hst1.good hh).1
          have h2 := hst1.le
          simp only [preSig] at hc
          simp only [] at h1
          omega
      rw [hsign, signTail, encSig_tooSmall hsm]
      rfl
    · obtain ⟨-, h2⟩ := sign_run cfg C me det payload aad payload.bytes out hpre
        (payArg_wf h.pay h.detached _) hH
      obtain ⟨pp, -, h2⟩ := h2 (by omega)
      have hdc := dispatch_ctx (C := C) (det := det) hpre h.ext payload.bytes out.isNull
        (placeOf out.cap out.isNull (preSig cfg me det payload.bytes).length) pp h.query
      have : (signAadInternal cfg C me det payload aad out).2.1 =
          (signDispatch cfg C { me with protectedParams := pp } (seen out.isNull (protMap me.alg)) aad
            (paySeen det out.isNull payload.bytes)
            (placeOf out.cap out.isNull (preSig cfg me det payload.bytes).length)).2.1 := by
        generalize signDispatch cfg C { me with protectedParams := pp } (seen out.isNull (protMap me.alg)) aad
            (paySeen det out.isNull payload.bytes)
            (placeOf out.cap out.isNull (preSig cfg me det payload.bytes).length) = q at h2
        obtain ⟨r, m, u⟩ := q
        cases r with
        | error x =>
          obtain ⟨e', h2⟩ := h2
          rw [h2]
        | ok s =>
          obtain ⟨e', r, h2, -⟩ := h2
          rw [h2]
      rw [this, hdc]
      by_cases hs : Spec.Opt.shortCircuit me.flags = false ∧ me.alg = -8 ∧
          (toBeSigned me payload.bytes aad.bytes).length ≤ me.aux.cap
      · rw [if_pos hs, if_pos ⟨hf, by omega, hs⟩]
        rfl
      · rw [if_neg hs, if_neg (fun h => hs h.2.2)]
        rfl

variable (cfg C me det payload aad out) (N)

/-- The hash for an algorithm, by the functions `D`. -/
def hashBy (D : Int → Bytes → Bytes) (alg : Int) (b : Bytes) : Except Err Bytes :=
  match hashFor cfg alg with
  | none => .error .unsupportedSigningAlg
  | some ha => .ok (D ha b)

/-- **C96.** A call that signs ends as `signEnds` says and leaves the context as `afterSign` says; the pointer to the
protected header in it is of no use to anyone. -/
theorem C96_call (hfit : SignFits C) {D : Int → Bytes → Bytes} (hD : Hashes N cfg C D me.alg)
    (h : SignArgs cfg me det payload aad out N) :
    (signAadInternal cfg C me det payload aad out).1 = signEnds cfg C me det payload aad out (hashBy cfg D) ∧
    erased (signAadInternal cfg C me det payload aad out).2.1 =
      erased (afterSign cfg me det out payload.bytes aad.bytes) := by
  refine ⟨?_, C96_context h⟩
  cases out with
  | buf m => exact C67_sign cfg C D me det payload aad hfit hD m h.pay h.ext h.pieces h.detached h.limit
  | null n => exact C67_size cfg C D me det payload aad hD n h.pieces h.pay h.ext h.detached (h.query rfl) h.limit

/-- **C96 (test adapter).** The same with the adapter for tests and its SHA-256, whatever its hooks are set to. -/
theorem C96_test (mode : Nat) (fresh : Bytes) (hfr : fresh.length = 64)
    (h : SignArgs cfg me det payload aad out (2 ^ 32 - 1)) :
    (signAadInternal cfg (testCrypto cfg mode fresh) me det payload aad out).1 =
      signEnds cfg (testCrypto cfg mode fresh) me det payload aad out (fun alg b => testDigest cfg mode b alg) ∧
    erased (signAadInternal cfg (testCrypto cfg mode fresh) me det payload aad out).2.1 =
      erased (afterSign cfg me det out payload.bytes aad.bytes) := by
  refine ⟨?_, C96_context h⟩
  cases out with
  | buf m => exact C70_sign_test cfg aad mode fresh hfr me det payload m h.pay h.ext h.detached h.pieces h.limit
  | null n =>
    exact C70_size_test cfg aad mode fresh hfr me det payload n h.pay h.ext h.detached h.pieces
      (h.query rfl) h.limit

/-! ## Histories -/

/-- What a call on a signing context does: the context after it and how it ends, if it signs.  The calls of the
two-step interface are left out here. -/
def signDone : SignCall → SignCtx × Option (Except Err UB)
  | .init flags alg => (SignCtx.init flags alg, none)
  | .setKey k kid => (me.setKey k kid, none)
  | .setAux m => (me.setAux cfg m, none)
  | .setContentTypeUint t => (me.setContentTypeUint t, none)
  | .setContentTypeTstr t => (me.setContentTypeTstr t, none)
  | .sign p o => ((sign1Sign cfg C me p o).2.1, some (sign1Sign cfg C me p o).1)
  | .signAad a p o => ((sign1SignAad cfg C me a p o).2.1, some (sign1SignAad cfg C me a p o).1)
  | .signDetached a p o => ((sign1SignDetached cfg C me a p o).2.1, some (sign1SignDetached cfg C me a p o).1)
  | _ => (me, none)

variable (dig : Int → Bytes → Except Err Bytes)

/-- The same for the reference machine.  The function with external data takes it for the payload, and the payload for
it (C05). -/
def signRef : SignCall → SignCtx × Option (Except Err UB)
  | .init flags alg => (⟨alg, Key.null, flags, .null 0, 65536, none, .null 0, .null (2 ^ 64 - 1), 0⟩, none)
  | .setKey k kid => ({ me with key := k, kid := kid }, none)
  | .setAux m => (if cfg.disableEDDSA then me else { me with aux := m }, none)
  | .setContentTypeUint t => ({ me with contentTypeUint := t % 65536 }, none)
  | .setContentTypeTstr t => ({ me with contentTypeTstr := t }, none)
  | .sign p o => (afterSign cfg me false o p.bytes [], some (signEnds cfg C me false p (.null 0) o dig))
  | .signAad a p o => (afterSign cfg me false o a.bytes p.bytes, some (signEnds cfg C me false a p o dig))
  | .signDetached a p o => (afterSign cfg me true o p.bytes a.bytes, some (signEnds cfg C me true p a o dig))
  | _ => (me, none)

/-- A call that is allowed in a context. -/
def SignAllowed : SignCall → Prop
  | .sign p o => SignArgs cfg me false p (.null 0) o N
  | .signAad a p o => SignArgs cfg me false a p o N
  | .signDetached a p o => SignArgs cfg me true p a o N
  | .encodeParameters _ | .encodeSignature _ | .encodeSignatureAad _ _ => False
  | _ => True

/-- Calls one after the other: the context after them and how each ended. -/
def signInTurn (step : SignCtx → SignCall → SignCtx × Option (Except Err UB)) (me : SignCtx) :
    List SignCall → SignCtx × List (Option (Except Err UB))
  | [] => (me, [])
  | c :: cs =>
    let s := step me c
    let t := signInTurn step s.1 cs
    (t.1, s.2 :: t.2)

/-- Each call is allowed when its turn comes. -/
def AllAllowed (me : SignCtx) : List SignCall → Prop
  | [] => True
  | c :: cs => SignAllowed cfg me N c ∧ AllAllowed (signRef cfg C me dig c).1 cs

theorem sign_step (hE : ∀ me det p a o, SignArgs cfg me det p a o N →
      (signAadInternal cfg C me det p a o).1 = signEnds cfg C me det p a o dig) (me me' : SignCtx) (he : erased me = erased me')
    (c : SignCall) (hc : SignAllowed cfg me' N c) :
    erased (signDone cfg C me c).1 = erased (signRef cfg C me' dig c).1 ∧
      (signDone cfg C me c).2 = (signRef cfg C me' dig c).2 := by
  obtain ⟨a1, a2, a3, a4, a5, a6, a7, a8, a9⟩ := me
  obtain ⟨b1, b2, b3, b4, b5, b6, b7, b8, b9⟩ := me'
  simp only [erased, SignCtx.mk.injEq] at he
  obtain ⟨rfl, rfl, rfl, rfl, rfl, rfl, -, rfl, rfl⟩ := he
  have key : ∀ (det : Bool) (p a : UB) (o : Mem),
      SignArgs cfg ⟨a1, a2, a3, a4, a5, a6, b7, a8, a9⟩ det p a o N →
      erased (signAadInternal cfg C ⟨a1, a2, a3, a4, a5, a6, a7, a8, a9⟩ det p a o).2.1 =
        erased (afterSign cfg ⟨a1, a2, a3, a4, a5, a6, b7, a8, a9⟩ det o p.bytes a.bytes) ∧
      (signAadInternal cfg C ⟨a1, a2, a3, a4, a5, a6, a7, a8, a9⟩ det p a o).1 =
        signEnds cfg C ⟨a1, a2, a3, a4, a5, a6, b7, a8, a9⟩ det p a o dig := by
    intro det p a o h
    have h' : SignArgs cfg ⟨a1, a2, a3, a4, a5, a6, a7, a8, a9⟩ det p a o N :=
      ⟨h.pay, h.ext, h.detached, h.pieces, h.limit, h.query⟩
    refine ⟨(C96_context h').trans ?_, hE _ _ _ _ _ h'⟩
    unfold afterSign
    by_cases hs : SignStoresSize cfg ⟨a1, a2, a3, a4, a5, a6, a7, a8, a9⟩ det o p.bytes a.bytes
    · rw [if_pos hs, if_pos (show SignStoresSize cfg ⟨a1, a2, a3, a4, a5, a6, b7, a8, a9⟩ det o p.bytes a.bytes
        from hs)]
      rfl
    · rw [if_neg hs, if_neg (show ¬ SignStoresSize cfg ⟨a1, a2, a3, a4, a5, a6, b7, a8, a9⟩ det o p.bytes a.bytes
        from hs)]
      rfl
  cases c with
  | init flags alg => exact ⟨rfl, rfl⟩
  | setKey k kid => exact ⟨rfl, rfl⟩
  | setAux m =>
    simp only [signDone, signRef, SignCtx.setAux]
    cases cfg.disableEDDSA <;> exact ⟨rfl, trivial⟩
  | setContentTypeUint t => exact ⟨rfl, rfl⟩
  | setContentTypeTstr t => exact ⟨rfl, rfl⟩
  | sign p o =>
    obtain ⟨k1, k2⟩ := key false p (.null 0) o hc
    exact ⟨k1, congrArg some k2⟩
  | signAad a p o =>
    obtain ⟨k1, k2⟩ := key false a p o hc
    exact ⟨k1, congrArg some k2⟩
  | signDetached a p o =>
    obtain ⟨k1, k2⟩ := key true p a o hc
    exact ⟨k1, congrArg some k2⟩
  | encodeParameters e => exact hc.elim
  | encodeSignature e => exact hc.elim
  | encodeSignatureAad a e => exact hc.elim

theorem sign_history (hE : ∀ me det p a o, SignArgs cfg me det p a o N →
      (signAadInternal cfg C me det p a o).1 = signEnds cfg C me det p a o dig) (calls : List SignCall) :
    ∀ m m', erased m = erased m' → AllAllowed cfg C N dig m' calls →
      erased (signInTurn (signDone cfg C) m calls).1 = erased (signInTurn (signRef cfg C · dig) m' calls).1 ∧
      (signInTurn (signDone cfg C) m calls).2 = (signInTurn (signRef cfg C · dig) m' calls).2 := by
  induction calls with
  | nil => intro m m' h _; exact ⟨h, rfl⟩
  | cons c cs ih =>
    intro m m' h ⟨h1, h2⟩
    obtain ⟨k1, k2⟩ := sign_step cfg C N dig hE m m' h c h1
    obtain ⟨k3, k4⟩ := ih _ _ k1 h2
    exact ⟨k3, by simp only [signInTurn]; rw [k2, k4]⟩

/-- **C96 (history).** Any sequence of setting and signing calls on a context does in each step what the reference
machine does, and leaves the context the machine has. -/
theorem C96_history (hfit : SignFits C) {D : Int → Bytes → Bytes} (hD : ∀ alg, Hashes N cfg C D alg)
    (calls : List SignCall) (hok : AllAllowed cfg C N (hashBy cfg D) me calls) :
    erased (signInTurn (signDone cfg C) me calls).1 =
      erased (signInTurn (signRef cfg C · (hashBy cfg D)) me calls).1 ∧
    (signInTurn (signDone cfg C) me calls).2 = (signInTurn (signRef cfg C · (hashBy cfg D)) me calls).2 :=
  sign_history cfg C N _ (fun me det p a o h => (C96_call cfg C me det p a o N hfit (hD _) h).1) calls me me rfl hok

/-- **C96 (history, test adapter).** The same with the adapter for tests. -/
theorem C96_history_test (mode : Nat) (fresh : Bytes) (hfr : fresh.length = 64) (calls : List SignCall)
    (hok : AllAllowed cfg (testCrypto cfg mode fresh) (2 ^ 32 - 1) (fun alg b => testDigest cfg mode b alg) me calls) :
    erased (signInTurn (signDone cfg (testCrypto cfg mode fresh)) me calls).1 =
      erased (signInTurn (signRef cfg (testCrypto cfg mode fresh) · (fun alg b => testDigest cfg mode b alg)) me
        calls).1 ∧
    (signInTurn (signDone cfg (testCrypto cfg mode fresh)) me calls).2 =
      (signInTurn (signRef cfg (testCrypto cfg mode fresh) · (fun alg b => testDigest cfg mode b alg)) me calls).2 :=
  sign_history cfg _ _ _ (fun me det p a o h => (C96_test cfg me det p a o mode fresh hfr h).1) calls me me rfl hok

/-- A context for EdDSA: without an auxiliary buffer the size is asked for, then a buffer of that size is given, and
the message is signed twice, the first time with too little room; then an ES256 message with external data. -/
def signCalls : List SignCall :=
  [.init 0 (-8), .setKey ⟨.openssl, 1⟩ (.data [7]), .sign (.data [1, 2, 3]) (.null 200),
   .setAux (.buf (List.replicate 40 0)), .sign (.data [1, 2, 3]) (.buf (List.replicate 10 0)),
   .sign (.data [1, 2, 3]) (.buf (List.replicate 200 0)), .init 0 (-7), .setKey ⟨.openssl, 1⟩ (.null 0),
   .signDetached (.data [5]) (.data [1, 2]) (.buf (List.replicate 100 0))]

example : (signInTurn (signRef Config.full toyCrypto · (hashBy Config.full toyDigest)) (SignCtx.init 0 0) signCalls).2 =
    (signInTurn (signDone Config.full toyCrypto) (SignCtx.init 0 0) signCalls).2 :=
  (C96_history Config.full toyCrypto (SignCtx.init 0 0) 20 toy_signFits (fun _ => toy_hashes 20 _ _) signCalls (by
    simp only [signCalls, AllAllowed, SignAllowed, and_true, true_and]
    refine ⟨?_, ?_, ?_, ?_⟩
    all_goals exact ⟨rfl, rfl, by decide, by unfold PiecesUpTo; decide, by decide +kernel, by decide⟩)).2.symm

/- How each of these calls ends, with the lengths for the messages, and the size that is left. -/
example : ((signInTurn (signDone Config.full toyCrypto) (SignCtx.init 0 0) signCalls).2.map fun r =>
      r.map fun r => r.map UB.len) =
      [none, none, some (.ok 80), none, some (.error .tooSmall), some (.ok 80), none, none, some (.ok 74)] ∧
    (signInTurn (signDone Config.full toyCrypto) (SignCtx.init 0 0) (signCalls.take 6)).1.auxSize = 21 := by
  decide +kernel

end TCose.Props
