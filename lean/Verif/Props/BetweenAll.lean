import Verif.Lemmas.SignUb
import Verif.Props.Between
import Verif.Lemmas.Held

/-!
# C92: whatever is done with the context between the two steps

What the second step finds instead of the protected header, for every sequence of calls in between, successful or not.
-/

namespace TCose.Props
open TCose Spec

/-- What the second step finds where it looks for the protected header: that of the algorithm of the context, that moved
by one octet, a NULL pointer with its length, or nothing. -/
inductive FoundHeader where
  | whole | slid | hollow | nothing
  deriving DecidableEq, Repr

/-- Octets up to the end of the protected header, before the head of the array is put in. -/
def headerRoom (flags : Nat) (alg : Int) : Nat :=
  (if Spec.Opt.omitTag flags then 0 else 1) + 1 + (protectedHeader alg).length

/-- What is found after a call, if `f` was found before.  Settings change nothing, and so do calls that are refused for
the algorithm.  Initialisation loses the header.  Messages that were finished moved it; everything else leaves it, if
there was room for it. -/
def foundStep (cfg : Config) (C : Crypto) (ctx : SignCtx) (f : FoundHeader) : MidCall → FoundHeader
  | .init .. => .nothing
  | .setKey .. | .setAux _ | .setContentTypeUint _ | .setContentTypeTstr _ => f
  | .sign det payload aad (.buf m) =>
    if ¬ algEnabled cfg ctx.alg then f
    else if m.length < headerRoom ctx.flags ctx.alg then .nothing
    else
      match (signAadInternal cfg C ctx det payload aad (.buf m)).1 with
      | .ok _ => .slid
      | .error _ => .whole
  | .start (.buf m) =>
    if ¬ algEnabled cfg ctx.alg then f
    else if m.length < headerRoom ctx.flags ctx.alg then .nothing
    else .whole
  | .sign _ _ _ (.null n) | .start (.null n) =>
    if ¬ algEnabled cfg ctx.alg then f
    else if n < headerRoom ctx.flags ctx.alg then .nothing
    else .hollow

/-- What is found after some calls. -/
def foundAfter (cfg : Config) (C : Crypto) : SignCtx → FoundHeader → List MidCall → FoundHeader
  | _, f, [] => f
  | ctx, f, c :: cs => foundAfter cfg C (c.run cfg C ⟨ctx, fun _ => .nil⟩).ctx (foundStep cfg C ctx f c) cs

/-- What is signed then. -/
def signedThen (f : FoundHeader) (alg : Int) (aad payload : Bytes) : Bytes :=
  match f with
  | .whole => sigStructure (protectedHeader alg) aad payload
  | .slid => sigStructure (slidHeader alg) aad payload
  | .hollow => hollowStructure (protectedHeader alg).length aad payload
  | .nothing => sigStructure [] aad payload

/-- Options, algorithm and key that a call sets. -/
def midFlags : MidCall → Option Nat
  | .init f _ => some f
  | _ => none

def midAlg : MidCall → Option Int
  | .init _ a => some a
  | _ => none

def midKeyInit : MidCall → Option Key
  | .init .. => some Key.null
  | .setKey k _ => some k
  | _ => none

/-- Arguments that are lengths of what they point to, and a payload for a detached one. -/
def MidArgs : MidCall → Prop
  | .sign det payload aad _ => payload.wf ∧ aad.wf ∧ (det = true → payload.isNull = false)
  | _ => True

/-! ## Lemmas -/

/-- What is found, as a buffer. -/
def foundUB (f : FoundHeader) (alg : Int) : UB :=
  match f with
  | .whole => .data (protMap alg)
  | .slid => .data (slid (protMap alg))
  | .hollow => .null (protMap alg).length
  | .nothing => .nil

theorem headerRoom_eq (me : SignCtx) :
    headerRoom me.flags me.alg = (tagPart me ++ bstrBytes (protMap me.alg)).length := by
  have hhl : (encodeHead 2 (protMap me.alg).length).length = 1 := by
    have := Ideal.protMap_length_le me.alg
    unfold encodeHead; rw [if_pos (by omega)]; rfl
  unfold headerRoom
  rw [protectedHeader_eq, List.length_append, bstrBytes, List.length_append, hhl, opt_omitTag, ← o1_nil, o1]
  cases hasFlag me.flags optOmitTag with
  | true => simp [tagBytes]
  | false =>
    have : (tagBytes true).length = 1 := by decide +kernel
    simp only [Bool.false_eq_true, if_false, Bool.not_false, List.nil_append, this]
    omega

theorem run_ctx_any (cfg : Config) (C : Crypto) (s : Midway) (p : Enc → UB) (c : MidCall) :
    (c.run cfg C s).ctx = (c.run cfg C ⟨s.ctx, p⟩).ctx := by
  cases c <;> rfl

theorem midRun_any (cfg : Config) (C : Crypto) (s : Midway) (mid : List MidCall) :
    (midRun cfg C s mid).ctx.flags = lastOr midFlags s.ctx.flags mid ∧
      (midRun cfg C s mid).ctx.alg = lastOr midAlg s.ctx.alg mid ∧
      (midRun cfg C s mid).ctx.key = lastOr midKeyInit s.ctx.key mid := by
  induction mid generalizing s with
  | nil => exact ⟨rfl, rfl, rfl⟩
  | cons c mid ih =>
    obtain ⟨i1, i2, i3⟩ := ih (c.run cfg C s)
    rw [show midRun cfg C s (c :: mid) = midRun cfg C (c.run cfg C s) mid from rfl, lastOr_cons, lastOr_cons,
      lastOr_cons, i1, i2, i3]
    cases c with
    | setAux m =>
      refine ⟨?_, ?_, ?_⟩ <;> simp only [MidCall.run, SignCtx.setAux, midFlags, midAlg, midKeyInit] <;> split <;> rfl
    | sign det p a out =>
      obtain ⟨pp, n, hc⟩ := sign_ctx (cfg := cfg) (C := C) (me := s.ctx) (det := det) (payload := p)
        (aad := a) (out := out)
      simp only [MidCall.run]
      rw [hc]
      exact ⟨rfl, rfl, rfl⟩
    | start out =>
      obtain ⟨pp, hc⟩ := params_ctx (cfg := cfg) (me := s.ctx) (e := Enc.init out)
      simp only [MidCall.run]
      rw [hc]
      exact ⟨rfl, rfl, rfl⟩
    | _ => exact ⟨rfl, rfl, rfl⟩

theorem run_found {cfg : Config} {C : Crypto} (hfit : SignFits C) {s : Midway} {f : FoundHeader} {eF : Enc}
    (h : s.prot eF = foundUB f s.ctx.alg) {c : MidCall} (hc : MidArgs c) :
    (c.run cfg C s).prot eF = foundUB (foundStep cfg C s.ctx f c) (c.run cfg C s).ctx.alg := by
  cases c with
  | init fl a => rfl
  | setKey k kid => exact h
  | setAux m =>
    have : (s.ctx.setAux cfg m).alg = s.ctx.alg := by unfold SignCtx.setAux; split <;> rfl
    simp only [MidCall.run, foundStep, this]
    exact h
  | setContentTypeUint t => exact h
  | setContentTypeTstr t => exact h
  | sign det p a out =>
    have hal : ((MidCall.sign det p a out).run cfg C s).ctx.alg = s.ctx.alg := by
      obtain ⟨pp, n, hc⟩ := sign_ctx (cfg := cfg) (C := C) (me := s.ctx) (det := det) (payload := p)
        (aad := a) (out := out)
      simp only [MidCall.run]
      rw [hc]
    rw [hal]
    by_cases hen : algEnabled cfg s.ctx.alg
    · have hsup := (C32_supported_iff cfg s.ctx.alg).mpr hen
      cases out with
      | buf m =>
        cases hq : signAadInternal cfg C s.ctx det p a (.buf m) with
        | mk r rest =>
          obtain ⟨me', e'⟩ := rest
          simp only [MidCall.run, foundStep, hq, hsup, if_true, hen, not_true_eq_false, if_false]
          rw [headerRoom_eq]
          obtain ⟨hp, ha, hd⟩ := hc
          cases r with
          | error x =>
            rw [sign_left_error hsup hq]
            by_cases hroom : (tagPart s.ctx ++ bstrBytes (protMap s.ctx.alg)).length ≤ m.length
            · rw [if_pos hroom, if_neg (by omega)]; rfl
            · rw [if_neg hroom, if_pos (by omega)]; rfl
          | ok v =>
            have hl := sign_left_buf hfit (w := p.bytes) (TCose.payArg_wf hp hd) ha hq
            rw [hl]
            have hroom : (tagPart s.ctx ++ bstrBytes (protMap s.ctx.alg)).length ≤ m.length := by
              refine Classical.byContradiction fun hn => ?_
              have h1 := sign_pointer (cfg := cfg) (C := C) det p a (.buf m) hsup
              rw [(prot_held s.ctx m).2 (by omega), hq] at h1
              simp only at h1
              rw [h1] at hl
              cases hl
            rw [if_neg (by omega)]
            rfl
      | null n =>
        have h1 := sign_pointer (cfg := cfg) (C := C) det p a (.null n) hsup
        rw [prot_null] at h1
        simp only [MidCall.run, foundStep, hsup, if_true, hen, not_true_eq_false, if_false]
        rw [headerRoom_eq, h1]
        by_cases hroom : (tagPart s.ctx ++ bstrBytes (protMap s.ctx.alg)).length ≤ n
        · rw [if_pos hroom, if_neg (by omega)]; rfl
        · rw [if_neg hroom, if_pos (by omega)]; rfl
    · have hsup : ¬ sigAlgSupported cfg s.ctx.alg = true := fun hq => hen ((C32_supported_iff cfg s.ctx.alg).mp hq)
      have : foundStep cfg C s.ctx f (.sign det p a out) = f := by
        cases out <;> simp only [foundStep, hen, not_false_eq_true, if_true]
      rw [this]
      simp only [MidCall.run, if_neg hsup]
      exact h
  | start out =>
    have hal : ((MidCall.start out).run cfg C s).ctx.alg = s.ctx.alg := by
      obtain ⟨pp, hc⟩ := params_ctx (cfg := cfg) (me := s.ctx) (e := Enc.init out)
      simp only [MidCall.run]
      rw [hc]
    rw [hal]
    by_cases hen : algEnabled cfg s.ctx.alg
    · have hsup := (C32_supported_iff cfg s.ctx.alg).mpr hen
      cases out with
      | buf m =>
        cases hq : sign1EncodeParameters cfg s.ctx (Enc.init (.buf m)) with
        | mk r rest =>
          obtain ⟨me', e'⟩ := rest
          simp only [MidCall.run, foundStep, hq, hsup, if_true, hen, not_true_eq_false, if_false]
          rw [headerRoom_eq, start_left_any hsup hq]
          by_cases hroom : (tagPart s.ctx ++ bstrBytes (protMap s.ctx.alg)).length ≤ m.length
          · rw [if_pos hroom, if_neg (by omega)]; rfl
          · rw [if_neg hroom, if_pos (by omega)]; rfl
      | null n =>
        have h1 := params_pointer (cfg := cfg) (me := s.ctx) false (.null n) hsup
        rw [prot_null] at h1
        simp only [MidCall.run, foundStep, hsup, if_true, hen, not_true_eq_false, if_false, sign1EncodeParameters]
        rw [headerRoom_eq, h1]
        by_cases hroom : (tagPart s.ctx ++ bstrBytes (protMap s.ctx.alg)).length ≤ n
        · rw [if_pos hroom, if_neg (by omega)]; rfl
        · rw [if_neg hroom, if_pos (by omega)]; rfl
    · have hsup : ¬ sigAlgSupported cfg s.ctx.alg = true := fun hq => hen ((C32_supported_iff cfg s.ctx.alg).mp hq)
      have : foundStep cfg C s.ctx f (.start out) = f := by
        cases out <;> simp only [foundStep, hen, not_false_eq_true, if_true]
      rw [this]
      simp only [MidCall.run, if_neg hsup]
      exact h

theorem midRun_found {cfg : Config} {C : Crypto} (hfit : SignFits C) {s : Midway} {f : FoundHeader} {eF : Enc}
    (h : s.prot eF = foundUB f s.ctx.alg) {mid : List MidCall} (hc : ∀ c ∈ mid, MidArgs c) :
    (midRun cfg C s mid).prot eF = foundUB (foundAfter cfg C s.ctx f mid) (midRun cfg C s mid).ctx.alg := by
  induction mid generalizing s f with
  | nil => exact h
  | cons c mid ih =>
    have h1 := run_found (cfg := cfg) hfit h (hc c (by simp))
    have h2 := ih h1 (fun c' hc' => hc c' (by simp [hc']))
    rw [show midRun cfg C s (c :: mid) = midRun cfg C (c.run cfg C s) mid from rfl, h2, foundAfter,
      run_ctx_any cfg C s (fun _ => .nil) c]

/-! ## The property -/

/-- **C92 (exactly).** For every sequence of calls between the two steps, of whatever outcome: if the second step and the
caller's `QCBOREncode_Finish` succeed, the message has the headers of the first step and the payload, and a signature
made with options, algorithm and key as set last, over what `foundAfter` says.  That is the
message just if `foundAfter` is `whole` and the algorithm is the same (`C92_whole_iff`).  (With EdDSA a NULL pointer with a
length is read, which is undefined: `C92_hollow_eddsa`.) -/
theorem C92_exact {cfg : Config} {C : Crypto} {D : Int → Bytes → Bytes} {me : SignCtx} {aad : UB}
    {cs : List Content} {m : Bytes} {r : UB} (hD : StreamHash C D) (hfit : SignFits C) {mid : List MidCall}
    (hargs : ∀ c ∈ mid, MidArgs c)
    (ha : aad.wf) (hd : fitsAll cs 13 = true) (hn : cs.length ≤ 65534)
    (hlt : me.kid.bytes.length + (me.contentTypeTstr.getD []).length + (encAll cs).length + 128 < 2 ^ 32)
    (halg : algEnabled cfg (lastOr midAlg me.alg mid))
    (hsc : Spec.Opt.shortCircuit (lastOr midFlags me.flags mid) = true → cfg.disableShortCircuit = false)
    (h : aroundSign cfg C me aad cs mid (.buf m) = .ok r) :
    ∃ me1 e1, sign1EncodeParameters cfg me (Enc.init (.buf m)) = (.ok (), me1, e1) ∧
      ((foundAfter cfg C me1 .whole mid = .hollow → lastOr midAlg me.alg mid ≠ -8) →
      ∃ sig, r = .data (messageWith cfg me cs sig) ∧
        SignedBy C D (lastOr midFlags me.flags mid) (lastOr midAlg me.alg mid) (lastOr midKeyInit me.key mid)
          (signedThen (foundAfter cfg C me1 .whole mid) (lastOr midAlg me.alg mid) aad.bytes (encAll cs)) sig) := by
  obtain ⟨me1, e1, me2, e2, hp, hs, hf⟩ := around_elim h
  refine ⟨me1, e1, hp, fun hho => ?_⟩
  obtain ⟨hpre, hprot⟩ := between_pre hp hd hn hlt hs
  obtain ⟨pp, hme⟩ := params_me hp
  obtain ⟨k1, k2, k3⟩ := midRun_any cfg C ⟨me1, fun e => e.deref me1.protectedParams⟩ mid
  have hF := midRun_found (cfg := cfg) (C := C) hfit (s := ⟨me1, fun e => e.deref me1.protectedParams⟩) (f := .whole)
    (eF := (closePayload .nil (runAll cs e1)).1.openLevel .openB)
    (by simp only [foundUB]; rw [hprot, hme, protectedHeader_eq]) hargs
  have e1' : me1.flags = me.flags := by rw [hme]
  have e2' : me1.alg = me.alg := by rw [hme]
  have e3' : me1.key = me.key := by rw [hme]
  simp only [e1', e2', e3'] at k1 k2 k3
  have hsup := (C32_supported_iff cfg _).mpr halg
  have hsc' : ¬ (hasFlag (lastOr midFlags me.flags mid) optShortCircuit = true ∧ cfg.disableShortCircuit = true) := by
    rintro ⟨x1, x2⟩
    rw [hsc (by rw [opt_shortCircuit]; exact x1)] at x2
    cases x2
  by_cases hh : foundAfter cfg C me1 .whole mid = .hollow
  · have hne : lastOr midAlg me.alg mid ≠ algEDDSA := hho hh
    rw [hh, k2] at hF
    rw [← k1] at hsc'
    rw [← k2] at hne
    obtain ⟨-, -, sig, n, hr, hdis⟩ := between_run hfit hp hd hn hlt
      (fun p place hq => signDispatch_ub' hsc' (fun hc => absurd hc.1 hne) place) hs hf
    rw [hF] at hdis
    have := SigFor.signedBy (dispatch_plain hD hne hsc' hdis)
    rw [show foundUB .hollow (lastOr midAlg me.alg mid) = .null (protMap (lastOr midAlg me.alg mid)).length from rfl,
      hollow_chunks _ ha (UB.wf_data _), k1, k2, k3, ← protectedHeader_eq] at this
    refine ⟨sig, hr, ?_⟩
    rw [hh]
    exact this
  · have hb : ∃ b, foundUB (foundAfter cfg C me1 .whole mid) (lastOr midAlg me.alg mid) = .data b ∧
          signedThen (foundAfter cfg C me1 .whole mid) (lastOr midAlg me.alg mid) aad.bytes (encAll cs) =
            sigStructure b aad.bytes (encAll cs) ∨
        foundUB (foundAfter cfg C me1 .whole mid) (lastOr midAlg me.alg mid) = .nil ∧ b = [] ∧
          signedThen (foundAfter cfg C me1 .whole mid) (lastOr midAlg me.alg mid) aad.bytes (encAll cs) =
            sigStructure b aad.bytes (encAll cs) := by
      cases hc : foundAfter cfg C me1 .whole mid with
      | whole => exact ⟨_, .inl ⟨rfl, by simp only [signedThen, protectedHeader_eq]⟩⟩
      | slid => exact ⟨_, .inl ⟨rfl, by simp only [signedThen, slid_header]⟩⟩
      | hollow => exact absurd hc hh
      | nothing => exact ⟨[], .inr ⟨rfl, rfl, rfl⟩⟩
    obtain ⟨b, hb⟩ := hb
    have hu : (foundUB (foundAfter cfg C me1 .whole mid) (lastOr midAlg me.alg mid)).wf ∧
        (foundUB (foundAfter cfg C me1 .whole mid) (lastOr midAlg me.alg mid)).bytes = b := by
      rcases hb with ⟨hb, -⟩ | ⟨hb, rfl, -⟩
      · rw [hb]; exact ⟨UB.wf_data _, rfl⟩
      · rw [hb]; exact ⟨rfl, rfl⟩
    obtain ⟨me1', e1', sig, hp', hr, hsg⟩ := around_seen (b := b) hD hfit ha hd hn hlt h (by
      intro me1' e1' hp' _ _
      rw [hp] at hp'
      cases hp'
      rw [hF, k1, k2]
      exact ⟨hsup, hsc', hu⟩)
    rw [hp] at hp'
    cases hp'
    rw [k1, k2, k3] at hsg
    refine ⟨sig, hr, ?_⟩
    have : signedThen (foundAfter cfg C me1 .whole mid) (lastOr midAlg me.alg mid) aad.bytes (encAll cs) =
        sigStructure b aad.bytes (encAll cs) := by
      rcases hb with ⟨-, hb⟩ | ⟨-, -, hb⟩ <;> exact hb
    rw [this]
    exact hsg

/-- What is signed is the header, external data and payload of a message of algorithm `alg'` just if the header was found
and the algorithm is the same. -/
theorem C92_whole_iff {cfg : Config} (f : FoundHeader) {alg alg' : Int} (h1 : algEnabled cfg alg)
    (h2 : algEnabled cfg alg') {a w : Bytes} (ha : a.length < 2 ^ 64) (hw : w.length < 2 ^ 64) :
    signedThen f alg a w = sigStructure (protectedHeader alg') a w ↔ f = .whole ∧ alg = alg' := by
  have hinj : ∀ x ∈ ([-7, -35, -36, -37, -38, -39, -8] : List Int), ∀ y ∈ ([-7, -35, -36, -37, -38, -39, -8] : List Int),
      protectedHeader x = protectedHeader y → x = y := by decide +kernel
  have hmem : ∀ {x : Int}, algEnabled cfg x → x ∈ ([-7, -35, -36, -37, -38, -39, -8] : List Int) := by
    intro x hx
    unfold algEnabled at hx
    simp only [List.mem_cons, List.not_mem_nil, or_false]
    omega
  have hslid : ∀ x ∈ ([-7, -35, -36, -37, -38, -39, -8] : List Int), ∀ y ∈ ([-7, -35, -36, -37, -38, -39, -8] : List Int),
      slidHeader x ≠ protectedHeader y ∧ (slidHeader x).length < 2 ^ 64 ∧ (protectedHeader y).length < 2 ^ 64 ∧
        protectedHeader y ≠ [] := by
    decide +kernel
  obtain ⟨s1, s2, s3, s4⟩ := hslid _ (hmem h1) _ (hmem h2)
  have s3' := (hslid _ (hmem h2) _ (hmem h1)).2.2.1
  cases f with
  | whole =>
    simp only [signedThen, true_and]
    refine ⟨fun h => hinj _ (hmem h1) _ (hmem h2) (sigStructure_inj s3' ha hw s3 ha hw h).1, fun h => by rw [h]⟩
  | slid =>
    simp only [signedThen, reduceCtorEq, false_and, iff_false]
    exact fun h => s1 (sigStructure_inj s2 ha hw s3 ha hw h).1
  | nothing =>
    simp only [signedThen, reduceCtorEq, false_and, iff_false]
    exact fun h => s4 (sigStructure_inj (by decide) ha hw s3 ha hw h).1.symm
  | hollow =>
    simp only [signedThen, reduceCtorEq, false_and, iff_false]
    intro h
    have hn : (protectedHeader alg).length < 2 ^ 64 := s3'
    simp only [hollowStructure, sigStructure, Item.enc, Spec.encList, List.length_append, List.append_nil,
      List.append_assoc, List.append_cancel_left_eq, List.length_cons, List.length_nil] at h
    rw [← encodeHead_eq_head 2 (protectedHeader alg).length, ← encodeHead_eq_head 2 (protectedHeader alg').length] at h
    obtain ⟨hn', h'⟩ := encodeHead_prefix_inj (by omega) s3' s3 h
    have hpos : 0 < (protectedHeader alg').length := List.length_pos_iff.mpr s4
    have hl := congrArg List.length h'
    simp only [List.length_append] at hl
    omega

/-- **C92 (EdDSA).** The case left out of `C92_exact` is undefined: with a NULL pointer and EdDSA, and a real auxiliary
buffer, a second step that succeeds has copied from the NULL pointer. -/
theorem C92_hollow_eddsa {cfg : Config} {C : Crypto} {me : SignCtx} {aad : UB}
    {cs : List Content} {m a : Bytes} {r : UB} (hfit : SignFits C) {mid : List MidCall}
    (hargs : ∀ c ∈ mid, MidArgs c) (hd : fitsAll cs 13 = true) (hn : cs.length ≤ 65534)
    (hlt : me.kid.bytes.length + (me.contentTypeTstr.getD []).length + (encAll cs).length + 128 < 2 ^ 32)
    (halg : lastOr midAlg me.alg mid = -8) (hed : cfg.disableEDDSA = false)
    (hsc : Spec.Opt.shortCircuit (lastOr midFlags me.flags mid) = false)
    (h : aroundSign cfg C me aad cs mid (.buf m) = .ok r) :
    ∃ me1 e1 me2 e2, sign1EncodeParameters cfg me (Enc.init (.buf m)) = (.ok (), me1, e1) ∧
      encodeSignatureSeeing cfg C (midRun cfg C ⟨me1, fun e => e.deref me1.protectedParams⟩ mid).ctx
        (midRun cfg C ⟨me1, fun e => e.deref me1.protectedParams⟩ mid).prot aad .nil (runAll cs e1)
        = (.ok (), me2, e2) ∧
      (foundAfter cfg C me1 .whole mid = .hollow →
        (midRun cfg C ⟨me1, fun e => e.deref me1.protectedParams⟩ mid).ctx.aux = .buf a → e2.ub = true) := by
  obtain ⟨me1, e1, me2, e2, hp, hs, hf⟩ := around_elim h
  refine ⟨me1, e1, me2, e2, hp, hs, fun hho hau => ?_⟩
  obtain ⟨hpre, hprot⟩ := between_pre hp hd hn hlt hs
  obtain ⟨pp, hme⟩ := params_me hp
  obtain ⟨k1, k2, -⟩ := midRun_any cfg C ⟨me1, fun e => e.deref me1.protectedParams⟩ mid
  have hF := midRun_found (cfg := cfg) (C := C) hfit (s := ⟨me1, fun e => e.deref me1.protectedParams⟩) (f := .whole)
    (eF := (closePayload .nil (runAll cs e1)).1.openLevel .openB)
    (by simp only [foundUB]; rw [hprot, hme, protectedHeader_eq]) hargs
  have e1' : me1.flags = me.flags := by rw [hme]
  have e2' : me1.alg = me.alg := by rw [hme]
  simp only [e1', e2'] at k1 k2
  rw [hho, k2, halg] at hF
  have hF' : (midRun cfg C ⟨me1, fun e => e.deref me1.protectedParams⟩ mid).prot
      ((closePayload .nil (runAll cs e1)).1.openLevel .openB) = .null 3 := hF
  rw [halg] at k2
  generalize (midRun cfg C ⟨me1, fun e => e.deref me1.protectedParams⟩ mid) = s at *
  unfold encodeSignatureSeeing at hs
  generalize closePayload .nil (runAll cs e1) = q at hs hF'
  obtain ⟨e3, pay⟩ := q
  simp only at hs hF'
  split at hs
  · cases hs
  · cases hs
  · have hob : e3.openBytes.1 = e3.openLevel .openB := rfl
    have hsc' : hasFlag s.ctx.flags optShortCircuit = false := by rw [k1, ← opt_shortCircuit]; exact hsc
    have hdis : ∀ place, signDispatch cfg C s.ctx (s.prot e3.openBytes.1) aad pay place =
        signEddsa C s.ctx (.null 3) aad pay place := by
      intro place
      unfold signDispatch
      rw [hsc', hob, hF', k2, hed]
      simp [algEDDSA]
    simp only [hdis] at hs
    cases hq : signEddsa C s.ctx (.null 3) aad pay e3.openBytes.2 with
    | mk x y =>
      obtain ⟨me', ub⟩ := y
      rw [hq] at hs
      cases x with
      | error x => cases hs
      | ok sig =>
        have hub : ub = true := by
          unfold signEddsa at hq
          rw [hau] at hq
          split at hq
          · cases hq
          · cases hq
          · rename_i tbs ub' ht
            have := createTbs_hollow_ok (by decide) (by decide) ht
            subst this
            simp only at hq
            split at hq
            · exact (congrArg (fun z => z.2.2) hq).symm
            · split at hq
              · cases hq
              · exact (congrArg (fun z => z.2.2) hq).symm
        subst hub
        injection hs with _ hs
        injection hs with _ hs
        rw [← hs]
        refine Enc.closeLevel_ub_mono (Enc.closeBytes_ub_mono ?_ _) _ _
        cases sig with
        | null n => simp
        | data b => exact Enc.writePlace_ub_mono (by simp) _

/-- **C92 (refused).** A call that is refused for its algorithm changes nothing in the context, nor what its pointer
shows, and writes nothing; the calls that are not refused for it replace the pointer (`midRun_found`). -/
theorem C92_refused {cfg : Config} {C : Crypto} {s : Midway} (h : sigAlgSupported cfg s.ctx.alg = false)
    (det : Bool) (payload aad : UB) (out : Mem) (e : Enc) :
    signAadInternal cfg C s.ctx det payload aad out = (.error .unsupportedSigningAlg, s.ctx, Enc.init out) ∧
      sign1EncodeParameters cfg s.ctx e = (.error .unsupportedSigningAlg, s.ctx, e) ∧
      (MidCall.sign det payload aad out).run cfg C s = s ∧ (MidCall.start out).run cfg C s = s := by
  have h' : ¬ sigAlgSupported cfg s.ctx.alg = true := by simp [h]
  have hp : ∀ d e, encodeParametersInternal cfg s.ctx d e = (.error .unsupportedSigningAlg, s.ctx, e) := by
    intro d e
    unfold encodeParametersInternal
    rw [if_pos h']
  have h1 : signAadInternal cfg C s.ctx det payload aad out = (.error .unsupportedSigningAlg, s.ctx, Enc.init out) := by
    unfold signAadInternal
    rw [hp]
  refine ⟨h1, hp _ _, ?_, ?_⟩
  · simp only [MidCall.run, h1, if_neg h']
  · simp only [MidCall.run, sign1EncodeParameters, hp, if_neg h']

/-- An algorithm that is refused, and one that is not. -/
example : sigAlgSupported Config.full (SignCtx.init 0 (-9999)).alg = false ∧
    sigAlgSupported Config.full exBetweenCtx.alg = true := by decide +kernel

/-- An EdDSA context with an auxiliary buffer; the size of another message is asked for in between. -/
def exHollowCtx : SignCtx :=
  { SignCtx.init 0 algEDDSA with key := ⟨.openssl, 1⟩, aux := .buf (List.replicate 80 0) }

def exHollowMid : List MidCall := [.sign false (.data [1, 2, 3]) .nil (.null 1000)]

/-- The context after the first step. -/
def exHollowParams : SignCtx :=
  (sign1EncodeParameters Config.full exHollowCtx (Enc.init (.buf (List.replicate 300 0)))).2.1

example : (aroundSign Config.full toyCrypto exHollowCtx .nil exContent exHollowMid
      (.buf (List.replicate 300 0))).toOption.isSome = true ∧
    foundAfter Config.full toyCrypto exHollowParams .whole exHollowMid = .hollow ∧
    (midRun Config.full toyCrypto ⟨exHollowParams, fun e => e.deref exHollowParams.protectedParams⟩
      exHollowMid).ctx.aux = .buf (List.replicate 80 0) := by
  decide +kernel

/-- An attempt that fails in the adapter, which has no room for the signature. -/
def exFailed : MidCall := .sign false (.data [1, 2, 3]) .nil (.buf (List.replicate 50 0))

/-- Calls with all four results, and whether the message is accepted then.  Only the header as it was makes it so. -/
example : [[], [exOther], [exFailed], [exOther, exFailed], [exFailed, exOther],
      [.sign false (.data [1, 2, 3]) .nil (.null 1000)], [.sign false (.data [1, 2, 3]) .nil (.buf [0, 0, 0, 0, 0])],
      [.init 0 algES256], [.init 0 algES256, exFailed], [.start (.null 3)],
      [.setContentTypeUint 1, .setContentTypeTstr (some [0x61]), exOther]].map (fun mid =>
      (foundAfter Config.full toyCrypto exBetweenCtx .whole mid, exAccepted mid)) =
    [(.whole, some true), (.slid, some false), (.whole, some true), (.whole, some true), (.slid, some false),
      (.hollow, some false), (.whole, some true),
      (.nothing, some false), (.whole, some true), (.nothing, some false),
      (.whole, some true)] := by
  decide +kernel

end TCose.Props
