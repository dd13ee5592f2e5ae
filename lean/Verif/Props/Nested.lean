import Verif.Props.TwoStep
import Verif.Props.SignOutcome

/-!
# C71: the outcome of two-step signing anywhere

C67 says how the one-call functions end.  Here the same for
`t_cose_sign1_encode_parameters` and `t_cose_sign1_encode_signature_aad`, started
after any encoder calls of the caller and with any payload written in between.
-/

namespace TCose.Props
open TCose Spec

variable (cfg : Config) (C : Crypto) (D : Int → Bytes → Bytes) (me : SignCtx)

/-- How the second call ends when there are `k` octets before the message in a
buffer of `n`: an error, or the signature (with no room for a signature, only its
size matters). -/
def secondCall (payload aad : Bytes) (digest : Except Err Bytes) (k n : Nat) : Except Err Bytes :=
  if n < k + begun cfg me false payload then .error .tooSmall
  else if n = k + begun cfg me false payload then
    (askSize C me payload aad digest).map fun j => List.replicate j 0
  else makeSig C me payload aad digest (n - (k + begun cfg me false payload))

/-- What the encoder has put into the buffer. -/
def written (e : Enc) : Bytes :=
  match e.mem with
  | .buf m => m.take e.len
  | .null _ => []

theorem written_eq {cap : Nat} {e : Enc} {a : Ideal} (h : Rel cap false e a) (hs : e.small = false) :
    written e = a.out := by
  obtain ⟨-, -, -, g4⟩ := h.good hs
  unfold written
  have := h.nul_eq
  cases hm : e.mem with
  | null c => rw [hm] at this; cases this
  | buf mm => exact g4 mm hm

theorem small_iff {cap : Nat} {nul : Bool} {e : Enc} {a : Ideal} (h : Rel cap nul e a) :
    e.small = true ↔ cap < a.out.length := by
  refine ⟨h.small, fun hl => ?_⟩
  cases hs : e.small with
  | true => rfl
  | false =>
    have := h.le
    rw [(h.good hs).1] at this
    omega

variable {cfg C me}

/-- Both kinds of buffer up to the end of the payload. -/
theorem nested_stage {cap : Nat} {nul : Bool} {e0 : Enc} {o : Bytes} {ns : List Nest}
    {cs : List Content} {d : Nat}
    (hr : Rel cap nul e0 ⟨o, none, ns⟩) (hlo : LvlOk ns) (hdep : ns.length ≤ 11)
    (hd : fitsAll cs d = true) (hdd : ns.length + d ≤ 13) (hn : cs.length ≤ 65534)
    (hlt : o.length + me.kid.bytes.length
      + (me.contentTypeTstr.getD []).length + (encAll cs).length + 128 < 2 ^ 32)
    (hpre : SignPre cfg me) :
    ∃ pp e1, sign1EncodeParameters cfg me e0 = (.ok (), { me with protectedParams := pp }, e1) ∧
      (∃ a, Rel cap nul (runAll cs e1) a) ∧
      Rel cap nul (closePayload .nil (runAll cs e1)).1
        ⟨o1 me o ++ (hdrBytes cfg me ++ bstrBytes (encAll cs)), none,
          ⟨.arr, (o1 me o).length, 3⟩ :: bumpN ns⟩ ∧
      (o1 me o ++ (hdrBytes cfg me ++ bstrBytes (encAll cs))).length < Enc.maxStart ∧
      (o1 me o ++ (hdrBytes cfg me ++ bstrBytes (encAll cs))).length =
        o.length + begun cfg me false (encAll cs) ∧
      ((closePayload .nil (runAll cs e1)).1.small = false →
        (closePayload .nil (runAll cs e1)).2 = seen nul (encAll cs) ∧ PPok nul me o pp) := by
  have hh := hdr_length cfg me
  obtain ⟨pp, e1, henc, hrel, hpp⟩ := params_ok cfg me false hr hlo (by omega)
    (by unfold Enc.maxStart; omega) hpre.alg hpre.sc hpre.ct
  have hho : hdrOut cfg me o = o1 me o ++ hdrBytes cfg me := by simp [hdrOut, hdrBytes]
  have htl : (o1 me o).length = o.length + (tagPart me).length := by simp [o1, tagPart]
  have hbl := encodeHead_length_le 2 (encAll cs).length
  simp only [List.length_append] at hh
  simp only [Bool.false_eq_true, if_false] at hrel
  rw [hho, Ideal.bstrWrap, Ideal.openLevel_cons _ (by decide) (by decide)
    (by simp; omega) (by simp only [List.length_append, Enc.maxStart]; omega)] at hrel
  have r1 := runAll_rel cs hd hrel (by decide) (by omega)
    (by simp only [List.length_cons, bumpN_length]; omega)
    (by simp only [List.length_append, Enc.maxStart]; omega)
  have c1 := closePayload_inline r1
  obtain ⟨hcl, hpay⟩ := c1
  have hrel2 : Rel cap nul (closePayload .nil (runAll cs e1)).1
      ⟨o1 me o ++ (hdrBytes cfg me ++ bstrBytes (encAll cs)), none,
        ⟨.arr, (o1 me o).length, 3⟩ :: bumpN ns⟩ := by
    rw [List.append_assoc] at hcl; exact hcl
  have hlen : (o1 me o ++ (hdrBytes cfg me ++ bstrBytes (encAll cs))).length < Enc.maxStart := by
    simp only [List.length_append, Enc.maxStart, bstrBytes]; omega
  have hbeg : (o1 me o ++ (hdrBytes cfg me ++ bstrBytes (encAll cs))).length =
      o.length + begun cfg me false (encAll cs) := by
    rw [begun_eq hpre.ct]
    simp only [preSig, payPart, List.length_append, htl, Bool.false_eq_true, if_false]
    omega
  refine ⟨pp, e1, henc, ⟨_, r1⟩, hrel2, hlen, hbeg, fun hs => ⟨hpay hs, hpp ?_⟩⟩
  have hs2 : (runAll cs e1).closeBstrWrap2.1.small = false := hs
  exact runAll_small cs (Enc.closeLevel_small_mono hs2)

/-- Two-step signing with any hash, from any encoder that has not failed but for want of
room. -/
theorem nested_rel {e0 : Enc} {o : Bytes} {ns : List Nest} {m : Bytes} {cs : List Content} {d : Nat}
    {aad : UB} {digest : Except Err Bytes} (hfit : SignFits C) (ha : aad.wf)
    (hr : Rel m.length false e0 ⟨o, none, ns⟩) (hlo : LvlOk ns) (hdep : ns.length ≤ 11)
    (hd : fitsAll cs d = true) (hdd : ns.length + d ≤ 13) (hn : cs.length ≤ 65534)
    (hlt : o.length + me.kid.bytes.length
      + (me.contentTypeTstr.getD []).length + (encAll cs).length + 128 < 2 ^ 32)
    (hdig : createTbsHash cfg C me.alg (.data (protMap me.alg)) aad (.data (encAll cs))
      (maxHashSize cfg) = digest) (hne : ∀ d, digest = .ok d → d ≠ [])
    (hf : ctxFault cfg me = none) :
    ∃ me1 e1, sign1EncodeParameters cfg me e0 = (.ok (), me1, e1) ∧
      match secondCall cfg C me (encAll cs) aad.bytes digest o.length m.length with
      | .error x => (sign1EncodeSignatureAad cfg C me1 aad (runAll cs e1)).1 = .error x
      | .ok s => ∃ me2 e2, sign1EncodeSignatureAad cfg C me1 aad (runAll cs e1) = (.ok (), me2, e2) ∧
          Rel m.length false e2 ⟨o ++ finished cfg me false (encAll cs) s, none, bumpN ns⟩ := by
  have hpre : SignPre cfg me := ctxFault_none hf
  obtain ⟨pp, e1, henc, -, hrel2, hlen, hbeg, hst⟩ := nested_stage hr hlo hdep hd hdd hn hlt hpre
  refine ⟨_, e1, henc, ?_⟩
  unfold sign1EncodeSignatureAad secondCall
  rw [← hbeg]
  by_cases hc : m.length < (o1 me o ++ (hdrBytes cfg me ++ bstrBytes (encAll cs))).length
  · rw [if_pos hc]
    simp only
    rw [encSig_tooSmall ((small_iff hrel2).mpr hc)]
  rw [if_neg hc]
  have hs : (closePayload .nil (runAll cs e1)).1.small = false := by
    cases hq : (closePayload .nil (runAll cs e1)).1.small with
    | false => rfl
    | true => exact absurd ((small_iff hrel2).mp hq) hc
  obtain ⟨hpay, hpp⟩ := hst hs
  have hl : (encodeHead 2 (protMap me.alg).length).length = 1 := by
    have := Ideal.protMap_length_le me.alg
    unfold encodeHead
    rw [if_pos (by omega)]
    rfl
  have hrun := encSig_run (pm := protMap me.alg)
    (rest := unprotBytes (kidArg me).bytes (ctArg cfg me) ++ bstrBytes (encAll cs))
    cfg C { me with protectedParams := pp } aad .nil (.data (encAll cs)) hpay hrel2 hs
    (by simp; omega) (by simp [hdrBytes]) hl hpp
  have hmsg : ∀ s, finalIdeal (o1 me o) (hdrBytes cfg me ++ bstrBytes (encAll cs)) s (bumpN ns) =
      ⟨o ++ finished cfg me false (encAll cs) s, none, bumpN ns⟩ := by
    intro s
    rw [finished_eq hpre.ct]
    simp [finalIdeal, msgBytes, payPart, o1, tagPart]
  rw [show seen false (protMap me.alg) = UB.data (protMap me.alg) from rfl] at hrun
  by_cases he : m.length = (o1 me o ++ (hdrBytes cfg me ++ bstrBytes (encAll cs))).length
  · rw [if_pos he]
    rw [show placeOf m.length false (o1 me o ++ (hdrBytes cfg me ++ bstrBytes (encAll cs))).length
      = .null by unfold placeOf; rw [← he]; simp] at hrun
    obtain ⟨me', hdis⟩ := dispatch_ask (C := C) (payload := encAll cs) (digest := digest) hpre ha pp
      false false (hash_any hdig) (by simp)
    rw [show seen false (protMap me.alg) = UB.data (protMap me.alg) from rfl,
      show paySeen false false (encAll cs) = UB.data (encAll cs) from rfl] at hdis
    rw [hdis] at hrun
    cases hq : askSize C me (encAll cs) aad.bytes digest with
    | error x =>
      rw [hq] at hrun
      obtain ⟨e', h⟩ := hrun
      simp only [Except.map]
      rw [h]
    | ok k =>
      rw [hq] at hrun
      obtain ⟨e', h, hk⟩ := hrun
      refine ⟨_, e', h, ?_⟩
      have := (hk (List.replicate k 0) (.inr ⟨by simp, .inr (by omega)⟩) rfl).1 hlen
      rw [hmsg] at this
      exact this
  · rw [if_neg he]
    rw [show placeOf m.length false (o1 me o ++ (hdrBytes cfg me ++ bstrBytes (encAll cs))).length
      = .room (m.length - (o1 me o ++ (hdrBytes cfg me ++ bstrBytes (encAll cs))).length) by
        unfold placeOf; rw [if_neg (by simp), if_pos (by omega)]] at hrun
    obtain ⟨me', hdis⟩ := dispatch_make (payload := encAll cs) hpre ha hdig hne pp
      (m.length - (o1 me o ++ (hdrBytes cfg me ++ bstrBytes (encAll cs))).length)
    rw [hdis] at hrun
    cases hq : makeSig C me (encAll cs) aad.bytes digest
      (m.length - (o1 me o ++ (hdrBytes cfg me ++ bstrBytes (encAll cs))).length) with
    | error x =>
      rw [hq] at hrun
      obtain ⟨e', h⟩ := hrun
      simp only
      rw [h]
    | ok s =>
      rw [hq] at hrun
      obtain ⟨e', h, hk⟩ := hrun
      refine ⟨_, e', h, ?_⟩
      have := (hk s (.inl ⟨rfl, rfl, makeSig_fits hfit hq⟩) rfl).1 hlen
      rw [hmsg] at this
      exact this

/-- Two-step signing with any hash, successful or not. -/
theorem nested_run {ops : List EncOp} {m : Bytes} {cs : List Content} {d : Nat} {aad : UB}
    {digest : Except Err Bytes} (hfit : SignFits C) (ha : aad.wf)
    (h0 : StartOk (runOps ops (Enc.init (.buf m))))
    (hd : fitsAll cs d = true) (hdd : (runOps ops (Enc.init (.buf m))).nest.length + d ≤ 13)
    (hn : cs.length ≤ 65534)
    (hlt : (runOps ops (Enc.init (.buf m))).len + me.kid.bytes.length
      + (me.contentTypeTstr.getD []).length + (encAll cs).length + 128 < 2 ^ 32)
    (hdig : createTbsHash cfg C me.alg (.data (protMap me.alg)) aad (.data (encAll cs))
      (maxHashSize cfg) = digest) (hne : ∀ d, digest = .ok d → d ≠ [])
    (hf : ctxFault cfg me = none) :
    ∃ me1 e1, sign1EncodeParameters cfg me (runOps ops (Enc.init (.buf m))) = (.ok (), me1, e1) ∧
      match secondCall cfg C me (encAll cs) aad.bytes digest
        (runOps ops (Enc.init (.buf m))).len m.length with
      | .error x => (sign1EncodeSignatureAad cfg C me1 aad (runAll cs e1)).1 = .error x
      | .ok s => ∃ me2 e2, sign1EncodeSignatureAad cfg C me1 aad (runAll cs e1) = (.ok (), me2, e2) ∧
          Rel m.length false e2 ⟨written (runOps ops (Enc.init (.buf m))) ++
            finished cfg me false (encAll cs) s, none,
            bumpN (runOps ops (Enc.init (.buf m))).nest⟩ := by
  obtain ⟨⟨o, er, ns⟩, hr⟩ := ops_rel ops (Rel.init_rel (.buf m))
  have hwr := written_eq (cap := m.length) hr h0.small
  obtain ⟨g1, g2, g3, -⟩ := hr.good h0.small
  simp only at g1 g2 g3 hwr
  have : er = none := by rw [← g2]; exact h0.err
  subst this
  have hdep := h0.depth
  have hlvl := h0.lvl
  rw [hwr, g3, g1]
  rw [g3] at hdep hlvl hdd
  rw [g1] at hlt
  have hlo : LvlOk ns := by
    cases ns with
    | nil => trivial
    | cons n ns => exact hlvl n rfl
  exact nested_rel hfit ha hr hlo hdep hd hdd hn hlt hdig hne hf

theorem params_fault {x : Err} (h : ctxFault cfg me = some x) (e : Enc) :
    (sign1EncodeParameters cfg me e).1 = .error x := by
  unfold sign1EncodeParameters
  unfold ctxFault at h
  split at h
  · rename_i h1
    cases h
    rw [params_unsupported]
    cases hs : sigAlgSupported cfg me.alg
    · rfl
    · exact absurd ((C32_supported_iff cfg me.alg).mp hs) h1
  · rename_i h1
    have h1 : sigAlgSupported cfg me.alg = true :=
      (C32_supported_iff cfg me.alg).mpr (Classical.not_not.mp h1)
    split at h
    · rename_i h2
      cases h
      exact params_scDisabled h1 h2.1 h2.2
    · rename_i h2
      split at h
      · rename_i h3
        cases h
        exact params_bothCt h1 h2 h3.1 h3.2.1 h3.2.2
      · cases h

variable (cfg C me) {N : Nat}

/-- **C71.** The caller starts a COSE_Sign1 after any encoder calls `ops` and writes
the payload with any calls `cs`.  The first call fails exactly for the faults of the
context that C67 lists.  The second ends as `secondCall` says; when it ends well, the
encoder has run out of buffer exactly if what was there before and the message do not
fit, and otherwise holds what was there before followed by the message, with the
caller's levels as they were and one more item. -/
theorem C71_nested (hfit : SignFits C) (hD : Hashes N cfg C D me.alg) (ops : List EncOp) (m : Bytes)
    (cs : List Content) (d : Nat) (aad : UB) (ha : aad.wf)
    (hN : PiecesUpTo N (protectedHeader me.alg) aad.bytes (encAll cs))
    (h0 : StartOk (runOps ops (Enc.init (.buf m))))
    (hd : fitsAll cs d = true) (hdd : (runOps ops (Enc.init (.buf m))).nest.length + d ≤ 13)
    (hn : cs.length ≤ 65534)
    (hlt : (runOps ops (Enc.init (.buf m))).len + me.kid.bytes.length
      + (me.contentTypeTstr.getD []).length + (encAll cs).length + 128 < 2 ^ 32) :
    match ctxFault cfg me with
    | some x => (sign1EncodeParameters cfg me (runOps ops (Enc.init (.buf m)))).1 = .error x
    | none => ∃ me1 e1,
      sign1EncodeParameters cfg me (runOps ops (Enc.init (.buf m))) = (.ok (), me1, e1) ∧
      match secondCall cfg C me (encAll cs) aad.bytes (toBeSignedHash cfg D me (encAll cs) aad.bytes)
        (runOps ops (Enc.init (.buf m))).len m.length with
      | .error x => (sign1EncodeSignatureAad cfg C me1 aad (runAll cs e1)).1 = .error x
      | .ok s => ∃ me2 e2, sign1EncodeSignatureAad cfg C me1 aad (runAll cs e1) = (.ok (), me2, e2) ∧
          e2.ub = false ∧ (∃ m2, e2.mem = .buf m2 ∧ m2.length = m.length) ∧
          (e2.small = true ↔ m.length < (runOps ops (Enc.init (.buf m))).len +
            (finished cfg me false (encAll cs) s).length) ∧
          (e2.small = false → e2.err = none ∧
            e2.nest = bumpN (runOps ops (Enc.init (.buf m))).nest ∧
            written e2 = written (runOps ops (Enc.init (.buf m))) ++
              finished cfg me false (encAll cs) s) := by
  cases hf : ctxFault cfg me with
  | some x => exact params_fault hf _
  | none =>
    obtain ⟨me1, e1, h1, h2⟩ := nested_run (C := C) (aad := aad) hfit ha h0 hd hdd hn hlt
      (tbs_hash hD ha hN) (fun _ h => toBeSignedHash_ne hD h) hf
    refine ⟨me1, e1, h1, ?_⟩
    cases hsc : secondCall cfg C me (encAll cs) aad.bytes
      (toBeSignedHash cfg D me (encAll cs) aad.bytes) (runOps ops (Enc.init (.buf m))).len
      m.length with
    | error x => rw [hsc] at h2; exact h2
    | ok s =>
      rw [hsc] at h2
      obtain ⟨me2, e2, h3, h4⟩ := h2
      refine ⟨me2, e2, h3, h4.ub, ?_, ?_, fun hs => ?_⟩
      · have h5 := h4.cap_eq
        have h6 := h4.nul_eq
        cases hm : e2.mem with
        | buf mm => rw [hm] at h5; exact ⟨mm, rfl, h5⟩
        | null k => rw [hm] at h6; cases h6
      · rw [small_iff h4]
        obtain ⟨a, hr⟩ := ops_rel ops (Rel.init_rel (.buf m))
        have hw := written_eq (cap := m.length) hr h0.small
        have hl := (hr.good h0.small).1
        rw [hl, hw]
        simp
      · obtain ⟨-, g2, g3, -⟩ := h4.good hs
        exact ⟨g2, g3, written_eq h4 hs⟩

/-- **C71 (top level).** When the calls before are tags only, finishing the encoder gives
the tags followed by the message, or says that the buffer was too small. -/
theorem C71_tagged (hfit : SignFits C) (hD : Hashes N cfg C D me.alg) (ts : List Nat) (m : Bytes)
    (cs : List Content) (aad : UB) (ha : aad.wf)
    (hN : PiecesUpTo N (protectedHeader me.alg) aad.bytes (encAll cs))
    (hfits : (ts.map (Spec.head 6)).flatten.length ≤ m.length)
    (hd : fitsAll cs 13 = true) (hn : cs.length ≤ 65534)
    (hlt : (ts.map (Spec.head 6)).flatten.length + me.kid.bytes.length
      + (me.contentTypeTstr.getD []).length + (encAll cs).length + 128 < 2 ^ 32) :
    match ctxFault cfg me with
    | some x =>
      (sign1EncodeParameters cfg me (runOps (ts.map .tag) (Enc.init (.buf m)))).1 = .error x
    | none => ∃ me1 e1,
      sign1EncodeParameters cfg me (runOps (ts.map .tag) (Enc.init (.buf m))) = (.ok (), me1, e1) ∧
      match secondCall cfg C me (encAll cs) aad.bytes (toBeSignedHash cfg D me (encAll cs) aad.bytes)
        (ts.map (Spec.head 6)).flatten.length m.length with
      | .error x => (sign1EncodeSignatureAad cfg C me1 aad (runAll cs e1)).1 = .error x
      | .ok s => ∃ me2 e2, sign1EncodeSignatureAad cfg C me1 aad (runAll cs e1) = (.ok (), me2, e2) ∧
          callerFinish e2 =
            if m.length < ((ts.map (Spec.head 6)).flatten ++ finished cfg me false (encAll cs) s).length
            then .error .tooSmall
            else .ok (.data ((ts.map (Spec.head 6)).flatten ++ finished cfg me false (encAll cs) s)) := by
  have key : ∀ (ts : List Nat) (e : Enc) (o : Bytes), Rel m.length false e ⟨o, none, []⟩ →
      Rel m.length false (runOps (ts.map .tag) e) ⟨o ++ (ts.map (Spec.head 6)).flatten, none, []⟩ := by
    intro ts
    induction ts with
    | nil => intro e o h; simpa [runOps] using h
    | cons t ts ih =>
      intro e o h
      have h1 := h.addTag_rel t
      rw [Ideal.addTag_ok (ns := []) trivial, encodeHead_eq_head] at h1
      have := ih _ _ h1
      simpa [runOps, EncOp.run] using this
  have hr := key ts _ _ (Rel.init_rel (.buf m))
  simp only [List.nil_append] at hr
  have hs0 : (runOps (ts.map .tag) (Enc.init (.buf m))).small = false := by
    cases hq : (runOps (ts.map EncOp.tag) (Enc.init (.buf m))).small with
    | false => rfl
    | true => have := hr.small hq; simp only at this; omega
  obtain ⟨g1, g2, g3, -⟩ := hr.good hs0
  have hw := written_eq hr hs0
  simp only at g1 g2 g3 hw
  have h0 : StartOk (runOps (ts.map .tag) (Enc.init (.buf m))) := by
    refine ⟨hs0, g2, by rw [g3]; simp, ?_⟩
    rw [g3]
    intro n hn
    cases hn
  have h := C71_nested cfg C D me hfit hD (ts.map .tag) m cs 13 aad ha hN h0 hd (by rw [g3]; simp) hn
    (by rw [g1]; exact hlt)
  cases hf : ctxFault cfg me with
  | some x => rw [hf] at h; exact h
  | none =>
    rw [hf] at h
    obtain ⟨me1, e1, h1, h2⟩ := h
    refine ⟨me1, e1, h1, ?_⟩
    rw [g1] at h2
    cases hsc : secondCall cfg C me (encAll cs) aad.bytes
      (toBeSignedHash cfg D me (encAll cs) aad.bytes) (ts.map (Spec.head 6)).flatten.length
      m.length with
    | error x => rw [hsc] at h2; exact h2
    | ok s =>
      rw [hsc] at h2
      obtain ⟨me2, e2, h3, -, h4, h5, h6⟩ := h2
      refine ⟨me2, e2, h3, ?_⟩
      rw [List.length_append]
      cases hq : e2.small with
      | true =>
        rw [if_pos (h5.mp hq)]
        simp [callerFinish, Enc.errState, hq]
      | false =>
        rw [if_neg (fun hh => by rw [h5.mpr hh] at hq; cases hq)]
        obtain ⟨k1, k2, k3⟩ := h6 hq
        rw [g3] at k2
        rw [hw] at k3
        rw [← k3]
        have hst : e2.errState = .ok := by simp [Enc.errState, hq, k1]
        unfold callerFinish Enc.finish written
        simp only [hst, k2, bumpN, List.isEmpty_nil, if_true]
        cases hm : e2.mem with
        | buf mm => rfl
        | null n =>
          obtain ⟨m2, h4, -⟩ := h4
          rw [hm] at h4
          cases h4

/- In an array after a label, in a byte string: 3 octets before, and
every size of buffer at which the outcome of the second call changes. -/
example : StartOk (runOps [.openArray, .int 500, .openWrap] (Enc.init (.buf (List.replicate 200 0)))) ∧
    fitsAll exContent 11 = true ∧ begun Config.full exCtx false (encAll exContent) = 31 ∧
    [33, 34, 35, 97, 98, 101].map (fun n => (secondCall Config.full toyCrypto exCtx (encAll exContent) []
      (toBeSignedHash Config.full toyDigest exCtx (encAll exContent) []) 3 n).map List.length) =
      [.error .tooSmall, .ok 64, .error .sigBufferSize, .error .sigBufferSize, .ok 64, .ok 64] :=
  ⟨⟨by decide +kernel, by decide +kernel, by decide +kernel, by
    intro n hn
    have h : (runOps [.openArray, .int 500, .openWrap]
      (Enc.init (.buf (List.replicate 200 0)))).nest.head? = some ⟨.bstr, 3, 0⟩ := by decide +kernel
    rw [h] at hn
    cases hn
    decide⟩, by decide +kernel, by decide +kernel, by decide +kernel⟩

/- Tagged 900(901(18(…))) in a buffer that just holds it. -/
example : (match sign1EncodeParameters Config.full exCtx (runOps ([900, 901].map .tag)
      (Enc.init (.buf (List.replicate 104 0)))) with
    | (.ok (), me1, e1) =>
      match sign1EncodeSignatureAad Config.full toyCrypto me1 .nil (runAll exContent e1) with
      | (.ok (), _, e2) => (callerFinish e2).map UB.len
      | (.error x, _, _) => .error x
    | (.error x, _, _) => .error x) = .ok 104 ∧
    (([900, 901].map (Spec.head 6)).flatten ++ finished Config.full exCtx false (encAll exContent)
      (List.replicate 64 0)).length = 104 := by
  decide +kernel

end TCose.Props
