import Verif.Lemmas.TwoStep
import Verif.Crypto.Toy

/-!
# Two-step signing: C06, C42, C47
-/

namespace TCose.Props
open TCose

/-- Everything t_cose itself puts before the signature is small: apart from the
kid, the content type and the payload at most 128 octets. -/
theorem hdr_length (cfg : Config) (me : SignCtx) :
    (tagPart me ++ hdrBytes cfg me).length
      ≤ 96 + me.kid.bytes.length + (me.contentTypeTstr.getD []).length := by
  have h1 : (tagPart me).length ≤ 1 := tagBytes_length_le _
  have h2 := bstrProt_length_le me.alg
  have h3 : ∀ m n, (encodeHead m n).length ≤ 9 := encodeHead_length_le
  have h4 : (kidBytes (kidArg me).bytes).length ≤ 50 + me.kid.bytes.length := by
    have hk : (kidArg me).bytes.length ≤ 32 + me.kid.bytes.length := by
      unfold kidArg
      split
      · have : (UB.data shortCircuitKid).bytes.length = 32 := by decide
        omega
      · omega
    unfold kidBytes
    split
    · simp
    · have := h3 2 (kidArg me).bytes.length
      have := Ideal.intHead_length_le 4
      simp only [List.length_append, bstrBytes]; omega
  have h5 : (ctBytes (ctArg cfg me)).length ≤ 18 + (me.contentTypeTstr.getD []).length := by
    have i3 := Ideal.intHead_length_le 3
    cases hc : ctArg cfg me with
    | none => simp [ctBytes]
    | both => simp [ctBytes]
    | num n => have := h3 0 n; simp only [ctBytes, List.length_append]; omega
    | text t =>
      have : me.contentTypeTstr = some t := by
        revert hc; unfold ctArg
        repeat' split
        all_goals simp_all
      have := h3 3 t.length
      simp only [ctBytes, List.length_append, Option.getD]
      rename_i ht
      rw [ht]; simp only []; omega
  have h6 := h3 5 (mapCount (kidArg me).bytes (ctArg cfg me))
  simp only [hdrBytes, unprotBytes, List.length_append] at *
  omega

/-- **C06.** For every balanced sequence `cs` of encoder calls made between the
two steps: the two-step API gives exactly the result (message octets or error)
of the one-call API on the octets those calls stand for. Limits: at most 65534
items per level and 13 levels (QCBOR), and a total below 4 GiB.  The last
hypothesis excludes size calculation for EdDSA with an auxiliary buffer (C43). -/
theorem C06_two_step_equals_one_shot (cfg : Config) (C : Crypto) (hfit : Spec.SignFits C)
    (me : SignCtx) (aad : UB) (cs : List Content) (out : Mem)
    (hd : fitsAll cs 13 = true) (hn : cs.length ≤ 65534)
    (hlt : me.kid.bytes.length + (me.contentTypeTstr.getD []).length + (encAll cs).length + 128
      < 2 ^ 32)
    (hub : EddsaCopies me → out.isNull = false ∧ aad.wf) :
    twoStepSign cfg C me aad cs out
      = (signAadInternal cfg C me false (.data (encAll cs)) aad out).1 := by
  refine two_step_one hfit me aad cs out hd hn ?_ hub
  have h1 := hdr_length cfg me
  have h2 := encodeHead_length_le 2 (encAll cs).length
  simp only [preSig, payPart, bstrBytes, List.length_append, Enc.maxStart, Bool.false_eq_true,
    if_false] at *
  omega

/-- A payload written with several encoder calls. -/
def exContent : List Content :=
  [.map [.int 1, .text [0x61], .int (-2), .arr [.bytes [9, 9], .null]], .tagged 1 (.uint 300)]

example : fitsAll exContent 13 = true ∧
    encAll exContent = [0xa2, 0x01, 0x61, 0x61, 0x21, 0x82, 0x42, 9, 9, 0xf6, 0xc1, 0x19, 0x01, 0x2c] := by
  decide +kernel

example : twoStepSign Config.full toyCrypto (SignCtx.init 0 algES256) .nil exContent
      (.buf (List.replicate 200 0))
    = (sign1Sign Config.full toyCrypto (SignCtx.init 0 algES256)
        (.data [0xa2, 0x01, 0x61, 0x61, 0x21, 0x82, 0x42, 9, 9, 0xf6, 0xc1, 0x19, 0x01, 0x2c])
        (.buf (List.replicate 200 0))).1 := by
  decide +kernel

/-! ## Any surrounding structure -/

/-- A single encoder call by the caller, not necessarily balanced. -/
inductive EncOp where
  | int (i : Int) | uint (n : Nat) | bytes (b : Bytes) | text (b : Bytes) | raw (b : Bytes) | null
  | tag (t : Nat) | openArray | closeArray | openMap | closeMap | openWrap | closeWrap

def EncOp.run : EncOp → Enc → Enc
  | .int i, e => e.addInt i
  | .uint n, e => e.addUInt n
  | .bytes b, e => e.addBytes (.data b)
  | .text b, e => e.addText b
  | .raw b, e => e.addEncoded (.data b)
  | .null, e => e.addNull
  | .tag t, e => e.addTag t
  | .openArray, e => e.openArray
  | .closeArray, e => e.closeArray
  | .openMap, e => e.openMap
  | .closeMap, e => e.closeMap
  | .openWrap, e => e.bstrWrap
  | .closeWrap, e => e.closeBstrWrap2.1

def runOps : List EncOp → Enc → Enc
  | [], e => e
  | o :: os, e => runOps os (o.run e)

theorem op_rel (o : EncOp) {cap : Nat} {nul : Bool} {e : Enc} {a : Ideal} (h : Rel cap nul e a) :
    ∃ a', Rel cap nul (o.run e) a' := by
  cases o with
  | int i => exact ⟨_, h.addInt_rel i⟩
  | uint n => exact ⟨_, h.addUInt_rel n⟩
  | bytes b => exact ⟨_, h.addBytes_rel (Src.data _ b)⟩
  | text b => exact ⟨_, h.addText_rel b⟩
  | raw b => exact ⟨_, h.addEncoded_rel (Src.data _ b)⟩
  | null => exact ⟨_, h.addNull_rel⟩
  | tag t => exact ⟨_, h.addTag_rel t⟩
  | openArray => exact ⟨_, h.openArray_rel⟩
  | closeArray => exact ⟨_, h.closeArray_rel⟩
  | openMap => exact ⟨_, h.openMap_rel⟩
  | closeMap => exact ⟨_, h.closeMap_rel⟩
  | openWrap => exact ⟨_, h.bstrWrap_rel⟩
  | closeWrap => exact ⟨_, h.closeBstr_rel⟩

theorem ops_rel : ∀ (os : List EncOp) {cap : Nat} {nul : Bool} {e : Enc} {a : Ideal},
    Rel cap nul e a → ∃ a', Rel cap nul (runOps os e) a'
  | [], _, _, _, a, h => ⟨a, h⟩
  | o :: os, _, _, _, _, h => by
    obtain ⟨a', h'⟩ := op_rel o h
    exact ops_rel os h'

/-- The state in which the caller starts the COSE_Sign1: no error so far, at most
11 open levels, room for one more item in the current one. -/
structure StartOk (e0 : Enc) : Prop where
  small : e0.small = false
  err : e0.err = none
  depth : e0.nest.length ≤ 11
  lvl : ∀ n, e0.nest.head? = some n → n.kind ≠ .openB ∧ n.count < 65534

/-- The common start of C42 and C47. -/
theorem nested_start {cfg : Config} {me me1 : SignCtx} {ops : List EncOp} {m : Bytes} {e1 : Enc}
    {cs : List Content} {d : Nat}
    (h0 : StartOk (runOps ops (Enc.init (.buf m))))
    (hp : sign1EncodeParameters cfg me (runOps ops (Enc.init (.buf m))) = (.ok (), me1, e1))
    (hd : fitsAll cs d = true) (hdd : (runOps ops (Enc.init (.buf m))).nest.length + d ≤ 13)
    (hn : cs.length ≤ 65534)
    (hlt : (runOps ops (Enc.init (.buf m))).len + me.kid.bytes.length
      + (me.contentTypeTstr.getD []).length + (encAll cs).length + 128 < 2 ^ 32)
    (hs : (closePayload .nil (runAll cs e1)).1.small = false) :
    ∃ o ns pp,
      Rel m.length false (runOps ops (Enc.init (.buf m))) ⟨o, none, ns⟩ ∧ ns.length ≤ 11 ∧
      me1 = { me with protectedParams := pp } ∧ PPok false me o pp ∧ SignPre cfg me ∧
      Rel m.length false (closePayload .nil (runAll cs e1)).1
        ⟨o1 me o ++ (hdrBytes cfg me ++ bstrBytes (encAll cs)), none,
          ⟨.arr, (o1 me o).length, 3⟩ :: bumpN ns⟩ ∧
      (closePayload .nil (runAll cs e1)).2 = .data (encAll cs) ∧
      (o1 me o ++ (hdrBytes cfg me ++ bstrBytes (encAll cs))).length < Enc.maxStart := by
  obtain ⟨⟨o, er, ns⟩, hr⟩ := ops_rel ops (Rel.init_rel (.buf m))
  obtain ⟨g1, g2, g3, g4⟩ := hr.good h0.small
  simp only [] at g1 g2 g3
  have : er = none := by rw [← g2]; exact h0.err
  subst this
  have hpre : SignPre cfg me := params_ok_pre (det := false)
    (e := runOps ops (Enc.init (.buf m))) (by unfold sign1EncodeParameters at hp; rw [hp])
  have hdep := h0.depth
  have hlvl := h0.lvl
  rw [g3] at hdep hlvl hdd
  rw [g1] at hlt
  have hh := hdr_length cfg me
  have htl : (o1 me o).length = o.length + (tagPart me).length := by
    simp [o1, tagPart]
  have hlo : LvlOk ns := by
    cases ns with
    | nil => trivial
    | cons n ns => exact hlvl n rfl
  obtain ⟨pp, e1', henc, hrel, hpp⟩ := params_ok cfg me false hr hlo (by omega)
    (by unfold Enc.maxStart; omega) hpre.alg hpre.sc hpre.ct
  unfold sign1EncodeParameters at hp
  rw [henc] at hp
  simp only [Prod.mk.injEq, true_and] at hp
  obtain ⟨hme, he⟩ := hp
  subst he
  have hho : hdrOut cfg me o = o1 me o ++ hdrBytes cfg me := by
    simp [hdrOut, hdrBytes]
  have hbl := encodeHead_length_le 2 (encAll cs).length
  simp only [List.length_append] at hh
  simp only [Bool.false_eq_true, if_false] at hrel
  rw [hho, Ideal.bstrWrap, Ideal.openLevel_cons _ (by decide) (by decide)
    (by simp; omega) (by simp only [List.length_append, Enc.maxStart]; omega)] at hrel
  have r1 := runAll_rel cs hd hrel (by decide) (by omega) (by simp only [List.length_cons, bumpN_length]; omega)
    (by simp only [List.length_append, Enc.maxStart]; omega)
  have c1 := closePayload_inline r1
  refine ⟨o, ns, pp, hr, hdep, hme.symm, hpp ?_, hpre, ?_, c1.2 hs, ?_⟩
  · have hs2 : (runAll cs e1').closeBstrWrap2.1.small = false := hs
    exact runAll_small cs (Enc.closeLevel_small_mono hs2)
  · have := c1.1
    rw [List.append_assoc] at this
    exact this
  · simp only [List.length_append, Enc.maxStart, bstrBytes]; omega

/-- **C42.** The caller starts a COSE_Sign1 anywhere (after any encoder calls
`ops`, inside open arrays, maps and wrapped byte strings), encodes the parameters,
and then makes any balanced sequence `cs` of encoder calls. If the buffer was big
enough, then at the point where the signature is computed, the reference kept in
the context reads exactly the encoded protected header, and the reference to the
payload reads exactly what the calls `cs` stand for. -/
theorem C42_protected_reference (cfg : Config) (me me1 : SignCtx) (ops : List EncOp) (m : Bytes)
    (e1 : Enc) (cs : List Content) (d : Nat)
    (h0 : StartOk (runOps ops (Enc.init (.buf m))))
    (hp : sign1EncodeParameters cfg me (runOps ops (Enc.init (.buf m))) = (.ok (), me1, e1))
    (hd : fitsAll cs d = true) (hdd : (runOps ops (Enc.init (.buf m))).nest.length + d ≤ 13)
    (hn : cs.length ≤ 65534)
    (hlt : (runOps ops (Enc.init (.buf m))).len + me.kid.bytes.length
      + (me.contentTypeTstr.getD []).length + (encAll cs).length + 128 < 2 ^ 32)
    (hs : (closePayload .nil (runAll cs e1)).1.small = false) :
    (closePayload .nil (runAll cs e1)).1.openBytes.1.deref me1.protectedParams
        = .data (Spec.protectedHeader me.alg) ∧
    (closePayload .nil (runAll cs e1)).2 = .data (encAll cs) := by
  obtain ⟨o, ns, pp, hr, hdep, hme, hpp, hpre, hrel, hpay, hlen⟩ :=
    nested_start h0 hp hd hdd hn hlt hs
  refine ⟨?_, hpay⟩
  have hop := hrel.openLevel_rel .openB
  have hops : ((closePayload .nil (runAll cs e1)).1.openLevel .openB).small = false := by
    rw [Enc.openLevel_small]; exact hs
  have hl : (encodeHead 2 (protMap me.alg).length).length = 1 := by
    have := Ideal.protMap_length_le me.alg
    unfold encodeHead
    rw [if_pos (by omega)]
    rfl
  subst hme
  simp only [Enc.openBytes]
  rw [hpp]
  rw [deref_prot hop hops hl (o1 := o1 me o)
    (rest := unprotBytes (kidArg me).bytes (ctArg cfg me) ++ bstrBytes (encAll cs))
    (by rw [Ideal.openLevel_out]; simp [hdrBytes])]
  rw [protectedHeader_eq]
  rfl

/-- C47 with the calls made to the adapter. -/
theorem nested_sigRun (cfg : Config) (C : Crypto) (hfit : Spec.SignFits C) (me me1 me2 : SignCtx) (ops : List EncOp)
    (m : Bytes) (e1 e2 : Enc) (cs : List Content) (d : Nat) (aad : UB) (ha : aad.wf)
    (h0 : StartOk (runOps ops (Enc.init (.buf m))))
    (hp : sign1EncodeParameters cfg me (runOps ops (Enc.init (.buf m))) = (.ok (), me1, e1))
    (hd : fitsAll cs d = true) (hdd : (runOps ops (Enc.init (.buf m))).nest.length + d ≤ 13)
    (hn : cs.length ≤ 65534)
    (hlt : (runOps ops (Enc.init (.buf m))).len + me.kid.bytes.length
      + (me.contentTypeTstr.getD []).length + (encAll cs).length + 128 < 2 ^ 32)
    (hsig : sign1EncodeSignatureAad cfg C me1 aad (runAll cs e1) = (.ok (), me2, e2))
    (hs : e2.small = false) :
    ∃ m0 m2 sig, (runOps ops (Enc.init (.buf m))).mem = .buf m0 ∧ e2.mem = .buf m2 ∧
      e2.err = none ∧ e2.nest = bumpN (runOps ops (Enc.init (.buf m))).nest ∧
      m2.take e2.len = m0.take (runOps ops (Enc.init (.buf m))).len ++
        (Spec.coseSign1 (!Spec.Opt.omitTag me.flags) me.alg (specKid me) (specCt cfg me)
          (some (encAll cs)) sig).enc ∧
      SignPre cfg me ∧ SigRun cfg C me (.data (Spec.protectedHeader me.alg)) aad (.data (encAll cs)) sig := by
  have hs3 : (closePayload .nil (runAll cs e1)).1.small = false := by
    cases hq : (closePayload .nil (runAll cs e1)).1.small with
    | false => rfl
    | true =>
      unfold sign1EncodeSignatureAad at hsig
      rw [encSig_tooSmall hq] at hsig
      cases hsig
  obtain ⟨o, ns, pp, hr, hdep, hme, hpp, hpre, hrel, hpay, hlen⟩ :=
    nested_start h0 hp hd hdd hn hlt hs3
  have hl : (encodeHead 2 (protMap me.alg).length).length = 1 := by
    have := Ideal.protMap_length_le me.alg
    unfold encodeHead
    rw [if_pos (by omega)]
    rfl
  have hrun := encSig_run (pm := protMap me.alg)
    (rest := unprotBytes (kidArg me).bytes (ctArg cfg me) ++ bstrBytes (encAll cs))
    cfg C me1 aad .nil (.data (encAll cs)) hpay hrel hs3 (by simp; omega)
    (by simp [hdrBytes]) hl (by rw [hme]; exact hpp)
  unfold sign1EncodeSignatureAad at hsig
  cases hdis : signDispatch cfg C me1 (seen false (protMap me.alg)) aad (.data (encAll cs))
      (placeOf m.length false (o1 me o ++ (hdrBytes cfg me ++ bstrBytes (encAll cs))).length) with
  | mk r rest =>
    obtain ⟨me2', ub⟩ := rest
    rw [hdis] at hrun
    cases r with
    | error x =>
      obtain ⟨e', he⟩ := hrun
      rw [he] at hsig
      cases hsig
    | ok sig =>
      obtain ⟨e', he, hk⟩ := hrun
      rw [he] at hsig
      cases hsig
      obtain ⟨s, hss⟩ := dispatch_sigSrc hfit hdis
      have hub : ub = false := by
        have hsc1 : ¬ (hasFlag me1.flags optShortCircuit = true ∧ cfg.disableShortCircuit = true) := by
          rw [hme]; exact hpre.sc
        have := signDispatch_ub' (C := C) hsc1 (p := seen false (protMap me.alg)) (a := aad)
          (w := .data (encAll cs)) (fun _ => ⟨rfl, ha, rfl⟩)
          (placeOf m.length false (o1 me o ++ (hdrBytes cfg me ++ bstrBytes (encAll cs))).length)
        rw [hdis] at this
        exact this
      have hfin := (hk s hss hub).1 hlen
      obtain ⟨f1, f2, f3, f4⟩ := hfin.good hs
      obtain ⟨g1, g2, g3, g4⟩ := hr.good h0.small
      have hmem : ∀ {e : Enc} {a : Ideal}, Rel m.length false e a → ∃ mm, e.mem = .buf mm := by
        intro e a hh
        have := hh.nul_eq
        cases hq : e.mem with
        | null c => rw [hq] at this; cases this
        | buf mm => exact ⟨mm, rfl⟩
      obtain ⟨m0, hm0⟩ := hmem hr
      obtain ⟨m2, hm2⟩ := hmem hfin
      have hmsg : o1 me o ++ encodeHead 4 4 ++ ((hdrBytes cfg me ++ bstrBytes (encAll cs)) ++ bstrBytes s)
          = o ++ msgBytes cfg me false (encAll cs) s := by
        simp [msgBytes, payPart, o1, tagPart]
      refine ⟨m0, m2, s, hm0, hm2, f2, ?_, ?_, hpre, ?_⟩
      · rw [f3, g3]; rfl
      · rw [f4 m2 hm2, g4 m0 hm0]
        have := msgBytes_spec hpre.ct false (encAll cs) s
        simp only [Bool.false_eq_true, if_false] at this
        rw [opt_omitTag, ← this]
        exact hmsg
      · have hroom : (o1 me o ++ (hdrBytes cfg me ++ bstrBytes (encAll cs))).length < m.length := by
          have h1 := hfin.le
          rw [f1] at h1
          have h2 : (finalIdeal (o1 me o) (hdrBytes cfg me ++ bstrBytes (encAll cs)) s (bumpN ns)).out.length
              = (o1 me o ++ encodeHead 4 4 ++ ((hdrBytes cfg me ++ bstrBytes (encAll cs)) ++ bstrBytes s)).length := rfl
          rw [h2] at h1
          have := encodeHead_length_pos 4 4
          simp only [List.length_append] at h1 ⊢
          omega
        have hpl : placeOf m.length false (o1 me o ++ (hdrBytes cfg me ++ bstrBytes (encAll cs))).length
            = .room (m.length - (o1 me o ++ (hdrBytes cfg me ++ bstrBytes (encAll cs))).length) := by
          unfold placeOf
          rw [if_neg (by simp), if_pos (by omega)]
        rw [hpl] at hdis
        obtain ⟨s', e1, _, _, hsf⟩ := signDispatch_room hfit (p := seen false (protMap me.alg))
          (w := .data (encAll cs)) rfl ha rfl (by rw [hme]; exact hpre.sc)
          (by
            intro hed
            have := hpre.alg
            rw [hme] at hed
            simp only [] at hed
            unfold sigAlgSupported at this
            rw [hed] at this
            cases hq : cfg.disableEDDSA with
            | false => rfl
            | true => rw [hq] at this; simp [algEDDSA, algES256, algES384, algES512, algPS256, algPS384, algPS512] at this)
          hdis
        rcases hss with ⟨x1, _, _⟩ | ⟨x1, x2⟩
        · rw [x1] at e1
          injection e1 with e1
          subst e1
          rw [hme] at hsf
          rw [protectedHeader_eq]
          exact hsf
        · rcases x2 with x2 | x2
          · cases x2
          · omega

/-- **C47.** The same situation, carried through: if computing the signature
succeeds, and the buffer was big enough, then what is now in the output buffer is
what was there before followed by exactly the RFC 8152 encoding of the signed
message, and the caller's open levels are as they were, with one more item. So a
COSE_Sign1 can be produced in place inside a larger CBOR structure. -/
theorem C47_nested_output (cfg : Config) (C : Crypto) (D : Int → Bytes → Bytes)
    (hD : Spec.StreamHash C D) (hfit : Spec.SignFits C) (me me1 me2 : SignCtx) (ops : List EncOp)
    (m : Bytes) (e1 e2 : Enc) (cs : List Content) (d : Nat) (aad : UB) (ha : aad.wf)
    (h0 : StartOk (runOps ops (Enc.init (.buf m))))
    (hp : sign1EncodeParameters cfg me (runOps ops (Enc.init (.buf m))) = (.ok (), me1, e1))
    (hd : fitsAll cs d = true) (hdd : (runOps ops (Enc.init (.buf m))).nest.length + d ≤ 13)
    (hn : cs.length ≤ 65534)
    (hlt : (runOps ops (Enc.init (.buf m))).len + me.kid.bytes.length
      + (me.contentTypeTstr.getD []).length + (encAll cs).length + 128 < 2 ^ 32)
    (hsig : sign1EncodeSignatureAad cfg C me1 aad (runAll cs e1) = (.ok (), me2, e2))
    (hs : e2.small = false) :
    ∃ m0 m2 sig, (runOps ops (Enc.init (.buf m))).mem = .buf m0 ∧ e2.mem = .buf m2 ∧
      e2.err = none ∧ e2.nest = bumpN (runOps ops (Enc.init (.buf m))).nest ∧
      m2.take e2.len = m0.take (runOps ops (Enc.init (.buf m))).len ++
        (Spec.coseSign1 (!Spec.Opt.omitTag me.flags) me.alg (specKid me) (specCt cfg me)
          (some (encAll cs)) sig).enc ∧
      SigFor C D me (Spec.sigStructure (Spec.protectedHeader me.alg) aad.bytes (encAll cs)) sig := by
  obtain ⟨m0, m2, sig, a1, a2, a3, a4, a5, -, a6⟩ := nested_sigRun cfg C hfit me me1 me2 ops m e1 e2
    cs d aad ha h0 hp hd hdd hn hlt hsig hs
  exact ⟨m0, m2, sig, a1, a2, a3, a4, a5, a6.sigFor hD (UB.wf_data _) ha (UB.wf_data _)⟩

/-- In an open map inside an array, after other items. -/
def exOps : List EncOp :=
  [.openArray, .text [0x61], .openMap, .int 5]

example : StartOk (runOps exOps (Enc.init (.buf (List.replicate 300 0)))) where
  small := by decide +kernel
  err := by decide +kernel
  depth := by decide +kernel
  lvl := by
    intro n hn
    have : (runOps exOps (Enc.init (.buf (List.replicate 300 0)))).nest.head?
        = some ⟨.map, 2, 1⟩ := by decide +kernel
    rw [this] at hn
    cases hn
    decide

example :
    let e0 := runOps exOps (Enc.init (.buf (List.replicate 300 0)))
    let p := sign1EncodeParameters Config.full (SignCtx.init 0 algES256) e0
    let q := sign1EncodeSignatureAad Config.full toyCrypto p.2.1 .nil (runAll exContent p.2.2)
    p.1 = .ok () ∧ q.1 = .ok () ∧ q.2.2.small = false ∧ q.2.2.nest = [⟨.map, 2, 2⟩, ⟨.arr, 0, 2⟩] := by
  decide +kernel

end TCose.Props
