import Verif.Props.Nested

/-!
# C71: asking for the size with the two-step functions

`t_cose_sign1_encode_parameters` and `t_cose_sign1_encode_signature_aad` with an encoder
over a NULL buffer, started after any encoder calls of the caller and with any payload
in between; and that the same calls with a real buffer then give that many octets.
-/

namespace TCose.Props
open TCose Spec

variable (cfg : Config) (C : Crypto) (D : Int → Bytes → Bytes) (me : SignCtx)

/-- How the second call ends when `k` octets were counted before the message and the
NULL buffer was given with length `n`. -/
def secondQuery (payload aad : Bytes) (digest : Except Err Bytes) (k n : Nat) : Except Err Nat :=
  if n < k + begun cfg me false payload then .error .tooSmall
  else askSize C me payload aad digest

variable {cfg C me}

/-- The two-step size query with any hash, from any encoder that has not failed but for
want of room. -/
theorem query_rel {e0 : Enc} {o : Bytes} {ns : List Nest} {n : Nat} {cs : List Content} {d : Nat}
    {aad : UB} {digest : Except Err Bytes} (ha : aad.wf)
    (hr : Rel n true e0 ⟨o, none, ns⟩) (hlo : LvlOk ns) (hdep : ns.length ≤ 11)
    (hd : fitsAll cs d = true) (hdd : ns.length + d ≤ 13) (hn : cs.length ≤ 65534)
    (hlt : o.length + me.kid.bytes.length
      + (me.contentTypeTstr.getD []).length + (encAll cs).length + 128 < 2 ^ 32)
    (hdig : match (generalizing := false) digest with
      | .error x => createTbsHash cfg C me.alg (seen true (protMap me.alg)) aad (seen true (encAll cs))
          (maxHashSize cfg) = .error x
      | .ok _ => ∃ d, createTbsHash cfg C me.alg (seen true (protMap me.alg)) aad
          (seen true (encAll cs)) (maxHashSize cfg) = .ok d)
    (hx : Opt.shortCircuit me.flags = false → me.alg = -8 → me.aux.isNull = true)
    (hf : ctxFault cfg me = none) :
    ∃ me1 e1, sign1EncodeParameters cfg me e0 = (.ok (), me1, e1) ∧
      match secondQuery cfg C me (encAll cs) aad.bytes digest o.length n with
      | .error x => (sign1EncodeSignatureAad cfg C me1 aad (runAll cs e1)).1 = .error x
      | .ok k => ∃ me2 e2, sign1EncodeSignatureAad cfg C me1 aad (runAll cs e1) = (.ok (), me2, e2) ∧
          Rel n true e2 ⟨o ++ finished cfg me false (encAll cs) (List.replicate k 0), none, bumpN ns⟩ := by
  have hpre : SignPre cfg me := ctxFault_none hf
  obtain ⟨pp, e1, henc, -, hrel2, hlen, hbeg, hst⟩ := nested_stage hr hlo hdep hd hdd hn hlt hpre
  refine ⟨_, e1, henc, ?_⟩
  unfold sign1EncodeSignatureAad secondQuery
  rw [← hbeg]
  by_cases hc : n < (o1 me o ++ (hdrBytes cfg me ++ bstrBytes (encAll cs))).length
  · rw [if_pos hc]
    simp only
    rw [encSig_tooSmall ((small_iff hrel2).mpr hc)]
  rw [if_neg hc]
  have hs : (closePayload .nil (runAll cs e1)).1.small = false := by
    cases hq : (closePayload .nil (runAll cs e1)).1.small with
    | false => rfl
    | true => exact absurd ((small_iff hrel2).mp hq) hc
  obtain ⟨hpay, hpp⟩ := hst hs
  have hl : (encodeHead 2 (protMap me.alg).length).length = 1 := by
    have := Ideal.protMap_length_le me.alg
    unfold encodeHead
    rw [if_pos (by omega)]
    rfl
  have hrun := encSig_run (pm := protMap me.alg)
    (rest := unprotBytes (kidArg me).bytes (ctArg cfg me) ++ bstrBytes (encAll cs))
    cfg C { me with protectedParams := pp } aad .nil (seen true (encAll cs)) hpay hrel2 hs
    (by simp; omega) (by simp [hdrBytes]) hl hpp
  have hmsg : ∀ s, finalIdeal (o1 me o) (hdrBytes cfg me ++ bstrBytes (encAll cs)) s (bumpN ns) =
      ⟨o ++ finished cfg me false (encAll cs) s, none, bumpN ns⟩ := by
    intro s
    rw [finished_eq hpre.ct]
    simp [finalIdeal, msgBytes, payPart, o1, tagPart]
  rw [show placeOf n true (o1 me o ++ (hdrBytes cfg me ++ bstrBytes (encAll cs))).length
    = .null from rfl] at hrun
  obtain ⟨me', hdis⟩ := dispatch_ask (C := C) (payload := encAll cs) (digest := digest) hpre ha pp
    true false hdig (fun h1 h2 _ => hx h1 h2)
  rw [show paySeen false true (encAll cs) = seen true (encAll cs) from rfl] at hdis
  rw [hdis] at hrun
  cases hq : askSize C me (encAll cs) aad.bytes digest with
  | error x =>
    rw [hq] at hrun
    obtain ⟨e', h⟩ := hrun
    simp only
    rw [h]
  | ok k =>
    rw [hq] at hrun
    obtain ⟨e', h, hk⟩ := hrun
    refine ⟨_, e', h, ?_⟩
    have := (hk (List.replicate k 0) (.inr ⟨by simp, .inl rfl⟩) rfl).1 hlen
    rw [hmsg] at this
    exact this

/-- The two-step size query with any hash, successful or not. -/
theorem query_run {ops : List EncOp} {n : Nat} {cs : List Content} {d : Nat} {aad : UB}
    {digest : Except Err Bytes} (ha : aad.wf)
    (h0 : StartOk (runOps ops (Enc.init (.null n))))
    (hd : fitsAll cs d = true) (hdd : (runOps ops (Enc.init (.null n))).nest.length + d ≤ 13)
    (hn : cs.length ≤ 65534)
    (hlt : (runOps ops (Enc.init (.null n))).len + me.kid.bytes.length
      + (me.contentTypeTstr.getD []).length + (encAll cs).length + 128 < 2 ^ 32)
    (hdig : match (generalizing := false) digest with
      | .error x => createTbsHash cfg C me.alg (seen true (protMap me.alg)) aad (seen true (encAll cs))
          (maxHashSize cfg) = .error x
      | .ok _ => ∃ d, createTbsHash cfg C me.alg (seen true (protMap me.alg)) aad
          (seen true (encAll cs)) (maxHashSize cfg) = .ok d)
    (hx : Opt.shortCircuit me.flags = false → me.alg = -8 → me.aux.isNull = true)
    (hf : ctxFault cfg me = none) :
    ∃ me1 e1, sign1EncodeParameters cfg me (runOps ops (Enc.init (.null n))) = (.ok (), me1, e1) ∧
      match secondQuery cfg C me (encAll cs) aad.bytes digest
        (runOps ops (Enc.init (.null n))).len n with
      | .error x => (sign1EncodeSignatureAad cfg C me1 aad (runAll cs e1)).1 = .error x
      | .ok k => ∃ me2 e2, sign1EncodeSignatureAad cfg C me1 aad (runAll cs e1) = (.ok (), me2, e2) ∧
          ∃ o, o.length = (runOps ops (Enc.init (.null n))).len ∧
          Rel n true e2 ⟨o ++ finished cfg me false (encAll cs) (List.replicate k 0), none,
            bumpN (runOps ops (Enc.init (.null n))).nest⟩ := by
  obtain ⟨⟨o, er, ns⟩, hr⟩ := ops_rel ops (Rel.init_rel (.null n))
  obtain ⟨g1, g2, g3, -⟩ := hr.good h0.small
  simp only at g1 g2 g3
  have : er = none := by rw [← g2]; exact h0.err
  subst this
  have hdep := h0.depth
  have hlvl := h0.lvl
  rw [g3, g1]
  rw [g3] at hdep hlvl hdd
  rw [g1] at hlt
  have hlo : LvlOk ns := by
    cases ns with
    | nil => trivial
    | cons n ns => exact hlvl n rfl
  replace hr : Rel n true _ _ := hr
  obtain ⟨me1, e1, h1, h2⟩ := query_rel ha hr hlo hdep hd hdd hn hlt hdig hx hf
  refine ⟨me1, e1, h1, ?_⟩
  cases hq : secondQuery cfg C me (encAll cs) aad.bytes digest o.length n with
  | error x => rw [hq] at h2; exact h2
  | ok k =>
    rw [hq] at h2
    obtain ⟨me2, e2, h3, h4⟩ := h2
    exact ⟨me2, e2, h3, o, rfl, h4⟩

variable (cfg C me) {N : Nat}

/-- **C71 (size query).** As `C71_nested`, with an encoder over a NULL buffer of any
length `n`: the second call ends as `secondQuery` says; when it ends well, the encoder
has run out of its `n` octets exactly if what was counted before and a message with a
signature of the size asked for exceed `n`, and otherwise has counted exactly these. -/
theorem C71_size (hD : Hashes N cfg C D me.alg) (ops : List EncOp) (n : Nat)
    (cs : List Content) (d : Nat) (aad : UB) (ha : aad.wf)
    (hN : PiecesUpTo N (protectedHeader me.alg) aad.bytes (encAll cs))
    (h0 : StartOk (runOps ops (Enc.init (.null n))))
    (hd : fitsAll cs d = true) (hdd : (runOps ops (Enc.init (.null n))).nest.length + d ≤ 13)
    (hn : cs.length ≤ 65534)
    (hlt : (runOps ops (Enc.init (.null n))).len + me.kid.bytes.length
      + (me.contentTypeTstr.getD []).length + (encAll cs).length + 128 < 2 ^ 32)
    (hx : Opt.shortCircuit me.flags = false → me.alg = -8 → me.aux.isNull = true) :
    match ctxFault cfg me with
    | some x => (sign1EncodeParameters cfg me (runOps ops (Enc.init (.null n)))).1 = .error x
    | none => ∃ me1 e1,
      sign1EncodeParameters cfg me (runOps ops (Enc.init (.null n))) = (.ok (), me1, e1) ∧
      match secondQuery cfg C me (encAll cs) aad.bytes
        (toBeSignedHash cfg D me (encAll cs) aad.bytes)
        (runOps ops (Enc.init (.null n))).len n with
      | .error x => (sign1EncodeSignatureAad cfg C me1 aad (runAll cs e1)).1 = .error x
      | .ok k => ∃ me2 e2, sign1EncodeSignatureAad cfg C me1 aad (runAll cs e1) = (.ok (), me2, e2) ∧
          e2.ub = false ∧ e2.mem = .null n ∧
          (e2.small = true ↔ n < (runOps ops (Enc.init (.null n))).len +
            (finished cfg me false (encAll cs) (List.replicate k 0)).length) ∧
          (e2.small = false → e2.err = none ∧
            e2.nest = bumpN (runOps ops (Enc.init (.null n))).nest ∧
            e2.len = (runOps ops (Enc.init (.null n))).len +
              (finished cfg me false (encAll cs) (List.replicate k 0)).length) := by
  cases hf : ctxFault cfg me with
  | some x => exact params_fault hf _
  | none =>
    obtain ⟨me1, e1, h1, h2⟩ := query_run (C := C) (aad := aad)
      (digest := toBeSignedHash cfg D me (encAll cs) aad.bytes) ha h0 hd hdd hn hlt
      (tbs_hash_any hD _ _ _ ⟨hN.1, Nat.zero_le _, hN.2.2.1, Nat.zero_le _⟩) hx hf
    refine ⟨me1, e1, h1, ?_⟩
    cases hsc : secondQuery cfg C me (encAll cs) aad.bytes
      (toBeSignedHash cfg D me (encAll cs) aad.bytes) (runOps ops (Enc.init (.null n))).len n with
    | error x => rw [hsc] at h2; exact h2
    | ok k =>
      rw [hsc] at h2
      obtain ⟨me2, e2, h3, o, ho, h4⟩ := h2
      refine ⟨me2, e2, h3, h4.ub, ?_, ?_, fun hs => ?_⟩
      · have h5 := h4.cap_eq
        have h6 := h4.nul_eq
        cases hm : e2.mem with
        | buf mm => rw [hm] at h6; cases h6
        | null k => rw [hm] at h5; simp only [Mem.cap] at h5; rw [h5]
      · rw [small_iff h4, ← ho]
        simp
      · obtain ⟨g1, g2, g3, -⟩ := h4.good hs
        refine ⟨g2, g3, ?_⟩
        rw [g1, ← ho]
        simp

/-! ## Asking, then signing -/

variable {cfg C me}

theorem op_rel2 (o : EncOp) {c1 c2 : Nat} {n1 n2 : Bool} {e1 e2 : Enc} {a : Ideal}
    (h1 : Rel c1 n1 e1 a) (h2 : Rel c2 n2 e2 a) :
    ∃ a', Rel c1 n1 (o.run e1) a' ∧ Rel c2 n2 (o.run e2) a' := by
  cases o with
  | int i => exact ⟨_, h1.addInt_rel i, h2.addInt_rel i⟩
  | uint n => exact ⟨_, h1.addUInt_rel n, h2.addUInt_rel n⟩
  | bytes b => exact ⟨_, h1.addBytes_rel (Src.data _ b), h2.addBytes_rel (Src.data _ b)⟩
  | text b => exact ⟨_, h1.addText_rel b, h2.addText_rel b⟩
  | raw b => exact ⟨_, h1.addEncoded_rel (Src.data _ b), h2.addEncoded_rel (Src.data _ b)⟩
  | null => exact ⟨_, h1.addNull_rel, h2.addNull_rel⟩
  | tag t => exact ⟨_, h1.addTag_rel t, h2.addTag_rel t⟩
  | openArray => exact ⟨_, h1.openArray_rel, h2.openArray_rel⟩
  | closeArray => exact ⟨_, h1.closeArray_rel, h2.closeArray_rel⟩
  | openMap => exact ⟨_, h1.openMap_rel, h2.openMap_rel⟩
  | closeMap => exact ⟨_, h1.closeMap_rel, h2.closeMap_rel⟩
  | openWrap => exact ⟨_, h1.bstrWrap_rel, h2.bstrWrap_rel⟩
  | closeWrap => exact ⟨_, h1.closeBstr_rel, h2.closeBstr_rel⟩

/-- The same calls do the same with any two buffers, but for what does not fit. -/
theorem ops_rel2 : ∀ (os : List EncOp) {c1 c2 : Nat} {n1 n2 : Bool} {e1 e2 : Enc} {a : Ideal},
    Rel c1 n1 e1 a → Rel c2 n2 e2 a →
    ∃ a', Rel c1 n1 (runOps os e1) a' ∧ Rel c2 n2 (runOps os e2) a' := by
  intro os
  induction os with
  | nil => intro c1 c2 n1 n2 e1 e2 a h1 h2; exact ⟨a, h1, h2⟩
  | cons o os ih =>
    intro c1 c2 n1 n2 e1 e2 a h1 h2
    obtain ⟨a', h1, h2⟩ := op_rel2 o h1 h2
    exact ih h1 h2

theorem hash_either {alg : Int} (hfin : ∀ ha h0 us, Spec.hashFor cfg alg = some ha →
      C.hashStart ha = .ok h0 →
      ∃ d, d ≠ [] ∧ C.hashFinish (List.foldl C.hashUpdate h0 us) (Spec.digestRoom cfg) = .ok d)
    (p a w p' a' w' : UB) :
    match (generalizing := false) createTbsHash cfg C alg p' a' w' (maxHashSize cfg) with
    | .error x => createTbsHash cfg C alg p a w (maxHashSize cfg) = .error x
    | .ok _ => ∃ d, createTbsHash cfg C alg p a w (maxHashSize cfg) = .ok d := by
  rw [createTbsHash_eq, createTbsHash_eq]
  by_cases hne : hashAlgOfSigAlg cfg alg = algNone
  · simp only [hne, if_true]
  · simp only [if_neg hne]
    have hf := hashFor_of_ne hne
    rw [maxHashSize_eq]
    cases hs : C.hashStart (hashAlgOfSigAlg cfg alg) with
    | error x => rfl
    | ok h =>
      obtain ⟨d, -, hd⟩ := hfin _ h (tbsChunks p' a' w') hf hs
      obtain ⟨d', -, hd'⟩ := hfin _ h (tbsChunks p a w) hf hs
      simp only [hd, hd']
      exact ⟨_, rfl⟩

theorem take_flatten {d : Bytes} (h : d ≠ []) (k : Nat) :
    ((List.replicate k d).flatten.take k).length = k := by
  have : 0 < d.length := List.length_pos_iff.mpr h
  rw [List.length_take, List.length_flatten, List.map_replicate, List.sum_replicate_nat]
  have := Nat.le_mul_of_pos_right k this
  omega

/-- A signature of the size asked for is made when there is room for it, and no other. -/
theorem ask_make {payload aad : Bytes} {digest : Except Err Bytes} {aux0 aux1 : Mem} {k : Nat}
    (hne : ∀ d, digest = .ok d → d ≠ []) (hg : ∀ d, digest = .ok d → HashGives cfg C me.alg d)
    (hexact : SigSizeExact C) (hassm : SizeAssm cfg C me.alg me.key)
    (haux : AuxOk me (protectedHeader me.alg) aad payload aux0 aux1)
    (h : askSize C { me with aux := aux0 } payload aad digest = .ok k) (n : Nat) :
    (k ≤ n → ∃ s, makeSig C { me with aux := aux1 } payload aad digest n = .ok s) ∧
    ∀ s, makeSig C { me with aux := aux1 } payload aad digest n = .ok s → s.length = k := by
  unfold askSize at h
  unfold makeSig
  simp only at h ⊢
  by_cases hsc : Opt.shortCircuit me.flags = true
  · rw [if_pos hsc] at h
    simp only [if_pos hsc]
    cases hd : digest with
    | error x => rw [hd] at h; cases h
    | ok d =>
      rw [hd] at h
      cases h
      simp only
      refine ⟨fun hk => ?_, fun s hs => ?_⟩
      · rw [if_neg (by omega)]; exact ⟨_, rfl⟩
      · split at hs
        · cases hs
        · cases hs
          exact take_flatten (hne d hd) _
  · rw [if_neg hsc] at h
    simp only [if_neg hsc]
    by_cases hal : me.alg = -8
    · rw [if_pos hal] at h
      simp only [if_pos hal]
      obtain ⟨-, -, x3, x4⟩ := haux hal (by simpa using hsc)
      have x4 : ¬ aux1.cap < (toBeSigned { me with aux := aux1 } payload aad).length :=
        Nat.not_lt.mpr x4
      simp only [if_neg x4, x3, Bool.false_eq_true, if_false]
      split at h
      · cases h
      · refine ⟨fun hk => hassm.eddsa hal _ _ _ h hk, fun s hs => ?_⟩
        have := hexact.eddsa _ _ _ _ hs
        rw [← show me.alg = algEDDSA from hal, h] at this
        cases this
        rfl
    · rw [if_neg hal] at h
      simp only [if_neg hal]
      cases hd : digest with
      | error x => rw [hd] at h; cases h
      | ok d =>
        rw [hd] at h
        refine ⟨fun hk => hassm.sign hal _ _ _ (hg d hd) h hk, fun s hs => ?_⟩
        have := hexact.sign _ _ _ _ _ hs
        simp only at h
        rw [h] at this
        cases this
        rfl

theorem finished_length_congr {det : Bool} {w s s' : Bytes} (hct : ctArg cfg me ≠ .both)
    (h : s.length = s'.length) :
    (finished cfg me det w s).length = (finished cfg me det w s').length := by
  rw [finished_eq hct, finished_eq hct]
  exact msgBytes_length_congr h

variable (cfg C me)

/-- **C08 (two-step signing).** The caller asked for the size with a NULL buffer of some
length, by any encoder calls `ops`, the two calls of t_cose and a payload `cs` between
them; no error was reported and the encoder had not run out of its length.  Then, with
every real buffer of at least the size counted, the same calls succeed and write exactly
that many octets; with a shorter buffer the second call fails or the encoder is left
with the buffer too small. -/
theorem C08_two_step (hfit : SignFits C) (hexact : SigSizeExact C)
    (hassm : SizeAssm cfg C me.alg me.key) (ops : List EncOp) (n : Nat)
    (cs : List Content) (d : Nat) (aad : UB) (ha : aad.wf) (aux0 aux1 : Mem)
    (haux : AuxOk me (protectedHeader me.alg) aad.bytes (encAll cs) aux0 aux1)
    (h0 : StartOk (runOps ops (Enc.init (.null n))))
    (hd : fitsAll cs d = true) (hdd : (runOps ops (Enc.init (.null n))).nest.length + d ≤ 13)
    (hn : cs.length ≤ 65534)
    (hlt : (runOps ops (Enc.init (.null n))).len + me.kid.bytes.length
      + (me.contentTypeTstr.getD []).length + (encAll cs).length + 128 < 2 ^ 32)
    {me1 me2 : SignCtx} {e1 e2 : Enc}
    (hq1 : sign1EncodeParameters cfg { me with aux := aux0 } (runOps ops (Enc.init (.null n))) =
      (.ok (), me1, e1))
    (hq2 : sign1EncodeSignatureAad cfg C me1 aad (runAll cs e1) = (.ok (), me2, e2))
    (hq3 : e2.small = false) (m : Bytes) :
    ∃ me1' e1', sign1EncodeParameters cfg { me with aux := aux1 } (runOps ops (Enc.init (.buf m))) =
        (.ok (), me1', e1') ∧
      (e2.len ≤ m.length → ∃ me2' e2',
        sign1EncodeSignatureAad cfg C me1' aad (runAll cs e1') = (.ok (), me2', e2') ∧
        e2'.ub = false ∧ e2'.small = false ∧ e2'.err = none ∧ e2'.nest = e2.nest ∧
        (written e2').length = e2.len) ∧
      (m.length < e2.len → ∀ me2' e2',
        sign1EncodeSignatureAad cfg C me1' aad (runAll cs e1') = (.ok (), me2', e2') →
        e2'.small = true) := by
  have hf0 : ctxFault cfg { me with aux := aux0 } = none := by
    cases hf : ctxFault cfg { me with aux := aux0 } with
    | none => rfl
    | some x => have := params_fault hf (runOps ops (Enc.init (.null n))); rw [hq1] at this; cases this
  have hf1 : ctxFault cfg { me with aux := aux1 } = none := hf0
  have hct : ctArg cfg me ≠ .both := (ctxFault_none hf0).ct
  obtain ⟨⟨o, er, ns⟩, hr0, hr1⟩ := ops_rel2 ops (Rel.init_rel (.null n)) (Rel.init_rel (.buf m))
  replace hr0 : Rel n true _ _ := hr0
  replace hr1 : Rel m.length false _ _ := hr1
  obtain ⟨g1, g2, g3, -⟩ := hr0.good h0.small
  simp only at g1 g2 g3
  have : er = none := by rw [← g2]; exact h0.err
  subst this
  have hdep := h0.depth
  have hlvl := h0.lvl
  rw [g3] at hdep hlvl hdd
  rw [g1] at hlt
  have hlo : LvlOk ns := by
    cases ns with
    | nil => trivial
    | cons n ns => exact hlvl n rfl
  have hashed := hash_either (C := C) hassm.fin (seen true (protMap me.alg)) aad (seen true (encAll cs))
    (.data (protMap me.alg)) aad (.data (encAll cs))
  obtain ⟨digest, hdig⟩ : ∃ digest, createTbsHash cfg C me.alg (.data (protMap me.alg)) aad
    (.data (encAll cs)) (maxHashSize cfg) = digest := ⟨_, rfl⟩
  rw [hdig] at hashed
  have hne : ∀ d, digest = .ok d → d ≠ [] := by
    intro d hd'
    rw [hd'] at hdig
    rcases createTbsHash_indep (C := C) hassm.fin (.data (protMap me.alg)) aad (.data (encAll cs))
      .nil .nil .nil with ⟨⟨d', h1, h2⟩, -⟩ | ⟨⟨x, h1⟩, -⟩
    · rw [hdig] at h2; cases h2; exact h1
    · rw [hdig] at h1; cases h1
  have hg : ∀ d, digest = .ok d → HashGives cfg C me.alg d := by
    intro d hd'
    rw [hd'] at hdig
    exact hashSteps_of hdig
  -- the query
  obtain ⟨me1q, e1q, p1, p2⟩ := query_rel (me := { me with aux := aux0 }) (C := C) (digest := digest)
    ha hr0 hlo hdep hd hdd hn hlt hashed (fun h1 h2 => (haux h2 h1).1) hf0
  rw [hq1] at p1
  obtain ⟨rfl, rfl⟩ : me1 = me1q ∧ e1 = e1q := by
    injection p1 with _ p1
    injection p1 with a b
    exact ⟨a, b⟩
  cases hsq : secondQuery cfg C { me with aux := aux0 } (encAll cs) aad.bytes digest o.length n with
  | error x => rw [hsq] at p2; simp only at p2; rw [hq2] at p2; cases p2
  | ok k =>
    rw [hsq] at p2
    obtain ⟨me2q, e2q, p3, p4⟩ := p2
    rw [hq2] at p3
    obtain ⟨rfl, rfl⟩ : me2 = me2q ∧ e2 = e2q := by
      injection p3 with _ p3
      injection p3 with a b
      exact ⟨a, b⟩
    obtain ⟨k1, -, k3, -⟩ := p4.good hq3
    unfold secondQuery at hsq
    split at hsq
    · cases hsq
    have am := ask_make hne hg hexact hassm haux hsq
    have hfl : ∀ s : Bytes, s.length = k → e2.len =
        (o ++ finished cfg { me with aux := aux1 } false (encAll cs) s).length := by
      intro s hs
      rw [k1, List.length_append, List.length_append]
      have := finished_length_congr (cfg := cfg) (me := me) (det := false) (w := encAll cs)
        (s := s) (s' := List.replicate k 0) hct (by simp [hs])
      exact congrArg (o.length + ·) this.symm
    have hbg : ∀ s, (finished cfg { me with aux := aux1 } false (encAll cs) s).length ≥
        begun cfg { me with aux := aux1 } false (encAll cs) + 1 + s.length := by
      intro s
      rw [finished_eq (me := { me with aux := aux1 }) hct, begun_eq (me := { me with aux := aux1 }) hct]
      have := encodeHead_length_pos 4 4
      simp only [msgBytes, preSig, bstrBytes, List.length_append]
      omega
    -- the real calls
    obtain ⟨me1', e1', q1, q2⟩ := nested_rel (me := { me with aux := aux1 }) (C := C) (digest := digest)
      hfit ha hr1 hlo hdep hd hdd hn hlt hdig hne hf1
    refine ⟨me1', e1', q1, fun hm => ?_, fun hm me2' e2' h => ?_⟩
    · have h2 := hfl (List.replicate k 0) (by simp)
      have h3 := hbg (List.replicate k 0)
      rw [List.length_append] at h2
      rw [List.length_replicate] at h3
      obtain ⟨s, hs⟩ := (am (m.length - (o.length + begun cfg { me with aux := aux1 } false
        (encAll cs)))).1 (by omega)
      have hsl := (am _).2 s hs
      have hsc : secondCall cfg C { me with aux := aux1 } (encAll cs) aad.bytes digest o.length
          (m.length) = .ok s := by
        unfold secondCall
        rw [if_neg (by omega), if_neg (by omega)]
        exact hs
      rw [hsc] at q2
      obtain ⟨me2', e2', q3, q4⟩ := q2
      have hs0 : e2'.small = false := by
        cases hq : e2'.small with
        | false => rfl
        | true =>
          have h4 := (small_iff q4).mp hq
          rw [hfl s hsl] at hm
          exact absurd h4 (Nat.not_lt.mpr hm)
      obtain ⟨w1, w2, w3, -⟩ := q4.good hs0
      refine ⟨me2', e2', q3, q4.ub, hs0, w2, ?_, ?_⟩
      · rw [w3, k3]
      · rw [written_eq q4 hs0]
        exact (hfl s hsl).symm
    · rw [h] at q2
      cases hsc : secondCall cfg C { me with aux := aux1 } (encAll cs) aad.bytes digest o.length
          m.length with
      | error x => rw [hsc] at q2; cases q2
      | ok s =>
        rw [hsc] at q2
        obtain ⟨me2', e2', q3, q4⟩ := q2
        injection q3 with _ q3
        injection q3 with _ q3
        subst q3
        rw [small_iff q4]
        unfold secondCall at hsc
        split at hsc
        · cases hsc
        · split at hsc
          · rename_i h5
            have := hbg s
            simp only [List.length_append]
            omega
          · rw [hfl s ((am _).2 s hsc)] at hm
            exact hm

/- An array with a label and a wrapped message: the query counts 101 octets, as in the
example of C71, and 101 octets are needed. -/
example : StartOk (runOps [.openArray, .int 500, .openWrap] (Enc.init (.null 4294967295))) ∧
    (match sign1EncodeParameters Config.full exCtx
        (runOps [.openArray, .int 500, .openWrap] (Enc.init (.null 4294967295))) with
    | (.ok (), me1, e1) =>
      match sign1EncodeSignatureAad Config.full toyCrypto me1 .nil (runAll exContent e1) with
      | (.ok (), _, e2) => (e2.small, e2.len)
      | (.error _, _, _) => (true, 0)
    | (.error _, _, _) => (true, 0)) = (false, 101) ∧
    [100, 101].map (fun n => match sign1EncodeParameters Config.full exCtx
        (runOps [.openArray, .int 500, .openWrap] (Enc.init (.buf (List.replicate n 0)))) with
    | (.ok (), me1, e1) =>
      match sign1EncodeSignatureAad Config.full toyCrypto me1 .nil (runAll exContent e1) with
      | (.ok (), _, e2) => (e2.small, e2.len)
      | (.error _, _, _) => (true, 0)
    | (.error _, _, _) => (true, 0)) = [(true, 100), (false, 101)] :=
  ⟨⟨by decide +kernel, by decide +kernel, by decide +kernel, by
    intro n hn
    have h : (runOps [.openArray, .int 500, .openWrap]
      (Enc.init (.null 4294967295))).nest.head? = some ⟨.bstr, 3, 0⟩ := by decide +kernel
    rw [h] at hn
    cases hn
    decide⟩, by decide +kernel, by decide +kernel⟩

end TCose.Props
