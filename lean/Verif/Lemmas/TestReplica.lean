import Verif.Lemmas.TestMsg

/-! Helper lemmas: the library's signer and the test suite's, side by side. -/

namespace TCose
open Enc (PRef Place maxStart)

/-- The library's choice of signature for a digest. -/
def libSignature (C : Crypto) (me : SignCtx) (hash : Bytes) (room : Nat) : Except Err Bytes :=
  if hasFlag me.flags optShortCircuit then TCose.scSign me.alg hash room
  else C.sign me.alg me.key hash room

theorem dispatch_room {cfg : Config} {C : Crypto} {me : SignCtx} {prot aad pay : UB} {n : Nat}
    (hsc : ¬ (hasFlag me.flags optShortCircuit = true ∧ cfg.disableShortCircuit = true))
    (hed : me.alg ≠ algEDDSA) :
    signDispatch cfg C me prot aad pay (.room n) =
      (match createTbsHash cfg C me.alg prot aad pay (maxHashSize cfg) with
        | .error x => .error x
        | .ok hash => (libSignature C me hash n).map UB.data, me, false) := by
  unfold signDispatch
  by_cases hs : hasFlag me.flags optShortCircuit = true
  · have hd : cfg.disableShortCircuit = false := by
      cases h : cfg.disableShortCircuit with
      | false => rfl
      | true => exact absurd ⟨hs, h⟩ hsc
    rw [if_pos (by simp [hs, hd])]
    unfold signShortCircuit libSignature
    simp only [hs, if_true]
    cases createTbsHash cfg C me.alg prot aad pay (maxHashSize cfg) <;> rfl
  · rw [if_neg (by simp [hs]), if_neg (by simp [hed])]
    unfold signDefault libSignature
    simp only [hs, Bool.false_eq_true, if_false]
    cases createTbsHash cfg C me.alg prot aad pay (maxHashSize cfg) <;> rfl

/-- Success of the library's signer into a buffer, for the algorithms that hash. -/
theorem sign1Sign_iff {cfg : Config} {C : Crypto} (hfit : Spec.SignFits C) {me : SignCtx}
    (hpre : SignPre cfg me) (hed : me.alg ≠ algEDDSA) {payload : UB} {w : Bytes}
    (hpay : Src false payload w) (m : Bytes)
    (hH : (tagPart me ++ hdrBytes cfg me).length < maxStart) (r : UB) :
    (sign1Sign cfg C me payload (.buf m)).1 = .ok r ↔
      ∃ hash s, createTbsHash cfg C me.alg (.data (protMap me.alg)) .nil (.data w)
            (maxHashSize cfg) = .ok hash ∧
        (preSig cfg me false w).length < maxStart ∧
        libSignature C me hash (m.length - (preSig cfg me false w).length) = .ok s ∧
        (msgBytes cfg me false w s).length ≤ m.length ∧
        r = .data (msgBytes cfg me false w s) := by
  unfold sign1Sign
  obtain ⟨h1, h2⟩ := sign_run cfg C me false payload .nil w (.buf m) hpre
    (by simpa [PayArg, Mem.isNull] using hpay) (.inr hH)
  simp only [Mem.cap, Mem.isNull] at h1 h2
  have hlt := preSig_lt_msg cfg me false w
  rcases Nat.lt_or_ge m.length (preSig cfg me false w).length with hc | hc
  · obtain ⟨e', me', he⟩ := h1 hc
    rw [he]
    simp only []
    constructor
    · intro h; cases h
    · rintro ⟨hash, s, _, _, _, hl, _⟩
      have := hlt s; omega
  · obtain ⟨pp, hpp, hm⟩ := h2 hc
    by_cases hroom : m.length - (preSig cfg me false w).length > 0
    · have hpl : placeOf m.length false (preSig cfg me false w).length
          = .room (m.length - (preSig cfg me false w).length) := by
        simp [placeOf, hroom]
      rw [hpl, dispatch_room (me := { me with protectedParams := pp }) (by simpa using hpre.sc) hed] at hm
      simp only [paySeen, seen, Bool.false_eq_true, if_false] at hm
      cases hh : createTbsHash cfg C me.alg (.data (protMap me.alg)) .nil (.data w)
          (maxHashSize cfg) with
      | error x =>
        rw [hh] at hm
        obtain ⟨e', he⟩ := hm
        rw [he]; simp
      | ok hash =>
        rw [hh] at hm
        simp only [] at hm
        have hls : libSignature C { me with protectedParams := pp } hash
            (m.length - (preSig cfg me false w).length)
            = libSignature C me hash (m.length - (preSig cfg me false w).length) := rfl
        rw [hls] at hm
        cases hs : libSignature C me hash (m.length - (preSig cfg me false w).length) with
        | error x =>
          rw [hs] at hm
          obtain ⟨e', he⟩ := hm
          rw [he]
          simp only []
          constructor
          · intro h; cases h
          · rintro ⟨hash', s, h1, _, h2, _⟩
            cases h1; rw [hs] at h2; cases h2
        | ok s =>
          rw [hs] at hm
          obtain ⟨e', r', he, hr⟩ := hm
          have hsl : s.length ≤ m.length - (preSig cfg me false w).length := by
            unfold libSignature at hs
            split at hs
            · exact scSign_fits hs
            · exact hfit.sign _ _ _ _ _ hs
          obtain ⟨_, _, g3, g4, g5⟩ := hr s (.inl ⟨rfl, rfl, hsl⟩) rfl
          rw [he]
          simp only []
          constructor
          · intro h
            subst h
            have hms : (preSig cfg me false w).length < maxStart := by
              refine Nat.lt_of_not_le fun hh => ?_
              obtain ⟨x, hx⟩ := g4 hh
              cases hx
            have hle : (msgBytes cfg me false w s).length ≤ m.length := by
              refine Nat.le_of_not_lt fun hh => ?_
              cases g3 hh hms
            have := g5 hle hms
            injection this with this
            exact ⟨hash, s, rfl, hms, hs, hle, this⟩
          · rintro ⟨hash', s', h1, h2, h3, h4, h5⟩
            cases h1; rw [hs] at h3; cases h3
            rw [g5 h4 h2, h5]
    · have hcap : m.length = (preSig cfg me false w).length := by omega
      have hrhs : ¬ ∃ hash s, createTbsHash cfg C me.alg (.data (protMap me.alg)) .nil (.data w)
            (maxHashSize cfg) = .ok hash ∧
          (preSig cfg me false w).length < maxStart ∧
          libSignature C me hash (m.length - (preSig cfg me false w).length) = .ok s ∧
          (msgBytes cfg me false w s).length ≤ m.length ∧
          r = .data (msgBytes cfg me false w s) := by
        rintro ⟨_, s, _, _, _, h, _⟩
        have := hlt s; omega
      refine ⟨fun h => ?_, fun h => absurd h hrhs⟩
      exfalso
      have hpl : placeOf m.length false (preSig cfg me false w).length = .null := by
        simp [placeOf, hroom]
      rw [hpl] at hm
      cases hdis : signDispatch cfg C { me with protectedParams := pp } (seen false (protMap me.alg))
          .nil (paySeen false false w) .null with
      | mk q q2 =>
        obtain ⟨me', ub⟩ := q2
        rw [hdis] at hm
        cases q with
        | error x =>
          obtain ⟨e', he⟩ := hm
          rw [he] at h; cases h
        | ok sig =>
          obtain ⟨e', r', he, hr⟩ := hm
          rw [he] at h
          simp only [] at h
          subst h
          obtain ⟨n, hn⟩ := signDispatch_shape hdis
          have hub := signDispatch_ub (cfg := cfg) (C := C) (me := { me with protectedParams := pp })
            (Src.data _ (protMap me.alg)) (Src.nil _) (Src.data _ w) .null
          have hsd : seen false (protMap me.alg) = .data (protMap me.alg) := rfl
          have hpd : paySeen false false w = .data w := rfl
          rw [hsd, hpd] at hdis
          rw [hdis] at hub
          obtain ⟨_, _, g3, g4, _⟩ := hr (List.replicate n 0)
            (.inr ⟨by rw [hn]; simp, .inr (by omega)⟩) hub
          rcases Nat.lt_or_ge (preSig cfg me false w).length maxStart with hms | hms
          · have := hlt (List.replicate n 0)
            cases g3 (by omega) hms
          · obtain ⟨x, hx⟩ := g4 hms
            cases hx

/-! ## The test signer without options -/

theorem hash_supported (cfg : Config) (alg : Int) :
    hashAlgOfSigAlg cfg alg ≠ algNone ↔ sigAlgSupported cfg alg = true ∧ alg ≠ algEDDSA := by
  unfold hashAlgOfSigAlg sigAlgSupported
  have d1 : algSHA256 ≠ algNone := by decide
  have d2 : algSHA384 ≠ algNone := by decide
  have d3 : algSHA512 ≠ algNone := by decide
  by_cases h1 : alg = algES256
  · subst h1; simp [d1]; decide
  by_cases h2 : alg = algES384
  · subst h2
    cases h : cfg.disableES384
    · simp [h1, d2]; decide
    · simp [algES256, algES384, algES512, algPS256, algPS384, algPS512, algEDDSA]
  by_cases h3 : alg = algES512
  · subst h3
    cases h : cfg.disableES512
    · simp [h1, h2, d3]; decide
    · simp [algES256, algES384, algES512, algPS256, algPS384, algPS512, algEDDSA]
  by_cases h4 : alg = algPS256
  · subst h4
    cases h : cfg.disablePS256
    · simp [h1, h2, h3, d1]; decide
    · simp [algES256, algES384, algES512, algPS256, algPS384, algPS512, algEDDSA]
  by_cases h5 : alg = algPS384
  · subst h5
    cases h : cfg.disablePS384
    · simp [h1, h2, h3, h4, d2]; decide
    · simp [algES256, algES384, algES512, algPS256, algPS384, algPS512, algEDDSA]
  by_cases h6 : alg = algPS512
  · subst h6
    cases h : cfg.disablePS512
    · simp [h1, h2, h3, h4, h5, d3]; decide
    · simp [algES256, algES384, algES512, algPS256, algPS384, algPS512, algEDDSA]
  simp [h1, h2, h3, h4, h5, h6]

namespace TestMsg

theorem hasFlag_zero (b : Nat) : hasFlag 0 b = false := by simp [hasFlag]

theorem on_zero (b : Nat) (cs : List Call) : on 0 b cs = [] := by simp [on, hasFlag_zero]

theorem indef_zero (i d : Call) : indef 0 i d = d := by simp [indef, hasFlag_zero]

theorem encodeProtected_zero (alg : Int) : encodeProtected 0 alg = .data (protMap alg) := by
  unfold encodeProtected
  simp only [hasFlag_zero, Bool.false_eq_true, if_false]
  have hc : protCalls 0 alg = [.openMap, .int 1, .int alg, .closeMap] := by
    simp [protCalls, hasFlag_zero, on_zero, indef_zero]
  rw [hc]
  have hr := runCalls_rel [.openMap, .int 1, .int alg, .closeMap]
    (Rel.init_rel (.buf (List.replicate 40 0)))
  have hI : runCallsI .init [.openMap, .int 1, .int alg, .closeMap] = ⟨protMap alg, none, []⟩ := by
    simp only [runCallsI, List.foldl, Call.runI]
    rw [show Ideal.init = ⟨[], none, []⟩ from rfl, Ideal.openMap,
      Ideal.openLevel_ok (o := []) (ns := []) _ trivial (by simp) (by simp [maxStart]),
      Ideal.addInt, Ideal.addInt, Ideal.addItem_cons (by decide) (by decide),
      Ideal.addItem_cons (by decide) (by decide), Ideal.closeMap]
    simp [Ideal.closeLevel, Ideal.ins, bumpN, protMap]
  rw [hI] at hr
  generalize runCalls (Enc.init (.buf (List.replicate 40 0)))
    [.openMap, .int 1, .int alg, .closeMap] = e at hr ⊢
  have hlen := Ideal.protMap_length_le alg
  have hs : e.small = false := by
    cases h : e.small with
    | false => rfl
    | true =>
      have := hr.small h
      simp only [Mem.cap, List.length_replicate] at this
      omega
  obtain ⟨g1, g2, g3, g4⟩ := hr.good hs
  have hn := hr.nul_eq
  cases hm : e.mem with
  | null c => rw [hm] at hn; cases hn
  | buf mm =>
    have := g4 mm hm
    simp [Enc.finish, Enc.errState, hs, g2, g3, hm, this]

theorem hdrI_zero (me : SignCtx) :
    hdrI me (protMap me.alg) 0
      = ⟨tagPart me ++ (bstrBytes (protMap me.alg) ++ unprotBytes (kidOf me) .none), none,
          [⟨.arr, (tagPart me).length, 2⟩]⟩ := by
  unfold hdrI
  simp only [hasFlag_zero, Bool.false_eq_true, if_false]
  have hc : unprotCalls 0 (kidOf me) = Call.openMap ::
      ((if (kidOf me).isEmpty then [] else [.int 4, .bytes (kidOf me)]) ++ [.closeMap]) := by
    simp [unprotCalls, hasFlag_zero, on_zero, indef_zero]
  have hrun : ∀ a, runCallsI a (unprotCalls 0 (kidOf me)) = a.unprot (kidOf me) .none := by
    intro a
    rw [hc]
    unfold Ideal.unprot
    by_cases hk : (kidOf me).isEmpty
    · simp [hk, runCallsI, Call.runI]
    · simp [hk, runCallsI, Call.runI]
  rw [hrun]
  have htag : (if hasFlag me.flags optOmitTag = true then Ideal.init else Ideal.init.addTag 18)
      = ⟨tagPart me, none, []⟩ := by
    unfold tagPart
    cases hasFlag me.flags optOmitTag with
    | true => rfl
    | false => rfl
  rw [htag]
  have htl : (tagPart me).length ≤ 1 := tagBytes_length_le _
  have hpl := bstrProt_length_le me.alg
  rw [Ideal.openArray, Ideal.openLevel_ok (ns := []) _ trivial (by simp) (by simp [maxStart]; omega),
    Ideal.addBytes, Ideal.addItem_cons (by decide) (by decide),
    Ideal.unprot_ok (ns := ⟨.arr, (tagPart me).length, 0 + 1⟩ :: bumpN []) _ _ ⟨by simp, by simp⟩ (by simp [bumpN])
      (by simp only [List.length_append, bstrBytes, maxStart] at *; omega)]
  simp [bumpN, bstrBytes]

/-- The headers alone are past the offset limit. -/
theorem sign_hdr_big {cfg : Config} {C : Crypto} {me : SignCtx} {prot0 : UB}
    {opts : Nat} {payload : UB} {w : Bytes} (hpay : Src false payload w) {m : Bytes}
    (hh : hashAlgOfSigAlg cfg me.alg ≠ algNone)
    (hsc : ¬ (hasFlag me.flags optShortCircuit = true ∧ cfg.disableShortCircuit = true))
    {prot : UB} (hprot : prot = if hasFlag opts noProtected then prot0 else encodeProtected opts me.alg)
    {H : Bytes} {k : NKind} {p c : Nat} (hk : k ≠ .openB)
    (ha : hdrI me prot.bytes opts = ⟨H, none, [⟨k, p, c⟩]⟩)
    (hc : c < 65000) (hH : maxStart ≤ H.length) :
    ∃ x, (sign cfg C me prot0 opts payload m).1 = .error x := by
  obtain ⟨prot', e, he, hp', hrel⟩ := params_run (cfg := cfg) (me := me) (prot0 := prot0)
    (opts := opts) (m := m) hh hsc
  rw [← hprot] at hp'
  subst hp'
  unfold sign
  rw [he]
  simp only []
  rw [ha] at hrel
  have herr := Ideal.openLevel_big (o := H) (ns := [⟨k, p, c⟩]) .bstr
    ⟨hk, by show c < 65534; omega⟩ hH
  have h2 := hrel.addEncoded_rel hpay
  have hs : (Ideal.bstrWrap ⟨H, none, [⟨k, p, c⟩]⟩).err.isSome := by
    rw [Ideal.bstrWrap, herr]; rfl
  have hs2 : ((Ideal.bstrWrap ⟨H, none, [⟨k, p, c⟩]⟩).addEncoded w).err.isSome := by
    rw [Ideal.addEncoded, Ideal.addItem, if_pos hs]; exact hs
  have h3 := h2.closeBstr_rel
  have hs3 : ((Ideal.bstrWrap ⟨H, none, [⟨k, p, c⟩]⟩).addEncoded w).closeBstr.err.isSome := by
    rw [Ideal.closeBstr, Ideal.closeLevel_err hs2]; exact hs2
  have hne := h3.errState_ne_ok hs3
  unfold outputSignature
  simp only []
  cases hst : (e.addEncoded payload).closeBstrWrap2.1.errState with
  | ok => exact absurd hst hne
  | tooSmall => exact ⟨_, rfl⟩
  | other y => exact ⟨_, rfl⟩

end TestMsg
end TCose
