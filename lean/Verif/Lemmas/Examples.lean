import Verif.TestCode.Examples
import Verif.Props.SignVerify
import Verif.Props.Fresh

/-! # Lemmas for the example programs -/

namespace TCose
open Enc Spec Props ExampleCode SignVerifyTest SuiteTest Rel

/-- A map of any content, encoded alone. -/
theorem map_alone (cs : List Content) (m : Bytes) (hf : fitsAll cs 13 = true)
    (hn : cs.length ≤ 65534) (hs : (encAll cs).length < maxStart)
    (hl : (Content.map cs).enc.length ≤ m.length) :
    ((Content.map cs).run (Enc.init (.buf m))).finish = .ok (.data (Content.map cs).enc) := by
  have h1 := (init_rel (.buf m)).openMap_rel
  have h0 : Ideal.init.openMap = ⟨[], none, ⟨.map, ([] : Bytes).length, 0⟩ :: []⟩ := rfl
  rw [h0] at h1
  have h2 := runAll_rel cs hf h1 (by decide) (by omega) (by simp) (by simpa using hs)
  have h3 := h2.closeMap_rel
  rw [Ideal.closeMap, Ideal.closeLevel_ok] at h3
  have h4 : Rel (Mem.buf m).cap (Mem.buf m).isNull ((Content.map cs).run (Enc.init (.buf m)))
      ⟨(Content.map cs).enc, none, []⟩ := by
    simp only [Content.run, Content.enc]
    rw [← encodeHead_eq_head]
    simpa using h3
  have hsm : ((Content.map cs).run (Enc.init (.buf m))).small = false := by
    cases h : ((Content.map cs).run (Enc.init (.buf m))).small with
    | false => rfl
    | true =>
      have := h4.small h
      simp only [Mem.cap] at this
      omega
  obtain ⟨g1, g2, g3, g4⟩ := h4.good hsm
  unfold Enc.finish Enc.errState
  rw [hsm, g2, g3]
  have hnul := h4.nul_eq
  cases hm : ((Content.map cs).run (Enc.init (.buf m))).mem with
  | null n => rw [hm] at hnul; cases hnul
  | buf m' =>
    have := g4 m' hm
    simp only at this
    simp [this]

variable {cfg : Config} {C : Crypto} {D : Int → Bytes → Bytes} {alg : Int} {key : Key} {n : Nat}
  {me : SignCtx} {kid : UB}

theorem head_pos (n : Nat) : 1 ≤ (Spec.head 2 n).length := by
  unfold Spec.head
  repeat' split
  all_goals simp

/-- Signing in one call, with a buffer that just has room. -/
theorem real_sign_exact (hfit : SignFits C) (h : SetUp me alg key kid)
    (hk : KeyWorks cfg C D alg key n) (w : Bytes) (hw : w.length ≤ 1000)
    (hx : AuxFor alg me.aux (sigStructure (protectedHeader alg) [] w).length) (m : Bytes)
    (hlen : (lead alg (specKid me) w).length + (Spec.head 2 n).length + n ≤ m.length)
    (hl : (lead alg (specKid me) w).length ≤ 1000) :
    ∃ s, s.length = n ∧
      (∀ kid, adapterVerify cfg C D alg key kid (sigStructure (protectedHeader alg) [] w) s = .ok ()) ∧
      (sign1Sign cfg C me (.data w) (.buf m)).1 =
        .ok (.data (lead alg (specKid me) w ++ (Item.bstr s).enc)) := by
  have hpos := lead_pos alg (specKid me) w
  have hh := head_pos n
  have hp4 : (protectedHeader alg).length ≤ 1000 := by
    rcases enabled_cases hk.enabled with h | h | h | h | h | h | h <;> subst h <;> decide
  obtain ⟨s, h1, h2, h3⟩ := hk.signs (sigStructure (protectedHeader alg) [] w)
    (m.length - begun cfg me false w) (by rw [h.begun]; omega)
  refine ⟨s, h2, h3, ?_⟩
  have := C67_sign (N := 4294967295) cfg C D me false (.data w) .nil hfit (by rw [h.alg]; exact hk.hashes)
    m rfl rfl
    (by
      rw [h.alg]
      exact ⟨by decide, by omega, by decide, by show w.length ≤ _; omega⟩)
    (fun _ => rfl) (by rw [h.begun]; show (lead alg (specKid me) w).length - 1 < _; omega)
  refine Eq.trans this ?_
  rw [show (UB.data w).bytes = w from rfl, show UB.nil.bytes = [] from rfl]
  unfold outcome
  rw [h.fault hk.enabled]
  simp only
  rw [if_neg (by rw [h.begun]; omega), if_neg (by rw [h.begun]; omega), h.makeSig w [] hx, h1]
  simp only
  rw [h.finished, if_neg]
  · rfl
  · rw [List.length_append, bstr_len, h2]
    omega

/-- The calls of signing in two steps. -/
theorem two_step_calls (hfit : SignFits C) (h : SetUp me alg key kid) (hk : KeyWorks cfg C D alg key n)
    (cs : List Content) (m : Bytes) (hd : fitsAll cs 13 = true) (hn : cs.length ≤ 1000)
    (hw : (encAll cs).length ≤ 1000) (hkid : kid.bytes.length ≤ 1000)
    (hx : AuxFor alg me.aux (sigStructure (protectedHeader alg) [] (encAll cs)).length)
    (hlen : (lead alg (specKid me) (encAll cs)).length + 3 + n ≤ m.length) :
    ∃ s me1 e1 me2 e2, s.length = n ∧
      (∀ kid, adapterVerify cfg C D alg key kid (sigStructure (protectedHeader alg) [] (encAll cs)) s =
        .ok ()) ∧
      sign1EncodeParameters cfg me (Enc.init (.buf m)) = (.ok (), me1, e1) ∧
      sign1EncodeSignature cfg C me1 (runAll cs e1) = (.ok (), me2, e2) ∧
      e2.finish = .ok (.data (lead alg (specKid me) (encAll cs) ++ (Item.bstr s).enc)) := by
  have hpos := lead_pos alg (specKid me) (encAll cs)
  have hp4 : (protectedHeader alg).length ≤ 1000 := by
    rcases enabled_cases hk.enabled with h | h | h | h | h | h | h <;> subst h <;> decide
  obtain ⟨s, k1, k2, k3⟩ := hk.signs (sigStructure (protectedHeader alg) [] (encAll cs))
    (m.length - (0 + begun cfg me false (encAll cs))) (by rw [h.begun]; omega)
  have hh := head_small (n := s.length) (by rw [k2]; exact hk.small)
  have hT := C71_tagged (N := 4294967295) cfg C D me hfit (by rw [h.alg]; exact hk.hashes)
    [] m cs .nil rfl (by rw [h.alg]; exact ⟨by decide, by omega, by decide, by omega⟩) (by simp) hd
    (by omega) (by rw [h.kid, h.ctText]; simp; omega)
  rw [h.fault hk.enabled] at hT
  simp only [List.map_nil, List.flatten_nil, List.nil_append, List.length_nil] at hT
  obtain ⟨me1, e1, h1, h2⟩ := hT
  rw [show UB.nil.bytes = [] from rfl] at h2
  rw [show secondCall cfg C me (encAll cs) [] _ 0 m.length = .ok s from by
      unfold secondCall
      rw [if_neg (by rw [h.begun]; omega), if_neg (by rw [h.begun]; omega), h.makeSig _ [] hx, k1]] at h2
  simp only at h2
  obtain ⟨me2, e2, h3, h4⟩ := h2
  rw [h.finished, if_neg (by rw [List.length_append, bstr_len]; omega)] at h4
  refine ⟨s, me1, e1, me2, e2, k2, k3, h1, h3, ?_⟩
  unfold callerFinish at h4
  cases hfin : e2.finish with
  | error x =>
    rw [hfin] at h4
    split at h4 <;> cases h4
  | ok r =>
    rw [hfin] at h4
    split at h4 <;> first
      | (cases h4; done)
      | (cases h4; rfl)

/-- The size query with a fresh context. -/
theorem real_query (hk : KeyWorks cfg C D alg key n) (cap : Nat) (hcap : 1000 ≤ cap) :
    (sign1Sign cfg C ((SignCtx.init 0 alg).setKey key .nil) (.data payloadText) (.null cap)).1 =
      .ok (.null ((lead alg none payloadText).length + (Spec.head 2 n).length + n)) := by
  have hset := setKey_setUp alg key .nil
  have hsmall := hk.small
  obtain ⟨z1, z2, -, -, z5⟩ := size_numbers hk.enabled (kid := .nil) (.inl rfl)
  simp only [show UB.nil.isNullOrEmpty = true from rfl, if_true, show UB.nil.len = 0 from rfl] at z1 z2
  have hp4 : (protectedHeader alg).length ≤ 1000 := by
    rcases enabled_cases hk.enabled with h | h | h | h | h | h | h <;> subst h <;> decide
  have hsk : specKid ((SignCtx.init 0 alg).setKey key .nil) = none := setUp_specKid hset
  have hb := hset.begun (cfg := cfg) payloadText
  rw [hsk] at hb
  have hhn := head_small hk.small
  have := C67_size (N := 4294967295) cfg C D ((SignCtx.init 0 alg).setKey key .nil) false
      (.data payloadText) .nil hk.hashes cap
      ⟨by decide, by show (protectedHeader alg).length ≤ _; omega, by decide, by decide⟩
      rfl rfl (by simp) (fun _ _ => rfl) (by rw [data_bytes, hb]; omega)
  refine Eq.trans this ?_
  have ho : queryOutcome cfg C ((SignCtx.init 0 alg).setKey key .nil) false payloadText []
      (toBeSignedHash cfg D ((SignCtx.init 0 alg).setKey key .nil) payloadText []) cap =
      .ok ((lead alg none payloadText).length + (Spec.head 2 n).length + n) := by
    unfold queryOutcome
    rw [hset.fault hk.enabled]
    simp only
    rw [hb, if_neg (by omega)]
    have hask : askSize C ((SignCtx.init 0 alg).setKey key .nil) payloadText []
        (toBeSignedHash cfg D ((SignCtx.init 0 alg).setKey key .nil) payloadText []) = .ok n := by
      unfold askSize
      rw [if_neg (by rw [hset.sc]; simp), hset.alg, hset.key]
      by_cases h8 : alg = -8
      · rw [if_pos h8, if_neg]
        · exact hk.size
        · unfold toBeSigned
          rw [hset.alg, z5 h8]
          show ¬ 18446744073709551615 < 25
          omega
      · rw [if_neg h8]
        unfold toBeSignedHash
        rw [hset.alg]
        cases hh : hashFor cfg alg with
        | none =>
          exfalso
          unfold hashFor at hh
          rw [if_pos hk.enabled] at hh
          rcases enabled_cases hk.enabled with h | h | h | h | h | h | h <;> subst h <;>
            first | (exact h8 rfl) | (revert hh; decide)
        | some ha => exact hk.size
    rw [hask]
    simp only
    have hL : (finished cfg ((SignCtx.init 0 alg).setKey key .nil) false payloadText
        (List.replicate n 0)).length =
        (lead alg none payloadText).length + (Spec.head 2 n).length + n := by
      rw [hset.finished, hsk, List.length_append, bstr_len, List.length_replicate]
      omega
    rw [hL, if_neg (by omega)]
  rw [show queryOutcome cfg C ((SignCtx.init 0 alg).setKey key .nil) false (UB.data payloadText).bytes
    UB.nil.bytes (toBeSignedHash cfg D ((SignCtx.init 0 alg).setKey key .nil)
      (UB.data payloadText).bytes UB.nil.bytes) cap = _ from ho]
  rfl

/-- The size query leaves the settings alone. -/
theorem query_setUp (h : SetUp me alg key kid) (w : UB) (out : Mem) (aux : Mem) :
    SetUp ((sign1Sign cfg C me w out).2.1.setAux cfg aux) alg key kid := by
  obtain ⟨pp, k, hs⟩ := sign_ctx (cfg := cfg) (C := C) (me := me) (det := false) (payload := w)
    (aad := .nil) (out := out)
  rw [show (sign1Sign cfg C me w out).2.1 = _ from hs]
  unfold SignCtx.setAux
  split <;> exact ⟨h.alg, h.key, h.kid, h.flags, h.ctNum, h.ctText⟩

/-- What the size query says about the auxiliary buffer. -/
theorem query_aux (hk : KeyWorks cfg C D (-8) key n) (cap : Nat) (hcap : 1000 ≤ cap) :
    (sign1Sign cfg C ((SignCtx.init 0 (-8)).setKey key .nil) (.data payloadText)
      (.null cap)).2.1.auxiliaryBufferSize cfg = 25 := by
  have hq := real_query hk cap hcap
  have hset := setKey_setUp (-8) key .nil
  have := C30_sign_exact cfg C _ false (.data payloadText) .nil payloadText (.null cap) rfl
      (.inl rfl) rfl hset.sc (fun _ => rfl) _ hq
  refine Eq.trans this ?_
  exact (size_numbers hk.enabled (kid := .nil) (.inl rfl)).2.2.2.2 rfl

/-- Decoding an EdDSA message, without a key. -/
theorem real_decode (junk : Junk) (hD : Hashes 4294967295 cfg C D (-8)) (hE : cfg.disableEDDSA = false)
    {w s : Bytes} (hw : w.length ≤ 1000) (hl : (lead (-8) none w).length ≤ 1000) (hs : s.length ≤ 256)
    (wp : Bool) (hlen : (sigStructure (protectedHeader (-8)) [] w).length ≤ 18446744073709551615) :
    (verifyInternal cfg QParams.std C junk (VerifyCtx.init (2 ^ optDecodeOnly))
      (lead (-8) none w ++ (Item.bstr s).enc) .nil (.inline wp) false).res = .ok () ∧
    (verifyInternal cfg QParams.std C junk (VerifyCtx.init (2 ^ optDecodeOnly))
      (lead (-8) none w ++ (Item.bstr s).enc) .nil (.inline wp) false).ctx.auxiliaryBufferSize cfg =
      (sigStructure (protectedHeader (-8)) [] w).length := by
  have he : (-8 : Int) = -7 ∨ (-8 : Int) = -35 ∨ (-8 : Int) = -36 ∨ (-8 : Int) = -37 ∨
    (-8 : Int) = -38 ∨ (-8 : Int) = -39 ∨ (-8 : Int) = -8 := by decide
  obtain ⟨henc, hfits⟩ := real_encoded he (kid := none) (w := w) (s := s) hl hs
  obtain ⟨hp1, hp2⟩ := real_plain (-8) none w s
  obtain ⟨k, k1, k2, k3, k4⟩ := real_read he (.inl rfl) w s cfg.disableContentType
  have hargs : ArgsOk .nil (.inline wp) := ⟨rfl, fun p hp => by cases hp⟩
  have hok : ∀ want, (verifyInternal cfg QParams.std C junk (VerifyCtx.init (2 ^ optDecodeOnly))
      (lead (-8) none w ++ (Item.bstr s).enc) .nil (.inline wp) want).res = .ok () := by
    intro want
    rw [C65_verdict cfg QParams.std C D junk (VerifyCtx.init (2 ^ optDecodeOnly))
      (signedMessage true (-8) none .none (some w) s)
      (protectedHeader (-8)) (lead (-8) none w ++ (Item.bstr s).enc) .nil (.inline wp) want (by decide)
      henc hfits hp1 hp2 hargs (N := 4294967295)
      ⟨by decide, by decide, by decide, by show w.length ≤ _; omega⟩
      (by
        intro k' ha hk' hh
        rw [k1] at hk'
        cases hk'
        rw [k3] at hh
        exact (hD ha hh).1)]
    unfold verdict
    rw [if_neg (fun h => h ⟨fun h => absurd h (by decide), fun h => absurd h (by decide)⟩), k1]
    show settle cfg C _ k _ (sigStructure (protectedHeader (-8)) [] w) s = _
    unfold settle
    rw [if_neg (fun h => absurd h.1 (by decide)), if_neg (fun h => k4 h.2),
      if_neg (by rintro ⟨-, h⟩; rw [k2] at h; cases h)]
    refine Eq.trans (if_pos ⟨hE, k3⟩) ?_
    rw [if_neg (by show ¬ 18446744073709551615 < _; omega)]
    rfl
  refine ⟨hok false, ?_⟩
  obtain ⟨v, x, me', ub, hacc, heq⟩ := verify_ok (by decide) (hok true)
  obtain ⟨v', x', me'', ub', hacc', heq'⟩ := verify_ok (by decide) (hok false)
  obtain ⟨k', k1', hpar, -⟩ := C65_returned cfg QParams.std C junk (VerifyCtx.init (2 ^ optDecodeOnly))
    (signedMessage true (-8) none .none (some w) s) (protectedHeader (-8))
    (lead (-8) none w ++ (Item.bstr s).enc) .nil (.inline wp) true (by decide) henc hfits hp1 hp2 hargs
    (hok true)
  rw [k1] at k1'
  cases k1'
  obtain ⟨p, hp, p1, p2, -⟩ := hpar rfl
  rw [heq] at hp
  simp only [if_true, Option.some.injEq] at hp
  subst hp
  rw [k3] at p1
  rw [k2] at p2
  have hview := hacc'.view.unique hacc.view
  subst hview
  obtain ⟨v2, hview2, -, hprot, -, -, hpay, hpt, -, -⟩ := message_view henc hfits
  have := hacc.view.unique hview2
  subst this
  have hed : ForEddsa cfg v' := by
    refine ⟨(isEddsa_iff hacc.decodes).mp ?_, fun h => ?_⟩
    · exact ⟨hE, p1⟩
    · have := (isShortCircuit_iff hacc.decodes).mpr h
      have hn : x.params.kid = none := by
        cases hx : x.params.kid with
        | none => rfl
        | some k => rw [hx] at p2; cases p2
      have h2 := this.2
      rw [hn] at h2
      revert h2
      decide
  rw [C30_verify_exact cfg QParams.std C junk _ _ .nil (.inline wp) false (by decide) hargs v' hacc.view
    hed w ?_ (hok false), hprot]
  · rfl
  · obtain ⟨off, ho⟩ : ∃ off, v'.payload = .bstr ⟨off, w⟩ := hpay
    exact ⟨_, ho, hpt, rfl⟩

end TCose
