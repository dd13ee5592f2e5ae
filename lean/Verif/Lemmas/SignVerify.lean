import Verif.TestCode.SignVerify
import Verif.Props.SuiteMore
import Verif.Props.Fresh
import Verif.Props.TwoStep

/-! Helper lemmas for C74: signing and verifying with an adapter. -/

namespace TCose
open Spec TestMsg Props SuiteTest SignVerifyTest

/-- Signing `t` with an adapter and a digest: EdDSA signs `t` itself, the other algorithms its
hash. -/
def adapterSign (cfg : Config) (C : Crypto) (D : Int → Bytes → Bytes) (alg : Int) (key : Key)
    (t : Bytes) (n : Nat) : Except Err Bytes :=
  if alg = -8 then C.signEddsa key t n
  else match hashFor cfg alg with
    | none => .error .unsupportedSigningAlg
    | some ha => C.sign alg key (D ha t) n

/-- Verifying with an adapter and a digest. -/
def adapterVerify (cfg : Config) (C : Crypto) (D : Int → Bytes → Bytes) (alg : Int) (key : Key)
    (kid : Option Bytes) (t s : Bytes) : Except Err Unit :=
  if cfg.disableEDDSA = false ∧ alg = -8 then C.verifyEddsa key kid t s
  else match hashFor cfg alg with
    | none => .error .unsupportedSigningAlg
    | some ha => C.verify alg key kid (D ha t) s

/-- The adapter works with a key: the algorithm is in the build, hashing works, signatures
have `n` octets and are verified with the same key. -/
structure KeyWorks (cfg : Config) (C : Crypto) (D : Int → Bytes → Bytes) (alg : Int) (key : Key)
    (n : Nat) : Prop where
  enabled : algEnabled cfg alg
  hashes : Hashes 4294967295 cfg C D alg
  size : C.sigSize alg key = .ok n
  small : n ≤ 256
  signs : ∀ t k, n ≤ k → ∃ s, adapterSign cfg C D alg key t k = .ok s ∧ s.length = n ∧
    ∀ kid, adapterVerify cfg C D alg key kid t s = .ok ()

/-- A signing context without options and content type. -/
structure SetUp (me : SignCtx) (alg : Int) (key : Key) (kid : UB) : Prop where
  alg : me.alg = alg
  key : me.key = key
  kid : me.kid = kid
  flags : me.flags = 0
  ctNum : me.contentTypeUint = noContentType
  ctText : me.contentTypeTstr = none

/-- The auxiliary buffer is there and has room for `n` octets if the algorithm needs one. -/
def AuxFor (alg : Int) (aux : Mem) (n : Nat) : Prop :=
  alg = -8 → n ≤ aux.cap ∧ aux.isNull = false

/-- A message up to the head of the signature. -/
def lead (alg : Int) (kid : Option Bytes) (w : Bytes) : Bytes :=
  Spec.head 6 18 ++ (Spec.head 4 4 ++ ((Item.bstr (protectedHeader alg)).enc ++
    ((unprotectedHeader kid .none).enc ++ (Item.bstr w).enc)))

theorem coseSign1_lead (alg : Int) (kid : Option Bytes) (w s : Bytes) :
    (coseSign1 true alg kid .none (some w) s).enc = lead alg kid w ++ (Item.bstr s).enc := by
  unfold coseSign1 lead
  simp [Item.enc, encList]

theorem bstr_len (s : Bytes) : (Item.bstr s).enc.length = (Spec.head 2 s.length).length + s.length := by
  simp [Item.enc]

theorem head_small {n : Nat} (h : n ≤ 256) : (Spec.head 2 n).length ≤ 3 := by
  unfold Spec.head
  split
  · simp
  split
  · simp [Spec.netOrder]
  split
  · simp [Spec.netOrder]
  · omega

theorem lead_pos (alg : Int) (kid : Option Bytes) (w : Bytes) : 1 ≤ (lead alg kid w).length := by
  have : (Spec.head 4 4).length = 1 := by decide
  simp only [lead, List.length_append, this]
  omega

/-- The algorithms of COSE in t_cose. -/
theorem enabled_cases {cfg : Config} {alg : Int} (h : algEnabled cfg alg) :
    alg = -7 ∨ alg = -35 ∨ alg = -36 ∨ alg = -37 ∨ alg = -38 ∨ alg = -39 ∨ alg = -8 := by
  unfold algEnabled at h
  omega

variable {cfg : Config} {C : Crypto} {D : Int → Bytes → Bytes} {alg : Int} {key : Key} {n : Nat}
  {me : SignCtx} {kid : UB}

theorem SetUp.ct (h : SetUp me alg key kid) : specCt cfg me = .none := by
  unfold specCt
  rw [h.ctNum, h.ctText]
  split <;> simp

theorem SetUp.sc (h : SetUp me alg key kid) : Spec.Opt.shortCircuit me.flags = false := by
  rw [h.flags]; decide

theorem SetUp.finished (h : SetUp me alg key kid) (w s : Bytes) :
    finished cfg me false w s = lead alg (specKid me) w ++ (Item.bstr s).enc := by
  unfold Props.finished
  rw [h.ct, h.alg, h.flags]
  exact coseSign1_lead alg (specKid me) w s

theorem SetUp.begun (h : SetUp me alg key kid) (w : Bytes) :
    begun cfg me false w = (lead alg (specKid me) w).length - 1 := by
  unfold Props.begun
  rw [h.finished, List.length_append]
  have : (Item.bstr []).enc.length = 1 := by decide
  rw [this]
  omega

theorem SetUp.fault (h : SetUp me alg key kid) (he : algEnabled cfg alg) : ctxFault cfg me = none := by
  unfold ctxFault
  rw [if_neg, if_neg, if_neg]
  · intro hh; exact hh.2.1 h.ctNum
  · intro hh; rw [h.sc] at hh; cases hh.1
  · intro hh; exact hh (by rw [h.alg]; exact he)

theorem SetUp.makeSig (h : SetUp me alg key kid) (w a : Bytes)
    (hx : AuxFor alg me.aux (sigStructure (protectedHeader alg) a w).length) (k : Nat) :
    makeSig C me w a (toBeSignedHash cfg D me w a) k =
      adapterSign cfg C D alg key (sigStructure (protectedHeader alg) a w) k := by
  unfold Props.makeSig adapterSign toBeSignedHash toBeSigned
  rw [if_neg (by rw [h.sc]; simp), h.alg, h.key]
  by_cases h8 : alg = -8
  · obtain ⟨h1, h2⟩ := hx h8
    rw [if_pos h8, if_pos h8, if_neg (by omega), if_neg (by rw [h2]; simp)]
  · rw [if_neg h8, if_neg h8]
    cases hashFor cfg alg <;> rfl

/-- Signing in one call. -/
theorem real_sign (hfit : SignFits C) (h : SetUp me alg key kid) (hk : KeyWorks cfg C D alg key n)
    (w : Bytes) (hw : w.length ≤ 1000)
    (hx : AuxFor alg me.aux (sigStructure (protectedHeader alg) [] w).length) (m : Bytes)
    (hlen : (lead alg (specKid me) w).length + 3 + n ≤ m.length)
    (hl : (lead alg (specKid me) w).length ≤ 1000) :
    ∃ s, s.length = n ∧
      (∀ kid, adapterVerify cfg C D alg key kid (sigStructure (protectedHeader alg) [] w) s = .ok ()) ∧
      (sign1Sign cfg C me (.data w) (.buf m)).1 =
        .ok (.data (lead alg (specKid me) w ++ (Item.bstr s).enc)) := by
  have hpos := lead_pos alg (specKid me) w
  have hp4 : (protectedHeader alg).length ≤ 1000 := by
    rcases enabled_cases hk.enabled with h | h | h | h | h | h | h <;> subst h <;> decide
  obtain ⟨s, h1, h2, h3⟩ := hk.signs (sigStructure (protectedHeader alg) [] w)
    (m.length - begun cfg me false w) (by rw [h.begun]; omega)
  have hh := head_small (n := s.length) (by rw [h2]; exact hk.small)
  refine ⟨s, h2, h3, ?_⟩
  have := C67_sign (N := 4294967295) cfg C D me false (.data w) .nil hfit (by rw [h.alg]; exact hk.hashes)
    m rfl rfl
    (by
      rw [h.alg]
      exact ⟨by decide, by omega, by decide, by show w.length ≤ _; omega⟩)
    (fun _ => rfl) (by rw [h.begun]; show (lead alg (specKid me) w).length - 1 < _; omega)
  refine Eq.trans this ?_
  rw [show (UB.data w).bytes = w from rfl, show UB.nil.bytes = [] from rfl]
  unfold outcome
  rw [h.fault hk.enabled]
  simp only
  rw [if_neg (by rw [h.begun]; omega), if_neg (by rw [h.begun]; omega), h.makeSig w [] hx, h1]
  simp only
  rw [h.finished, if_neg]
  · rfl
  · rw [List.length_append, bstr_len]
    omega

/-- Signing in two steps. -/
theorem real_two_step (hfit : SignFits C) (h : SetUp me alg key kid) (hk : KeyWorks cfg C D alg key n)
    (cs : List Content) (m : Bytes) (hd : fitsAll cs 13 = true) (hn : cs.length ≤ 1000)
    (hw : (encAll cs).length ≤ 1000) (hkid : kid.bytes.length ≤ 1000)
    (hx : AuxFor alg me.aux (sigStructure (protectedHeader alg) [] (encAll cs)).length)
    (hlen : (lead alg (specKid me) (encAll cs)).length + 3 + n ≤ m.length) :
    ∃ s, s.length = n ∧
      (∀ kid, adapterVerify cfg C D alg key kid (sigStructure (protectedHeader alg) [] (encAll cs)) s =
        .ok ()) ∧
      makeTwoStep cfg C me [] cs m =
        .ok (lead alg (specKid me) (encAll cs) ++ (Item.bstr s).enc) := by
  have hpos := lead_pos alg (specKid me) (encAll cs)
  have hp4 : (protectedHeader alg).length ≤ 1000 := by
    rcases enabled_cases hk.enabled with h | h | h | h | h | h | h <;> subst h <;> decide
  obtain ⟨s, k1, k2, k3⟩ := hk.signs (sigStructure (protectedHeader alg) [] (encAll cs))
    (m.length - (0 + begun cfg me false (encAll cs))) (by rw [h.begun]; omega)
  have hh := head_small (n := s.length) (by rw [k2]; exact hk.small)
  refine ⟨s, k2, k3, ?_⟩
  have hT := C71_tagged (N := 4294967295) cfg C D me hfit (by rw [h.alg]; exact hk.hashes)
    [] m cs .nil rfl (by rw [h.alg]; exact ⟨by decide, by omega, by decide, by omega⟩) (by simp) hd
    (by omega) (by rw [h.kid, h.ctText]; simp; omega)
  rw [h.fault hk.enabled] at hT
  simp only [List.map_nil, List.flatten_nil, List.nil_append, List.length_nil] at hT
  obtain ⟨me1, e1, h1, h2⟩ := hT
  rw [show UB.nil.bytes = [] from rfl] at h2
  rw [show secondCall cfg C me (encAll cs) [] _ 0 m.length = .ok s from by
      unfold secondCall
      rw [if_neg (by rw [h.begun]; omega), if_neg (by rw [h.begun]; omega), h.makeSig _ [] hx, k1]] at h2
  simp only at h2
  obtain ⟨me2, e2, h3, h4⟩ := h2
  rw [h.finished, if_neg (by rw [List.length_append, bstr_len]; omega)] at h4
  unfold makeTwoStep
  simp only [List.foldl_nil]
  rw [show sign1EncodeParameters cfg me (Enc.init (.buf m)) = _ from h1]
  simp only
  rw [show sign1EncodeSignature cfg C me1 (runAll cs e1) = _ from h3]
  simp only
  unfold callerFinish at h4
  cases hfin : e2.finish with
  | error x =>
    rw [hfin] at h4
    split at h4 <;> cases h4
  | ok r =>
    rw [hfin] at h4
    split at h4 <;> first
      | (cases h4; done)
      | (cases h4; rfl)

/-- Reading the headers of the messages of the tests. -/
theorem real_read (he : alg = -7 ∨ alg = -35 ∨ alg = -36 ∨ alg = -37 ∨ alg = -38 ∨ alg = -39 ∨ alg = -8)
    {kid : Option Bytes} (hkid : kid = none ∨ kid = some cwtKid) (w s : Bytes) (noCt : Bool) :
    ∃ k, (signedMessage true alg kid .none (some w) s).read noCt = .ok k ∧ k.kid = kid ∧ k.alg = alg ∧
      ¬ k.blocked := by
  refine ⟨⟨alg, kid, none, none, none, none, [], [], [], []⟩, ?_, rfl, rfl, ?_⟩
  · show Message.read noCt (signedMessage true alg kid .none none []) = _
    rcases he with h | h | h | h | h | h | h <;> subst h <;> rcases hkid with h | h <;> subst h <;>
      cases noCt <;> decide +kernel
  · rcases he with h | h | h | h | h | h | h <;> subst h <;> rcases hkid with h | h <;> subst h <;>
      decide

theorem real_plain (alg : Int) (kid : Option Bytes) (w s : Bytes) :
    Header.Plain (signedMessage true alg kid .none (some w) s).prot ∧
    Header.Plain (signedMessage true alg kid .none (some w) s).unprot := by
  refine ⟨plainB_ok ?_, plainB_ok ?_⟩
  · show plainB [(.int 1, Spec.int alg)] = true
    unfold Spec.int
    split <;> rfl
  · show plainB (signedUnprot kid .none) = true
    cases kid <;> rfl

theorem real_encoded (he : alg = -7 ∨ alg = -35 ∨ alg = -36 ∨ alg = -37 ∨ alg = -38 ∨ alg = -39 ∨ alg = -8)
    {kid : Option Bytes} {w s : Bytes} (hl : (lead alg kid w).length ≤ 1000) (hs : s.length ≤ 256) :
    (signedMessage true alg kid .none (some w) s).Encoded (protectedHeader alg)
      (lead alg kid w ++ (Item.bstr s).enc) ∧
    (signedMessage true alg kid .none (some w) s).Fits QParams.std
      (lead alg kid w ++ (Item.bstr s).enc) := by
  have hh := head_small hs
  have hi : InInt64 alg := by
    unfold InInt64
    omega
  have hlen : (lead alg kid w ++ (Item.bstr s).enc).length ≤ 2000 := by
    rw [List.length_append, bstr_len]; omega
  refine ⟨?_, signed_fits hi (by unfold maxDecodeInput; omega) (by decide)⟩
  rw [← coseSign1_lead] at hlen ⊢
  exact signed_encoded hi (by omega) (by simp)

/-- Verifying a message like the ones the tests make. -/
theorem real_verify (junk : Junk) (hD : Hashes 4294967295 cfg C D alg)
    (he : alg = -7 ∨ alg = -35 ∨ alg = -36 ∨ alg = -37 ∨ alg = -38 ∨ alg = -39 ∨ alg = -8)
    {kid : Option Bytes} (hkid : kid = none ∨ kid = some cwtKid) {w s : Bytes} (hw : w.length ≤ 1000)
    (hl : (lead alg kid w).length ≤ 1000) (hs : s.length ≤ 256) {vm : VerifyCtx} (hf : vm.flags = 0)
    (want wp : Bool) :
    (cfg.disableEDDSA = false → AuxFor alg vm.aux (sigStructure (protectedHeader alg) [] w).length →
      (verifyInternal cfg QParams.std C junk vm (lead alg kid w ++ (Item.bstr s).enc) .nil (.inline wp)
        want).res = adapterVerify cfg C D alg vm.key kid (sigStructure (protectedHeader alg) [] w) s) ∧
    (cfg.disableEDDSA = true →
      (verifyInternal cfg QParams.std C junk vm (lead alg kid w ++ (Item.bstr s).enc) .nil (.inline wp)
        want).res = adapterVerify cfg C D alg vm.key kid (sigStructure (protectedHeader alg) [] w) s) ∧
    (cfg.disableEDDSA = false → alg = -8 →
      (vm.aux.cap < (sigStructure (protectedHeader alg) [] w).length →
        (verifyInternal cfg QParams.std C junk vm (lead alg kid w ++ (Item.bstr s).enc) .nil (.inline wp)
          want).res = .error .auxiliaryBufferSize) ∧
      ((sigStructure (protectedHeader alg) [] w).length ≤ vm.aux.cap → vm.aux.isNull = true →
        (verifyInternal cfg QParams.std C junk vm (lead alg kid w ++ (Item.bstr s).enc) .nil (.inline wp)
          want).res = .error .needAuxiliaryBuffer)) ∧
    ((verifyInternal cfg QParams.std C junk vm (lead alg kid w ++ (Item.bstr s).enc) .nil (.inline true)
      want).res = .ok () →
      (verifyInternal cfg QParams.std C junk vm (lead alg kid w ++ (Item.bstr s).enc) .nil (.inline true)
        want).payload.map (·.ub.bytes) = some w) := by
  obtain ⟨henc, hfits⟩ := real_encoded he (kid := kid) (w := w) (s := s) hl hs
  obtain ⟨hp1, hp2⟩ := real_plain alg kid w s
  obtain ⟨k, k1, k2, k3, k4⟩ := real_read he hkid w s cfg.disableContentType
  have hp4 : (protectedHeader alg).length ≤ 1000 := by
    rcases he with h | h | h | h | h | h | h <;> subst h <;> decide
  have hpol : TagPolicy vm.flags (signedMessage true alg kid .none (some w) s).tags.reverse := by
    rw [hf]
    exact ⟨fun h => absurd h (by decide), fun h => absurd h (by decide)⟩
  have hargs : ∀ b, ArgsOk .nil (.inline b) := fun b => ⟨rfl, fun p hp => by cases hp⟩
  have hres : (verifyInternal cfg QParams.std C junk vm (lead alg kid w ++ (Item.bstr s).enc) .nil
      (.inline wp) want).res = settle cfg C vm k
        (digestOf cfg D (sigStructure (protectedHeader alg) [] w))
        (sigStructure (protectedHeader alg) [] w) s := by
    have := C65_verdict cfg QParams.std C D junk vm (signedMessage true alg kid .none (some w) s)
      (protectedHeader alg) (lead alg kid w ++ (Item.bstr s).enc) .nil (.inline wp) want (by decide) henc
      hfits hp1 hp2 (hargs wp) (N := 4294967295)
      ⟨by decide, by omega, by decide, by show w.length ≤ _; omega⟩
      (by
        intro k' ha hk' hh
        rw [k1] at hk'
        cases hk'
        rw [k3] at hh
        exact (hD ha hh).1)
    rw [this]
    unfold verdict
    rw [if_neg (fun h => h hpol), k1]
    rfl
  have hsc : ¬ (cfg.disableShortCircuit = false ∧ k.kid = some scKid) := by
    rintro ⟨-, h⟩
    rw [k2] at h
    rcases hkid with h' | h' <;> subst h' <;> revert h <;> decide
  have hset : settle cfg C vm k (digestOf cfg D (sigStructure (protectedHeader alg) [] w))
      (sigStructure (protectedHeader alg) [] w) s =
      (if cfg.disableEDDSA = false ∧ alg = -8 then
        if vm.aux.cap < (sigStructure (protectedHeader alg) [] w).length then .error .auxiliaryBufferSize
        else if vm.aux.isNull = true then .error .needAuxiliaryBuffer
        else adapterVerify cfg C D alg vm.key kid (sigStructure (protectedHeader alg) [] w) s
      else adapterVerify cfg C D alg vm.key kid (sigStructure (protectedHeader alg) [] w) s) := by
    unfold settle
    rw [if_neg (by rw [hf]; rintro ⟨h, -⟩; revert h; decide), if_neg (fun h => k4 h.2), if_neg hsc]
    have hdo : ¬ Opt.decodeOnly vm.flags = true := by rw [hf]; decide
    rw [k3, k2]
    by_cases h8 : cfg.disableEDDSA = false ∧ alg = -8
    · rw [if_pos h8]
      refine Eq.trans (if_pos h8) ?_
      rw [if_neg hdo]
      unfold adapterVerify
      rw [if_pos h8]
    · rw [if_neg h8]
      refine Eq.trans (if_neg h8) ?_
      rw [if_neg hdo]
      unfold adapterVerify digestOf
      rw [if_neg h8]
      cases hashFor cfg alg <;> rfl
  rw [hset] at hres
  refine ⟨fun h0 hx => ?_, fun h0 => ?_, fun h0 h8 => ⟨fun hc => ?_, fun hc hn => ?_⟩, fun hok => ?_⟩
  · rw [hres]
    by_cases h8 : cfg.disableEDDSA = false ∧ alg = -8
    · obtain ⟨x1, x2⟩ := hx h8.2
      rw [if_pos h8, if_neg (by omega), if_neg (by rw [x2]; simp)]
    · rw [if_neg h8]
  · rw [hres, if_neg (by rw [h0]; simp)]
  · rw [hres, if_pos ⟨h0, h8⟩, if_pos hc]
  · rw [hres, if_pos ⟨h0, h8⟩, if_neg (by omega), if_pos hn]
  · obtain ⟨-, -, -, h3⟩ := C65_returned cfg QParams.std C junk vm
      (signedMessage true alg kid .none (some w) s) (protectedHeader alg)
      (lead alg kid w ++ (Item.bstr s).enc) .nil (.inline true) want (by decide) henc
      hfits hp1 hp2 (hargs true) hok
    obtain ⟨b, h4, h5⟩ := h3 rfl
    rw [h4]
    exact h5.symm

/-- Verifying when the auxiliary buffer is set up. -/
theorem real_check (junk : Junk) (hD : Hashes 4294967295 cfg C D alg)
    (he : alg = -7 ∨ alg = -35 ∨ alg = -36 ∨ alg = -37 ∨ alg = -38 ∨ alg = -39 ∨ alg = -8)
    {kid : Option Bytes} (hkid : kid = none ∨ kid = some cwtKid) {w s : Bytes} (hw : w.length ≤ 1000)
    (hl : (lead alg kid w).length ≤ 1000) (hs : s.length ≤ 256) {vm : VerifyCtx} (hf : vm.flags = 0)
    (hx : cfg.disableEDDSA = false → AuxFor alg vm.aux (sigStructure (protectedHeader alg) [] w).length)
    (want wp : Bool) :
    (verifyInternal cfg QParams.std C junk vm (lead alg kid w ++ (Item.bstr s).enc) .nil (.inline wp)
      want).res = adapterVerify cfg C D alg vm.key kid (sigStructure (protectedHeader alg) [] w) s := by
  obtain ⟨h1, h2, -, -⟩ := real_verify junk hD he hkid hw hl hs hf want wp
  cases h : cfg.disableEDDSA with
  | false => exact h1 h (hx h)
  | true => exact h2 h

/-! ### The contexts of the tests -/

theorem signWith_setUp (cfg : Config) (alg : Int) (key : Key) (kid : UB) (aux : Bytes) :
    SetUp (signWith cfg alg key kid aux) alg key kid := by
  unfold signWith SignCtx.setAux
  split <;> exact ⟨rfl, rfl, rfl, rfl, rfl, rfl⟩

theorem setKey_setUp (alg : Int) (key : Key) (kid : UB) :
    SetUp ((SignCtx.init 0 alg).setKey key kid) alg key kid := ⟨rfl, rfl, rfl, rfl, rfl, rfl⟩

theorem signWith_aux (hE : cfg.disableEDDSA = false) (aux : Bytes) :
    (signWith cfg alg key kid aux).aux = .buf aux := by
  unfold signWith SignCtx.setAux
  simp [hE]

theorem verifyWith_aux (hE : cfg.disableEDDSA = false) (aux : Bytes) :
    (verifyWith cfg key aux).aux = .buf aux := by
  unfold verifyWith VerifyCtx.setAux
  simp [hE]

theorem verifyWith_flags (aux : Bytes) : (verifyWith cfg key aux).flags = 0 := by
  unfold verifyWith VerifyCtx.setAux
  split <;> rfl

theorem verifyWith_key (aux : Bytes) : (verifyWith cfg key aux).key = key := by
  unfold verifyWith VerifyCtx.setAux
  split <;> rfl

theorem enabled_eddsa (he : algEnabled cfg alg) (h8 : alg = -8) : cfg.disableEDDSA = false := by
  subst h8
  cases h : cfg.disableEDDSA
  · rfl
  · simp [algEnabled, h] at he

end TCose
