import Verif.Lemmas.TwoStep
import Verif.Crypto.Toy

/-!
# Signing: C05, C06, C07, C08, C09, C32, C33, C34, C35, C43, C44

`signAadInternal` is the function behind all one-call signing functions:
`t_cose_sign1_sign` is `det = false`, no aad; `t_cose_sign1_sign_detached` is
`det = true`; `t_cose_sign1_sign_aad` is `det = false` (with swapped
arguments, see C05).

Vocabulary: `UB.wf u` says `u` is not "NULL with a non-zero length".
`specKid me` and `specCt cfg me` are the key id and content type configured in
the context; `SigFor C D me tbs sig` says `sig` is what the adapter's signing
function returned for the (digest `D` of the) octets `tbs`, or the
short-circuit signature of that digest.
-/

namespace TCose.Props
open TCose

/-! ## C07 -/

/-- **C07.** Whenever a one-call signing function succeeds with a real output
buffer, the result is exactly the RFC 8152 encoding of the message, carrying a
signature over the Sig_structure of the protected header, the aad and the
payload. -/
theorem C07_output (cfg : Config) (C : Crypto) (D : Int → Bytes → Bytes) (hD : Spec.StreamHash C D)
    (hfit : Spec.SignFits C) (me me' : SignCtx) (det : Bool) (payload aad : UB)
    (hp : payload.wf) (ha : aad.wf) (m : Bytes) (r : UB) (e' : Enc)
    (h : signAadInternal cfg C me det payload aad (.buf m) = (.ok r, me', e')) :
    ∃ sig,
      r = .data (Spec.coseSign1 (!Spec.Opt.omitTag me.flags) me.alg (specKid me) (specCt cfg me)
          (if det then none else some payload.bytes) sig).enc ∧
      SigFor C D me (Spec.sigStructure (Spec.protectedHeader me.alg) aad.bytes payload.bytes) sig := by
  obtain ⟨_, sig, h1, _, _, _, h2⟩ := sign_buf_ok hD hfit hp ha h
  exact ⟨sig, h1, h2⟩

/-- **C07 for `t_cose_sign1_sign`.** -/
theorem C07_sign (cfg : Config) (C : Crypto) (D : Int → Bytes → Bytes) (hD : Spec.StreamHash C D)
    (hfit : Spec.SignFits C) (me me' : SignCtx) (payload : Bytes) (m : Bytes) (r : UB) (e' : Enc)
    (h : sign1Sign cfg C me (.data payload) (.buf m) = (.ok r, me', e')) :
    ∃ sig,
      r = .data (Spec.coseSign1 (!Spec.Opt.omitTag me.flags) me.alg (specKid me) (specCt cfg me)
          (some payload) sig).enc ∧
      SigFor C D me (Spec.sigStructure (Spec.protectedHeader me.alg) [] payload) sig :=
  C07_output cfg C D hD hfit me me' false (.data payload) .nil rfl rfl m r e' h

/-- **C07 for `t_cose_sign1_sign_detached`.** -/
theorem C07_sign_detached (cfg : Config) (C : Crypto) (D : Int → Bytes → Bytes)
    (hD : Spec.StreamHash C D) (hfit : Spec.SignFits C) (me me' : SignCtx) (payload aad : Bytes)
    (m : Bytes) (r : UB) (e' : Enc)
    (h : sign1SignDetached cfg C me (.data aad) (.data payload) (.buf m) = (.ok r, me', e')) :
    ∃ sig,
      r = .data (Spec.coseSign1 (!Spec.Opt.omitTag me.flags) me.alg (specKid me) (specCt cfg me)
          none sig).enc ∧
      SigFor C D me (Spec.sigStructure (Spec.protectedHeader me.alg) aad payload) sig :=
  C07_output cfg C D hD hfit me me' true (.data payload) (.data aad) rfl rfl m r e' h

/-- A context with a kid and a text content type. -/
def exCtx : SignCtx :=
  ((SignCtx.init 0 algES256).setKey { lib := .openssl, k := 1 } (.data [0x6b, 0x69, 0x64])).setContentTypeTstr
    (some [0x61, 0x2f, 0x62])

example : (sign1Sign Config.full toyCrypto exCtx (.data [1, 2, 3]) (.buf (List.replicate 200 0))).1
    = .ok (.data (Spec.coseSign1 true algES256 (some [0x6b, 0x69, 0x64]) (.text [0x61, 0x2f, 0x62])
        (some [1, 2, 3])
        (toySig (toyDigest algSHA256 (Spec.sigStructure (Spec.protectedHeader algES256) [] [1, 2, 3])))).enc) := by
  decide +kernel

/-! ## C05 -/

/-- The full claim of C05: `sign_aad(aad, payload)` puts `payload` in the message. -/
def C05_claim : Prop :=
  ∀ (cfg : Config) (C : Crypto) (D : Int → Bytes → Bytes), Spec.StreamHash C D → Spec.SignFits C →
    ∀ (me me' : SignCtx) (aad payload m : Bytes) (r : UB) (e' : Enc),
      sign1SignAad cfg C me (.data aad) (.data payload) (.buf m) = (.ok r, me', e') →
      ∃ sig,
        r = .data (Spec.coseSign1 (!Spec.Opt.omitTag me.flags) me.alg (specKid me) (specCt cfg me)
            (some payload) sig).enc ∧
        SigFor C D me (Spec.sigStructure (Spec.protectedHeader me.alg) aad payload) sig

/-- **C05 is false of the code, for every input**: a successful `sign_aad(aad,
payload)` embeds the *aad* in the message and covers the *payload* as external
data. -/
theorem C05_violated_swapped (cfg : Config) (C : Crypto) (D : Int → Bytes → Bytes)
    (hD : Spec.StreamHash C D) (hfit : Spec.SignFits C) (me me' : SignCtx) (aad payload m : Bytes)
    (r : UB) (e' : Enc)
    (h : sign1SignAad cfg C me (.data aad) (.data payload) (.buf m) = (.ok r, me', e')) :
    ∃ sig,
      r = .data (Spec.coseSign1 (!Spec.Opt.omitTag me.flags) me.alg (specKid me) (specCt cfg me)
          (some aad) sig).enc ∧
      SigFor C D me (Spec.sigStructure (Spec.protectedHeader me.alg) payload aad) sig :=
  C07_output cfg C D hD hfit me me' false (.data aad) (.data payload) rfl rfl m r e' h

/-- The swap, run: aad `41` ends up in the message, payload `01 02 03` does not. -/
theorem C05_witness :
    (sign1SignAad Config.full toyCrypto (SignCtx.init 0 algES256) (.data [0x41]) (.data [1, 2, 3])
      (.buf (List.replicate 200 0))).1
    = .ok (.data (Spec.coseSign1 true algES256 none .none (some [0x41])
        (toySig (toyDigest algSHA256
          (Spec.sigStructure (Spec.protectedHeader algES256) [1, 2, 3] [0x41])))).enc) := by
  decide +kernel

theorem C05_claim_false : ¬ C05_claim := by
  intro h
  have hw := C05_witness
  cases hq : sign1SignAad Config.full toyCrypto (SignCtx.init 0 algES256) (.data [0x41])
      (.data [1, 2, 3]) (.buf (List.replicate 200 0)) with
  | mk r rest =>
    obtain ⟨me', e'⟩ := rest
    rw [hq] at hw
    simp only [] at hw
    subst hw
    obtain ⟨sig, h1, h2⟩ := h _ _ _ toy_streamHash toy_signFits _ _ _ _ _ _ _ hq
    injection h1 with h1
    have hs : sig.length = 64 := by
      have hnf : hasFlag (SignCtx.init 0 algES256).flags optShortCircuit = false := by decide
      have hne : (SignCtx.init 0 algES256).alg ≠ algEDDSA := by decide
      simp only [SigFor, hnf, Bool.false_eq_true, if_false, if_neg hne] at h2
      obtain ⟨ha, n, _, h2⟩ := h2
      have := toy_sigSizeExact.sign _ _ _ _ _ h2
      have hz : toyCrypto.sigSize (SignCtx.init 0 algES256).alg (SignCtx.init 0 algES256).key
          = .ok 64 := rfl
      have h64 := hz.symm.trans this
      exact (Except.ok.inj h64).symm
    have h2 := congrArg List.length h1
    have hl : ∀ (p s : Bytes), s.length = 64 → p.length ≤ 23 →
        (Spec.coseSign1 true algES256 none .none (some p) s).enc.length = 74 + p.length := by
      intro p s hs hp
      have e1 : (Spec.head 2 p.length).length = 1 := by simp [Spec.head, hp]
      have e2 : (Spec.head 2 64).length = 2 := by decide
      have e8 : Spec.encPairs [] = [] := rfl
      simp only [Spec.coseSign1, Spec.unprotectedHeader, Spec.Item.enc, Spec.encList,
        List.length_append, e1, hs, if_true]
      have e3 : (Spec.protectedHeader algES256).length = 3 := by decide
      have e4 : (Spec.head 6 18).length = 1 := by decide
      have e5 : (Spec.head 2 3).length = 1 := by decide
      have e6 : ∀ n, n ≤ 23 → (Spec.head 4 n).length = 1 := fun n hn => by simp [Spec.head, hn]
      have e7 : (Spec.head 5 0).length = 1 := by decide
      simp only [List.length_cons, List.length_nil, List.append_nil, e2, e3, e4, e5, e7, e8,
        e6 _ (show 0 + 1 + 1 + 1 + 1 ≤ 23 by decide)]
      omega
    have hh := hl [0x41] (toySig (toyDigest algSHA256
      (Spec.sigStructure (Spec.protectedHeader algES256) [1, 2, 3] [0x41]))) (toySig_length _) (by decide)
    rw [hh] at h2
    have hh' := hl [1, 2, 3] sig hs (by decide)
    have hk : specKid (SignCtx.init 0 algES256) = none := by decide
    have hc : specCt Config.full (SignCtx.init 0 algES256) = .none := by
      unfold specCt; rfl
    have ht : (!Spec.Opt.omitTag (SignCtx.init 0 algES256).flags) = true := by decide
    rw [hk, hc, ht] at h2
    have : (SignCtx.init 0 algES256).alg = algES256 := rfl
    rw [this, hh'] at h2
    simp at h2

/-- **C05_partial.** With equal aad and payload the documented behaviour holds.
Missing: everything else, see `C05_violated_swapped`. -/
theorem C05_equal_args_partial (cfg : Config) (C : Crypto) (D : Int → Bytes → Bytes)
    (hD : Spec.StreamHash C D) (hfit : Spec.SignFits C) (me me' : SignCtx) (payload m : Bytes)
    (r : UB) (e' : Enc)
    (h : sign1SignAad cfg C me (.data payload) (.data payload) (.buf m) = (.ok r, me', e')) :
    ∃ sig,
      r = .data (Spec.coseSign1 (!Spec.Opt.omitTag me.flags) me.alg (specKid me) (specCt cfg me)
          (some payload) sig).enc ∧
      SigFor C D me (Spec.sigStructure (Spec.protectedHeader me.alg) payload payload) sig :=
  C05_violated_swapped cfg C D hD hfit me me' payload payload m r e' h

/-! ## C08, C09 -/

/-- **C08/C09 (size query, then sign).** Suppose the size query (NULL output of
length `cap`) returned `n`. Then, for every real buffer: if it has at least `n`
octets the real call succeeds with exactly `n` octets, and if it is shorter the
real call fails. `SizeAssm` is: hashing does not fail, and the adapter signs when
given the room `sig_size` asked for. `AuxOk` concerns EdDSA only: no auxiliary
buffer in the query, a big enough one in the real call. -/
theorem C08_size_then_sign (cfg : Config) (C : Crypto) (hfit : Spec.SignFits C)
    (hexact : Spec.SigSizeExact C) (me : SignCtx) (hassm : Spec.SizeAssm cfg C me.alg me.key)
    (det : Bool) (payload aad : Bytes) (aux0 aux1 : Mem)
    (haux : AuxOk me (Spec.protectedHeader me.alg) aad payload aux0 aux1) (cap : Nat) (r0 : UB)
    (h : (signAadInternal cfg C { me with aux := aux0 } det (.data payload) (.data aad)
      (.null cap)).1 = .ok r0) :
    ∃ n, r0 = .null n ∧ ∀ m : Bytes,
      (n ≤ m.length → ∃ b, b.length = n ∧
        (signAadInternal cfg C { me with aux := aux1 } det (.data payload) (.data aad) (.buf m)).1
          = .ok (.data b)) ∧
      (m.length < n → ∃ x,
        (signAadInternal cfg C { me with aux := aux1 } det (.data payload) (.data aad) (.buf m)).1
          = .error x) := by
  have hpa : ∀ nul, PayArg det nul (.data payload) payload := by
    intro nul; unfold PayArg; cases det
    · exact Src.data _ _
    · rfl
  obtain ⟨hpre, hH, hcap, pp0, sig0, me0, ub0, hd0, hk0⟩ := sign_ok_elim (hpa _) h
  have hpre' : SignPre cfg me := ⟨hpre.alg, hpre.sc, hpre.ct⟩
  simp only [Mem.isNull, Mem.cap] at hd0 hk0 hcap
  have hpl : placeOf cap true (preSig cfg { me with aux := aux0 } det payload).length = .null := rfl
  rw [hpl] at hd0
  rw [protectedHeader_eq] at haux
  have hps : Src true (paySeen det true payload) payload := by
    cases det
    · exact .inr ⟨.inl rfl, rfl⟩
    · exact .inl rfl
  have agree := fun pp1 p1 a1 w1 h1 h2 h3 =>
    dispatch_size_agree (C := C) hpre' (p0 := seen true (protMap me.alg)) (a0 := .data aad)
      (w0 := paySeen det true payload) (p1 := p1) (a1 := a1) (w1 := w1) (aux0 := aux0) (aux1 := aux1)
      (pp0 := pp0) (pp1 := pp1) (prot := protMap me.alg) (aad := aad) (w := payload)
      (.inr ⟨.inl rfl, rfl⟩) (Src.data _ _) hps h1 h2 h3 hassm hexact haux
  have agree1 := fun pp1 => agree pp1 (.data (protMap me.alg)) (.data aad) (.data payload)
    (Src.data _ _) (Src.data _ _) (Src.data _ _)
  -- the query
  have hq : ∃ k m0, signDispatch cfg C { me with protectedParams := pp0, aux := aux0 }
      (seen true (protMap me.alg)) (.data aad) (paySeen det true payload) .null
        = (.ok (.null k), m0, false) ∧ ∀ pp1 n, (k ≤ n → ∃ s m1,
        signDispatch cfg C { me with protectedParams := pp1, aux := aux1 } (.data (protMap me.alg))
          (.data aad) (.data payload) (.room n) = (.ok (.data s), m1, false) ∧ s.length = k) ∧
        (∀ s m1 ub, signDispatch cfg C { me with protectedParams := pp1, aux := aux1 }
          (.data (protMap me.alg)) (.data aad) (.data payload) (.room n) = (.ok (.data s), m1, ub) →
          s.length = k) := by
    rcases agree1 pp0 with ⟨k, m0, h1, _⟩ | ⟨⟨x, m0, ub, h1⟩, _⟩
    · refine ⟨k, m0, h1, fun pp1 n => ?_⟩
      rcases agree1 pp1 with ⟨k', m0', h1', h2⟩ | ⟨⟨x, m0', ub, h1'⟩, _⟩
      · rw [h1] at h1'
        injection h1' with h1'
        injection h1' with h1'
        injection h1' with h1'
        subst h1'
        exact h2 n
      · rw [h1] at h1'; cases h1'
    · have := hd0.symm.trans h1
      cases this
  obtain ⟨k, m0, h1, h2⟩ := hq
  have h1' := hd0.symm.trans h1
  injection h1' with h1' h1''
  injection h1' with h1'
  injection h1'' with _ h1''
  subst h1'
  obtain ⟨hlt, hle, hr⟩ := hk0 (List.replicate k 0) (.inr ⟨by simp, .inl rfl⟩) h1''
  refine ⟨(msgBytes cfg me det payload (List.replicate k 0)).length, hr, fun m => ⟨fun hm => ?_, fun hm => ?_⟩⟩
  · -- enough room
    have hroom : k ≤ m.length - (preSig cfg me det payload).length ∧
        (preSig cfg me det payload).length < m.length := by
      have e1 : (msgBytes cfg me det payload (List.replicate k 0)).length
          = (preSig cfg me det payload).length + (encodeHead 4 4).length
            + ((encodeHead 2 k).length + k) := by
        simp only [msgBytes, preSig, bstrBytes, List.length_append, List.length_replicate]; omega
      have := encodeHead_length_pos 4 4
      omega
    have hplr : placeOf m.length false (preSig cfg me det payload).length
        = .room (m.length - (preSig cfg me det payload).length) := by
      unfold placeOf
      rw [if_neg (by simp), if_pos (by omega)]
    obtain ⟨s, m1, hs1, hs2⟩ := (h2 pp0 (m.length - (preSig cfg me det payload).length)).1 hroom.1
    have hindep : ∀ pp, ∃ m1, signDispatch cfg C { me with protectedParams := pp, aux := aux1 }
        (.data (protMap me.alg)) (.data aad) (.data payload)
        (.room (m.length - (preSig cfg me det payload).length)) = (.ok (.data s), m1, false) := by
      intro pp
      unfold signDispatch signShortCircuit signEddsa signDefault at hs1 ⊢
      simp only [] at hs1 ⊢
      split at hs1
      · rename_i hc; rw [if_pos hc]
        simp only [Prod.mk.injEq] at hs1
        exact ⟨_, by rw [hs1.1]⟩
      · rename_i hc; rw [if_neg hc]
        split at hs1
        · rename_i hc2; rw [if_pos hc2]
          split at hs1
          · cases hs1
          · cases hs1
          · rename_i tbs ub htbs
            split at hs1
            · cases hs1
            · rename_i hc3
              rw [if_neg hc3]
              simp only [Prod.mk.injEq] at hs1
              exact ⟨_, by rw [hs1.1, hs1.2.2]⟩
        · rename_i hc2; rw [if_neg hc2]
          simp only [Prod.mk.injEq] at hs1
          exact ⟨_, by rw [hs1.1]⟩
    refine ⟨msgBytes cfg me det payload s, msgBytes_length_congr (by simp [hs2]), ?_⟩
    have hps1 : paySeen det false payload = .data payload := by cases det <;> rfl
    refine sign_ok_intro (me := { me with aux := aux1 }) (out := .buf m) (sig := .data s)
      (me' := fun pp => Classical.choose (hindep pp)) ⟨hpre.alg, hpre.sc, hpre.ct⟩ (hpa _) hH hlt ?_ ?_ ?_
    · rw [show (msgBytes cfg { me with aux := aux1 } det payload s).length
          = (msgBytes cfg me det payload (List.replicate k 0)).length from
          msgBytes_length_congr (me := me) (by simp [hs2])]
      exact hm
    · intro pp
      have := Classical.choose_spec (hindep pp)
      simp only [Mem.isNull, Mem.cap, hps1]
      rw [show placeOf m.length false (preSig cfg { me with aux := aux1 } det payload).length
        = .room (m.length - (preSig cfg me det payload).length) from hplr]
      exact this
    · exact .inl ⟨rfl, rfl, by rw [hs2]; exact hroom.1⟩
  · -- too short
    cases hres : (signAadInternal cfg C { me with aux := aux1 } det (.data payload) (.data aad)
        (.buf m)).1 with
    | error x => exact ⟨x, rfl⟩
    | ok r =>
      exfalso
      obtain ⟨_, _, hcap1, pp1, sig1, me1, ub1, hd1, hk1⟩ := sign_ok_elim (hpa _) hres
      have hps1 : paySeen det false payload = .data payload := by cases det <;> rfl
      simp only [Mem.isNull, Mem.cap, hps1] at hd1 hk1 hcap1
      obtain ⟨s, hs⟩ := dispatch_sigSrc hfit hd1
      have hub : ub1 = false := by
        have := signDispatch_ub' (cfg := cfg) (C := C)
          (me := { me with protectedParams := pp1, aux := aux1 })
          (p := seen false (protMap me.alg)) (a := .data aad) (w := .data payload) hpre.sc
          (fun _ => ⟨rfl, rfl, rfl⟩)
          (placeOf m.length false (preSig cfg { me with aux := aux1 } det payload).length)
        have h3 := congrArg (fun q => q.2.2) hd1
        exact h3.symm.trans this
      obtain ⟨_, hle1, _⟩ := hk1 s hs hub
      have hle1 : (msgBytes cfg me det payload s).length ≤ m.length := hle1
      rcases hs with ⟨e1, _, e3⟩ | ⟨e1, e2⟩
      · subst e1
        have hroom : (preSig cfg me det payload).length < m.length := by
          have := preSig_lt_msg cfg me det payload s
          omega
        have hplr : placeOf m.length false (preSig cfg { me with aux := aux1 } det payload).length
            = .room (m.length - (preSig cfg me det payload).length) := by
          unfold placeOf
          rw [if_neg (by simp)]
          exact if_pos (by change m.length - (preSig cfg me det payload).length > 0; omega)
        rw [hplr] at hd1
        have := (h2 pp1 _).2 s me1 ub1 hd1
        have := msgBytes_length_congr (cfg := cfg) (me := me) (det := det) (w := payload)
          (s := s) (s' := List.replicate k 0) (by simp [this])
        omega
      · rcases e2 with e2 | e2
        · cases e2
        · have := preSig_lt_msg cfg me det payload s
          have e2 : m.length ≤ (preSig cfg me det payload).length := e2
          omega

/-- **C08 (sign, then size query).** If the real call succeeds, the size query
with any sufficient NULL length returns exactly the length of its result. -/
theorem C08_sign_then_size (cfg : Config) (C : Crypto) (hfit : Spec.SignFits C)
    (hexact : Spec.SigSizeExact C) (me : SignCtx) (hassm : Spec.SizeAssm cfg C me.alg me.key)
    (det : Bool) (payload aad : Bytes) (aux0 aux1 : Mem)
    (haux : AuxOk me (Spec.protectedHeader me.alg) aad payload aux0 aux1) (m : Bytes) (r : UB)
    (h : (signAadInternal cfg C { me with aux := aux1 } det (.data payload) (.data aad)
      (.buf m)).1 = .ok r) :
    ∀ cap, r.len ≤ cap →
      (signAadInternal cfg C { me with aux := aux0 } det (.data payload) (.data aad) (.null cap)).1
        = .ok (.null r.len) := by
  intro cap hcap
  have hpa : ∀ nul, PayArg det nul (.data payload) payload := by
    intro nul; unfold PayArg; cases det
    · exact Src.data _ _
    · rfl
  obtain ⟨hpre, hH, hcap1, pp1, sig1, me1, ub1, hd1, hk1⟩ := sign_ok_elim (hpa _) h
  have hpre' : SignPre cfg me := ⟨hpre.alg, hpre.sc, hpre.ct⟩
  have hps1 : paySeen det false payload = .data payload := by cases det <;> rfl
  simp only [Mem.isNull, Mem.cap, hps1] at hd1 hk1 hcap1
  obtain ⟨s, hs⟩ := dispatch_sigSrc hfit hd1
  have hub : ub1 = false := by
    have := signDispatch_ub' (cfg := cfg) (C := C)
      (me := { me with protectedParams := pp1, aux := aux1 })
      (p := seen false (protMap me.alg)) (a := .data aad) (w := .data payload) hpre.sc
      (fun _ => ⟨rfl, rfl, rfl⟩)
      (placeOf m.length false (preSig cfg { me with aux := aux1 } det payload).length)
    have h3 := congrArg (fun q => q.2.2) hd1
    exact h3.symm.trans this
  obtain ⟨hlt, hle, hr⟩ := hk1 s hs hub
  have hle : (msgBytes cfg me det payload s).length ≤ m.length := hle
  have hr : r = .data (msgBytes cfg me det payload s) := hr
  have hgt := preSig_lt_msg cfg me det payload s
  rw [protectedHeader_eq] at haux
  rcases hs with ⟨e1, _, e3⟩ | ⟨e1, e2⟩
  · subst e1
    have hplr : placeOf m.length false (preSig cfg { me with aux := aux1 } det payload).length
        = .room (m.length - (preSig cfg me det payload).length) := by
      unfold placeOf
      rw [if_neg (by simp)]
      exact if_pos (by change m.length - (preSig cfg me det payload).length > 0; omega)
    rw [hplr] at hd1
    have hps : Src true (paySeen det true payload) payload := by
      cases det
      · exact .inr ⟨.inl rfl, rfl⟩
      · exact .inl rfl
    have agree := fun pp0 => dispatch_size_agree (C := C) hpre' (p0 := seen true (protMap me.alg))
      (a0 := .data aad) (w0 := paySeen det true payload) (p1 := .data (protMap me.alg))
      (a1 := .data aad) (w1 := .data payload) (aux0 := aux0) (aux1 := aux1)
      (pp0 := pp0) (pp1 := pp1) (prot := protMap me.alg) (aad := aad) (w := payload)
      (.inr ⟨.inl rfl, rfl⟩) (Src.data _ _) hps (Src.data _ _) (Src.data _ _) (Src.data _ _)
      hassm hexact haux
    have hq : ∀ pp0, ∃ m0, signDispatch cfg C { me with protectedParams := pp0, aux := aux0 }
        (seen true (protMap me.alg)) (.data aad) (paySeen det true payload) .null
          = (.ok (.null s.length), m0, false) := by
      intro pp0
      rcases agree pp0 with ⟨k, m0, h1, h2⟩ | ⟨_, h2⟩
      · have := (h2 _).2 s me1 ub1 hd1
        subst this
        exact ⟨m0, h1⟩
      · obtain ⟨x, m1, ub, h3⟩ := h2 (m.length - (preSig cfg me det payload).length)
        have := hd1.symm.trans h3
        cases this
    have hrl : r.len = (msgBytes cfg me det payload s).length := by rw [hr]; rfl
    rw [hrl]
    refine sign_ok_intro (me := { me with aux := aux0 }) (out := .null cap) (sig := .null s.length)
      (s := s) (me' := fun pp => Classical.choose (hq pp)) ⟨hpre.alg, hpre.sc, hpre.ct⟩ (hpa _) hH hlt
      ?_ ?_ ?_
    · rw [hrl] at hcap; exact hcap
    · intro pp; exact Classical.choose_spec (hq pp)
    · exact .inr ⟨rfl, .inl rfl⟩
  · rcases e2 with e2 | e2
    · cases e2
    · have e2 : m.length ≤ (preSig cfg me det payload).length := e2
      omega

/-- **C08 (no signature is made).** The size query does not call the adapter's
signing functions: replacing them by anything gives the same outcome. -/
theorem C08_no_signing (cfg : Config) (C : Crypto) (me : SignCtx) (det : Bool) (payload aad : UB)
    (cap : Nat) (sign' : Int → Key → Bytes → Nat → Except Err Bytes)
    (eddsa' : Key → Bytes → Nat → Except Err Bytes) :
    signAadInternal cfg { C with sign := sign', signEddsa := eddsa' } me det payload aad (.null cap)
      = signAadInternal cfg C me det payload aad (.null cap) := by
  have hd : ∀ me p a w, signDispatch cfg { C with sign := sign', signEddsa := eddsa' } me p a w .null
      = signDispatch cfg C me p a w .null := by
    intro me p a w
    have hh : createTbsHash cfg { C with sign := sign', signEddsa := eddsa' } me.alg p a w
        (maxHashSize cfg) = createTbsHash cfg C me.alg p a w (maxHashSize cfg) := by
      unfold createTbsHash
      simp only []
      by_cases hn : hashAlgOfSigAlg cfg me.alg = algNone
      · rw [if_pos hn, if_pos hn]
      · rw [if_neg hn, if_neg hn]
        cases C.hashStart (hashAlgOfSigAlg cfg me.alg) <;> rfl
    have h1 : signShortCircuit cfg { C with sign := sign', signEddsa := eddsa' } me p a w .null
        = signShortCircuit cfg C me p a w .null := by
      unfold signShortCircuit; rw [hh]
    have h2 : signDefault cfg { C with sign := sign', signEddsa := eddsa' } me p a w .null
        = signDefault cfg C me p a w .null := by
      unfold signDefault; rw [hh]
    have h3 : signEddsa { C with sign := sign', signEddsa := eddsa' } me p a w .null
        = signEddsa C me p a w .null := by
      unfold signEddsa; rfl
    unfold signDispatch
    rw [h1, h2, h3]
  have hpl : ∀ e : Enc, e.mem.isNull = true → e.outPlace = .null := by
    intro e he
    unfold Enc.outPlace
    cases hm : e.mem with
    | null c => rfl
    | buf m => rw [hm] at he; cases he
  unfold signAadInternal
  cases hp : encodeParametersInternal cfg me det (Enc.init (.null cap)) with
  | mk r rest =>
    obtain ⟨me1, e1⟩ := rest
    have hs : Safe cap true e1 := by
      have := Safe.params (Safe.init (.null cap)) cfg me det
      rw [hp] at this
      exact this.1
    cases r with
    | error x => rfl
    | ok _ =>
      simp only []
      have hs2 : Safe cap true (if det then e1.addNull else e1.addEncoded payload) := by
        cases det
        · exact Safe.addItem hs _ (.inl rfl)
        · exact Safe.addItem hs _ (.inl rfl)
      generalize (if det then e1.addNull else e1.addEncoded payload) = e2 at hs2
      have hE : encodeSignatureInternal cfg { C with sign := sign', signEddsa := eddsa' } me1 aad
          (if det then payload else .nil) e2
          = encodeSignatureInternal cfg C me1 aad (if det then payload else .nil) e2 := by
        unfold encodeSignatureInternal
        have hs3 : Safe cap true (closePayload (if det then payload else .nil) e2).1 := by
          generalize (if det then payload else UB.nil) = dp
          unfold closePayload
          by_cases hn : dp.isNull = true
          · rw [if_pos hn]; exact Safe.closeLevel hs2 _ _
          · rw [if_neg hn]; exact hs2
        generalize closePayload (if det then payload else .nil) e2 = q at hs3
        obtain ⟨e3, w⟩ := q
        simp only [] at hs3 ⊢
        cases e3.errState with
        | tooSmall => rfl
        | other x => rfl
        | ok =>
          have : e3.openBytes = (e3.openLevel .openB, .null) := by
            unfold Enc.openBytes
            rw [hpl e3 hs3.nul_eq]
          simp only [this, hd]
      rw [hE]

example : (sign1Sign Config.full toyCrypto exCtx (.data [1, 2, 3]) (.null 1000)).1
      = .ok (.null 87) ∧
    ((sign1Sign Config.full toyCrypto exCtx (.data [1, 2, 3]) (.buf (List.replicate 87 0))).1.map
      UB.len) = .ok 87 ∧
    (sign1Sign Config.full toyCrypto exCtx (.data [1, 2, 3]) (.buf (List.replicate 86 0))).1
      = .error .tooSmall := by
  decide +kernel

/-- The adapter assumption of C08 can be met. -/
example : Spec.SizeAssm Config.full toyCrypto algES256 Key.null where
  fin := by
    intro ha h0 us _ _
    generalize List.foldl toyCrypto.hashUpdate h0 us = h
    refine ⟨toyDigest h.1 h.2, by simp [toyDigest], ?_⟩
    show (if Spec.digestRoom Config.full < 32 then Except.error Err.hashBufferSize
      else Except.ok (toyDigest h.1 h.2)) = _
    rw [if_neg (by decide +kernel)]
  sign := by
    intro _ h n k _ hk hn
    have hk : (Except.ok 64 : Except Err Nat) = .ok k := hk
    injection hk with hk
    refine ⟨toySig h, ?_⟩
    show (if n < 64 then Except.error Err.sigBufferSize else _) = _
    rw [if_neg (by omega)]
  eddsa := by
    intro _ t n k hk hn
    have hk : (Except.ok 64 : Except Err Nat) = .ok k := hk
    injection hk with hk
    refine ⟨toySig t, ?_⟩
    show (if n < 64 then Except.error Err.sigBufferSize else _) = _
    rw [if_neg (by omega)]

end TCose.Props
