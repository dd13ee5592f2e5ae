import Verif.Props.Deviations
import Verif.Adapters.Openssl
import Verif.Adapters.Psa
import Verif.Adapters.Test

/-!
# C85: what can be changed by way of the unprotected header

The unprotected header is not covered by the signature: whoever carries the message can replace
it.  Parameters of the protected header are returned as they stand there all the same (but for
content types), and replacing the unprotected header keeps the signature valid.
-/

namespace TCose.Props
open TCose Spec

/-- What the protected header says: each parameter that it contains is returned as it stands
there. -/
structure Kept (noCt : Bool) (h : Header) (p : Params) : Prop where
  alg : ∀ i, (Label.int 1, Spec.int i) ∈ h → p.alg = Int.bmod i 4294967296
  kid : ∀ b, (Label.int 4, .bstr b) ∈ h → p.kid.map (·.bytes) = some b
  iv : ∀ b, (Label.int 5, .bstr b) ∈ h → p.iv.map (·.bytes) = some b
  partialIv : ∀ b, (Label.int 6, .bstr b) ∈ h → p.partialIv.map (·.bytes) = some b
  ctNum : noCt = false → ∀ n, (Label.int 3, .uint n) ∈ h → p.ctUint = n
  ctText : noCt = false → ∀ t, t ≠ [] → (Label.int 3, .tstr t) ∈ h → p.ctTstr.map (·.bytes) = some t

theorem bytes_kept {h h' : Header} {i : Int} {o o' : Option Bytes} {b : Bytes}
    (hi : (h.map (·.1)).count (Label.int i) ≤ 1) (hb : (Label.int i, .bstr b) ∈ h)
    (h1 : readBytes h i none = .ok o) (h2 : readBytes h' i o = .ok o') : o' = some b := by
  unfold readBytes at h1 h2
  rw [get_of_count hb hi] at h1
  simp only [if_true, Item.bytes?] at h1
  cases h1
  split at h2
  · cases h2; rfl
  · simp at h2

theorem int_number {i : Int} {x : Item} (hx : x = Spec.int i) (hs : x.int64? ≠ none) :
    x.int64? = some i := by
  subst hx
  unfold Spec.int at hs ⊢
  split
  · rename_i h
    rw [if_pos h] at hs
    simp only [Item.int64?] at hs ⊢
    split
    · congr 1; omega
    · rename_i h2; rw [if_neg h2] at hs; exact absurd rfl hs
  · simp only [Item.int64?]
    congr 1
    omega

variable (cfg : Config) (P : QParams) (C : Crypto) (junk : Junk) (me : VerifyCtx) (m : Message)
  (pb msg : Bytes) (aad : UB) (pay : VPayload)

theorem shown_kept (hP : P.maxTags ≤ 4) (he : m.Encoded pb msg) (hf : m.Fits P msg)
    {m' : Message} (hs : ShownMsg P m m') (hargs : ArgsOk aad pay)
    (h : (verifyInternal cfg P C junk me msg aad pay true).res = .ok ()) :
    ∃ p, (verifyInternal cfg P C junk me msg aad pay true).params = some p ∧
      Kept cfg.disableContentType m'.prot p := by
  obtain ⟨k, hr, hret, -⟩ := shown_returned cfg P C junk me m pb msg aad pay true hP he hf hs hargs h
  obtain ⟨p, hpp, a1, a2, a3, a4, a5, a6⟩ := hret rfl
  refine ⟨p, hpp, ?_⟩
  unfold Message.read at hr
  cases h1 : readHeader cfg.disableContentType true m'.prot Known.nothing with
  | error e => rw [h1] at hr; cases hr
  | ok k1 =>
  simp only [h1] at hr
  have r1 := header_read h1
  have r2 := header_read hr
  obtain ⟨u1, s1, -, -⟩ := r1.scanned
  have once : ∀ i : Int, i = 1 ∨ i = 3 ∨ i = 4 ∨ i = 5 ∨ i = 6 →
      (m'.prot.map (·.1)).count (Label.int i) ≤ 1 := fun i hi => by
    have := s1.once i hi
    omega
  constructor
  · intro i hi
    have h2 := r1.alg
    unfold readAlg at h2
    rw [get_of_count hi (once 1 (by simp))] at h2
    have ht := s1.types 1 _ hi
    have hn := int_number rfl (fun hh => ht (.inl ⟨rfl, hh⟩))
    simp only [hn, Bool.true_eq_false, if_false, Option.getD_some] at h2
    split at h2
    · cases h2
    · simp only [Except.ok.injEq] at h2
      have h3 := r2.alg
      unfold readAlg at h3
      split at h3
      · simp only [Except.ok.injEq] at h3
        rw [a1, ← h3, ← h2]
      · simp at h3
  · intro b hb
    rw [a2]
    exact bytes_kept (once 4 (by simp)) hb r1.kid r2.kid
  · intro b hb
    rw [a3]
    exact bytes_kept (once 5 (by simp)) hb r1.iv r2.iv
  · intro b hb
    rw [a4]
    exact bytes_kept (once 6 (by simp)) hb r1.partialIv r2.partialIv
  · intro hn n hb
    rw [a6]
    rcases ct_read (get_of_count hb (once 3 (by simp))) (r1.ct hn) with ⟨t, e, -⟩ | ⟨n', -, e, -, e'⟩
    · cases e
    · cases e
      injection e' with e1 e2
      have h3 := r2.ct hn
      cases hg : Header.get m'.unprot 3 with
      | none =>
        unfold readContentType at h3
        rw [hg] at h3
        simp only [Except.ok.injEq, Prod.mk.injEq] at h3
        rw [← h3.2, e2]; rfl
      | some y =>
        rcases ct_read hg h3 with ⟨t, -, -, e'⟩ | ⟨n'', -, -, e'', -⟩
        · injection e' with f1 f2
          rw [f2]
          simp only
          rw [e2]; rfl
        · simp only at e''
          rw [e2] at e''; cases e''
  · intro hn t hne hb
    rw [a5]
    rcases ct_read (get_of_count hb (once 3 (by simp))) (r1.ct hn) with ⟨t', e, -, e'⟩ | ⟨n', -, e, -⟩
    · cases e
      injection e' with e1 e2
      have h3 := r2.ct hn
      cases hg : Header.get m'.unprot 3 with
      | none =>
        unfold readContentType at h3
        rw [hg] at h3
        simp only [Except.ok.injEq, Prod.mk.injEq] at h3
        rw [← h3.1, e1]
      | some y =>
        rcases ct_read hg h3 with ⟨t', -, e'', -⟩ | ⟨n'', -, -, -, e'⟩
        · simp only at e''
          rw [e1] at e''
          exact absurd e'' hne
        · injection e' with f1 f2
          rw [f1]
          exact e1
    · cases e

/-- **C85_partial.** When a message is accepted, the parameters of its protected header are returned
as they stand there, whatever is in the unprotected header.  Missing: an empty text as content
type in the protected header, which is overwritten (`C85_claim_false`). -/
theorem C85_kept_partial (hP : P.maxTags ≤ 4) (he : m.Encoded pb msg) (hf : m.Fits P msg)
    (hp : Header.Plain m.prot) (hu : Header.Plain m.unprot) (hargs : ArgsOk aad pay)
    (h : (verifyInternal cfg P C junk me msg aad pay true).res = .ok ()) :
    ∃ p, (verifyInternal cfg P C junk me msg aad pay true).params = some p ∧
      Kept cfg.disableContentType m.prot p :=
  shown_kept cfg P C junk me m pb msg aad pay hP he hf (plain_msg he hf hp hu) hargs h

/-- The adapter does not look at the key id. -/
structure KidBlind (C : Crypto) : Prop where
  verify : ∀ alg key kid kid' h s, C.verify alg key kid h s = C.verify alg key kid' h s
  eddsa : ∀ key kid kid' tbs s, C.verifyEddsa key kid tbs s = C.verifyEddsa key kid' tbs s

variable (want : Bool) (u : Header) (msg' : Bytes)

theorem shown_replaced (hP : P.maxTags ≤ 4) (he : m.Encoded pb msg) (hf : m.Fits P msg)
    {m' : Message} (hs : ShownMsg P m m') (hargs : ArgsOk aad pay)
    (he' : Message.Encoded { m with unprot := u } pb msg')
    (hf' : Message.Fits { m with unprot := u } P msg') {u' : Header} (hu' : Shown P u u')
    (hC : KidBlind C)
    (h : (verifyInternal cfg P C junk me msg aad pay want).res = .ok ())
    (hsc : ∀ k k', m'.read cfg.disableContentType = .ok k →
      Message.read cfg.disableContentType { m' with unprot := u' } = .ok k' →
      cfg.disableShortCircuit = false → (k'.kid = some scKid ↔ k.kid = some scKid)) :
    (verifyInternal cfg P C junk me msg' aad pay want).res = .ok () ↔
      ∃ k', Message.read cfg.disableContentType { m' with unprot := u' } = .ok k' ∧
        (Spec.Opt.requireKid me.flags = true → k'.kid ≠ none) ∧
        (Spec.Opt.unknownCritAllowed me.flags = false → ¬ k'.blocked) := by
  obtain ⟨h1, h2⟩ := verdict_shown (cfg := cfg) C junk me want hP he hf hs hargs
  obtain ⟨-, g2⟩ := verdict_shown (cfg := cfg) C junk me want hP he' hf'
    (m' := { m' with unprot := u' }) ⟨by rw [hs.same], hs.prot, hu'⟩ hargs
  have hpol : TagPolicy me.flags m.tags.reverse := by
    refine Classical.byContradiction fun hpol => ?_
    rw [h1 hpol] at h
    cases h
  have h2 := h2 hpol
  have g2 := g2 hpol
  cases hr : m'.read cfg.disableContentType with
  | error e => rw [hr] at h2; simp only at h2; rw [h2] at h; cases h
  | ok k =>
  rw [hr] at h2
  simp only at h2
  cases hpf : m'.payloadFault pay.isDetached with
  | some y => rw [hpf] at h2; simp only at h2; rw [h2] at h; cases h
  | none =>
  rw [hpf] at h2
  obtain ⟨x, -, -, hset, -⟩ := h2
  rw [h] at hset
  cases hr' : Message.read cfg.disableContentType { m' with unprot := u' } with
  | error e =>
    rw [hr'] at g2
    simp only at g2
    rw [g2]
    exact ⟨nofun, fun ⟨k', hk', _⟩ => by cases hk'⟩
  | ok k' =>
  rw [hr'] at g2
  simp only at g2
  have hpf' : Message.payloadFault { m' with unprot := u' } pay.isDetached = none := hpf
  rw [hpf'] at g2
  obtain ⟨x', -, -, gset, -⟩ := g2
  rw [gset]
  have halg : k'.alg = k.alg := by
    unfold Message.read at hr hr'
    cases q1 : readHeader cfg.disableContentType true m'.prot Known.nothing with
    | error e => rw [q1] at hr; cases hr
    | ok k1 =>
      simp only [q1] at hr hr'
      have a := (header_read hr).alg
      have b := (header_read hr').alg
      have key : ∀ {h : Header} {o n : Int}, readAlg false h o = .ok n → n = o := by
        intro h o n hh
        unfold readAlg at hh
        split at hh
        · cases hh; rfl
        · simp at hh
      rw [key a, key b]
  have hss := hsc k k' hr hr'
  have hpo : payloadOf { m with unprot := u } pay = payloadOf m pay := by cases pay <;> rfl
  have hpu : payloadUb { m with unprot := u } pay = payloadUb m pay := by cases pay <;> rfl
  rw [hpo, hpu]
  unfold settle at hset ⊢
  by_cases c1 : Spec.Opt.requireKid me.flags = true ∧ k'.kid = none
  · rw [if_pos c1]
    refine ⟨nofun, ?_⟩
    rintro ⟨k2, e, q1, -⟩
    cases e
    exact absurd c1.2 (q1 c1.1)
  rw [if_neg c1]
  by_cases c2 : Spec.Opt.unknownCritAllowed me.flags = false ∧ k'.blocked
  · rw [if_pos c2]
    refine ⟨nofun, ?_⟩
    rintro ⟨k2, e, -, q1⟩
    cases e
    exact absurd c2.2 (q1 c2.1)
  rw [if_neg c2]
  refine ⟨fun _ => ⟨k', rfl, fun a b => c1 ⟨a, b⟩, fun a b => c2 ⟨a, b⟩⟩, fun _ => ?_⟩
  split at hset
  · cases hset
  split at hset
  · cases hset
  have c3 : (cfg.disableShortCircuit = false ∧ k'.kid = some scKid) ↔
      (cfg.disableShortCircuit = false ∧ k.kid = some scKid) :=
    ⟨fun ⟨a, b⟩ => ⟨a, (hss a).mp b⟩, fun ⟨a, b⟩ => ⟨a, (hss a).mpr b⟩⟩
  simp only [c3, halg, hC.verify _ _ k'.kid k.kid, hC.eddsa _ k'.kid k.kid]
  exact hset.symm

/-- **C85.** A message that was accepted, its unprotected header replaced by another: with an adapter
that does not look at the key id it is accepted exactly if the headers can be read, the key id is
there if it is required and no critical parameter is unknown — provided the key id is that of
short-circuit signatures in both messages or in neither. -/
theorem C85_replaced (hP : P.maxTags ≤ 4) (he : m.Encoded pb msg) (hf : m.Fits P msg)
    (hp : Header.Plain m.prot) (hu : Header.Plain m.unprot) (hargs : ArgsOk aad pay)
    (he' : Message.Encoded { m with unprot := u } pb msg')
    (hf' : Message.Fits { m with unprot := u } P msg') (hu' : Header.Plain u)
    (hC : KidBlind C)
    (h : (verifyInternal cfg P C junk me msg aad pay want).res = .ok ())
    (hsc : ∀ k k', m.read cfg.disableContentType = .ok k →
      Message.read cfg.disableContentType { m with unprot := u } = .ok k' →
      cfg.disableShortCircuit = false → (k'.kid = some scKid ↔ k.kid = some scKid)) :
    (verifyInternal cfg P C junk me msg' aad pay want).res = .ok () ↔
      ∃ k', Message.read cfg.disableContentType { m with unprot := u } = .ok k' ∧
        (Spec.Opt.requireKid me.flags = true → k'.kid ≠ none) ∧
        (Spec.Opt.unknownCritAllowed me.flags = false → ¬ k'.blocked) :=
  shown_replaced cfg P C junk me m pb msg aad pay want u msg' hP he hf (plain_msg he hf hp hu) hargs he' hf'
    (shown_plain hu' (he'.unprot_good hf')) hC h hsc

/-- **C85, adapters.** No adapter of the library looks at the key id. -/
theorem C85_adapters (L : Ossl.Lib) (L' : Psa.Lib) (mode : Nat) (fill : Bytes) :
    KidBlind (Ossl.crypto cfg L) ∧ KidBlind (Psa.crypto cfg L') ∧
      KidBlind (testCrypto cfg mode fill) :=
  ⟨⟨fun _ _ _ _ _ _ => rfl, fun _ _ _ _ _ => rfl⟩, ⟨fun _ _ _ _ _ _ => rfl, fun _ _ _ _ _ => rfl⟩,
    ⟨fun _ _ _ _ _ _ => rfl, fun _ _ _ _ _ => rfl⟩⟩

/-- What is returned for a message with these headers. -/
def devRun (prot unprot : Header) : VRes :=
  verifyInternal Config.full QParams.std toyCrypto noJunk (VerifyCtx.init 0) (devBytes prot unprot)
    (.null 0) (.inline true) true

/-- **C85, negation.** An empty text as content type in the protected header is not returned if there
is a text in the unprotected one: that is returned instead. -/
theorem C85_claim_false : ¬ ∀ (m : Message) (pb msg : Bytes),
    m.Encoded pb msg → m.Fits QParams.std msg → Header.Plain m.prot → Header.Plain m.unprot →
    ∀ t p, (Label.int 3, .tstr t) ∈ m.prot →
      (verifyInternal Config.full QParams.std toyCrypto noJunk (VerifyCtx.init 0) msg (.null 0)
        (.inline true) true).res = .ok () →
      (verifyInternal Config.full QParams.std toyCrypto noJunk (VerifyCtx.init 0) msg (.null 0)
        (.inline true) true).params = some p →
      p.ctTstr.map (·.bytes) = some t := by
  intro h
  have h := h (devMsg [devAlg, (.int 3, .tstr [])] [(.int 3, .tstr [0x61])])
    (Header.item [devAlg, (.int 3, .tstr [])]).enc
    (devBytes [devAlg, (.int 3, .tstr [])] [(.int 3, .tstr [0x61])])
    (dev_encoded (by simp [devAlg, Header.item, Item.small, smallPairs, Label.item, Spec.int])
      (by simp [Header.item, Item.small, smallPairs, Label.item, Spec.int])
      (by decide +kernel) (by decide +kernel))
    ⟨by decide +kernel, by decide +kernel, by decide +kernel, by decide +kernel⟩
    (dev_plain (by decide +kernel)) (dev_plain (by decide +kernel)) []
  have h1 : ((devRun [devAlg, (.int 3, .tstr [])] [(.int 3, .tstr [0x61])]).params.map
      fun p => p.ctTstr.map (·.bytes)) = some (some [0x61]) := by decide +kernel
  have h2 : (devRun [devAlg, (.int 3, .tstr [])] [(.int 3, .tstr [0x61])]).res = .ok () := by
    decide +kernel
  cases hp : (devRun [devAlg, (.int 3, .tstr [])] [(.int 3, .tstr [0x61])]).params with
  | none => rw [hp] at h1; cases h1
  | some p =>
    rw [hp] at h1
    have h3 := h p (by simp [devMsg]) h2 hp
    rw [Option.map_some, h3] at h1
    cases h1

/-- Not vacuous.  The same protected header and signature: the key id and a content type added to
the unprotected header are returned with the message; a second key id is not accepted, nor is an
algorithm that is not protected. -/
example :
    ((devRun [devAlg] []).res = .ok () ∧
      (devRun [devAlg] []).params.map (fun p => (p.kid.map (·.bytes), p.ctUint)) =
        some (none, 65536)) ∧
    ((devRun [devAlg] [(.int 4, .bstr [7]), (.int 3, .uint 60)]).res = .ok () ∧
      (devRun [devAlg] [(.int 4, .bstr [7]), (.int 3, .uint 60)]).params.map
        (fun p => (p.kid.map (·.bytes), p.ctUint)) = some (some [7], 60)) ∧
    (devRun [devAlg, (.int 4, .bstr [6])] []).res = .ok () ∧
    (devRun [devAlg, (.int 4, .bstr [6])] [(.int 4, .bstr [7])]).res = .error .duplicateParameter ∧
    (devRun [devAlg] [devAlg]).res = .error .parameterNotProtected ∧
    (devRun [devAlg] [(.int 4, .bstr scKid)]).res = .error .shortCircuitSig := by
  decide +kernel

/-- The hypotheses of `C85_replaced` hold of a message and two unprotected headers, and the toy
adapter does not look at the key id. -/
example : KidBlind toyCrypto ∧
    (devMsg [devAlg] [(.int 4, .bstr [7])]).Encoded (Header.item [devAlg]).enc
      (devBytes [devAlg] [(.int 4, .bstr [7])]) ∧
    devMsg [devAlg] [(.int 4, .bstr [7])] = { devMsg [devAlg] [] with unprot := [(.int 4, .bstr [7])] } :=
  ⟨⟨fun _ _ _ _ _ _ => rfl, fun _ _ _ _ _ => rfl⟩,
    dev_encoded (by simp [devAlg, Header.item, Item.small, smallPairs, Label.item, Spec.int])
      (by simp [Header.item, Item.small, smallPairs, Label.item, Spec.int])
      (by decide +kernel) (by decide +kernel), rfl⟩

end TCose.Props
