import Verif.Lemmas.Tbs
import Verif.Lemmas.OptionBits
import Verif.Spec.Limits

/-! Helper lemmas: successful signing produces the specified message. -/

namespace TCose
open Enc (PRef Place maxStart)

/-- A pointer/length pair that is not "NULL with a length". -/
def UB.wf (u : UB) : Prop := u.len = u.bytes.length

theorem UB.wf_src {u : UB} (h : u.wf) (nul : Bool) : Src nul u u.bytes := by
  cases u with
  | null n =>
    have : n = 0 := by simpa [UB.wf, UB.len, UB.bytes] using h
    subst this; exact Src.nil nul
  | data b => exact Src.data nul b

/-- Specification view of the content type in a signing context. -/
def specCt (cfg : Config) (me : SignCtx) : Spec.ContentType :=
  if cfg.disableContentType then .none
  else match me.contentTypeTstr with
    | some t => .text t
    | none => if me.contentTypeUint = Spec.noContentType then .none else .num me.contentTypeUint

/-- Specification view of the kid: the short-circuit kid stands in when
short-circuit signing was asked for without a kid. -/
def specKid (me : SignCtx) : Option Bytes :=
  if me.kid.isNullOrEmpty then
    (if Spec.Opt.shortCircuit me.flags then some Spec.scKid else none)
  else some me.kid.bytes

theorem int_enc (i : Int) : (Spec.int i).enc = Enc.intHead i := by
  unfold Spec.int Enc.intHead
  by_cases h : 0 ≤ i
  · rw [if_pos h, if_neg (by omega)]; simp [Spec.Item.enc, encodeHead_eq_head]
  · rw [if_neg h, if_pos (by omega)]; simp [Spec.Item.enc, encodeHead_eq_head]

theorem protectedHeader_eq (alg : Int) : Spec.protectedHeader alg = protMap alg := by
  simp only [Spec.protectedHeader, Spec.Item.enc, Spec.encPairs, int_enc, protMap,
    encodeHead_eq_head, List.length_cons, List.length_nil, List.append_nil, Enc.intHead]
  simp

theorem kidBytes_spec (me : SignCtx) :
    kidBytes (kidArg me).bytes
      = Spec.encPairs (match specKid me with | some k => [(.uint 4, .bstr k)] | none => []) ∧
    (if (kidArg me).bytes.isEmpty then 0 else 1)
      = (match specKid me with | some k => [((.uint 4 : Spec.Item), (.bstr k : Spec.Item))] | none => []).length := by
  unfold specKid kidArg kidBytes
  rw [opt_shortCircuit]
  rw [isNullOrEmpty_iff]
  have h4 : Enc.intHead 4 = Spec.head 0 4 := by simp [Enc.intHead, encodeHead_eq_head]
  by_cases hk : me.kid.bytes.isEmpty
  · simp only [hk, and_true, if_true]
    by_cases hf : hasFlag me.flags optShortCircuit
    · simp only [hf, if_true]
      have : (UB.data shortCircuitKid).bytes = shortCircuitKid := rfl
      rw [this]
      have hne : shortCircuitKid.isEmpty = false := rfl
      rw [show Spec.scKid = shortCircuitKid from rfl]
      simp [hne, Spec.encPairs, Spec.Item.enc, bstrBytes, encodeHead_eq_head, h4]
    · simp [hf, hk, Spec.encPairs]
  · have hk : me.kid.bytes.isEmpty = false := by simpa using hk
    simp [hk, Spec.encPairs, Spec.Item.enc, bstrBytes, encodeHead_eq_head, h4]

theorem ctBytes_spec {cfg : Config} {me : SignCtx} (h : ctArg cfg me ≠ .both) :
    ctBytes (ctArg cfg me)
      = Spec.encPairs (match specCt cfg me with
          | .none => []
          | .num n => [(.uint 3, .uint n)]
          | .text t => [(.uint 3, .tstr t)]) ∧
    (match ctArg cfg me with | .none => 0 | .both => 0 | _ => 1)
      = (match specCt cfg me with
          | .none => []
          | .num n => [((.uint 3 : Spec.Item), (.uint n : Spec.Item))]
          | .text t => [(.uint 3, .tstr t)]).length := by
  have h3 : Enc.intHead 3 = Spec.head 0 3 := by simp [Enc.intHead, encodeHead_eq_head]
  have hn : Spec.noContentType = emptyContentType := rfl
  unfold ctArg specCt at *
  rw [hn]
  by_cases hd : cfg.disableContentType
  · simp [hd, ctBytes, Spec.encPairs]
  · simp only [hd, Bool.false_eq_true, if_false] at h ⊢
    by_cases hu : me.contentTypeUint = emptyContentType
    · simp only [hu, ne_eq, not_true_eq_false, if_false, if_true] at h ⊢
      cases me.contentTypeTstr <;>
        simp [ctBytes, Spec.encPairs, Spec.Item.enc, encodeHead_eq_head, h3]
    · simp only [hu, ne_eq, not_false_eq_true, if_true, if_false] at h ⊢
      cases ht : me.contentTypeTstr with
      | some t => simp [ht] at h
      | none => simp [ctBytes, Spec.encPairs, Spec.Item.enc, encodeHead_eq_head, h3]

theorem encPairs_append (xs ys : List (Spec.Item × Spec.Item)) :
    Spec.encPairs (xs ++ ys) = Spec.encPairs xs ++ Spec.encPairs ys := by
  induction xs with
  | nil => simp [Spec.encPairs]
  | cons x xs ih => obtain ⟨k, v⟩ := x; simp [Spec.encPairs, ih]

theorem msgBytes_spec {cfg : Config} {me : SignCtx} (h : ctArg cfg me ≠ .both) (det : Bool)
    (w s : Bytes) :
    msgBytes cfg me det w s
      = (Spec.coseSign1 (!hasFlag me.flags optOmitTag) me.alg (specKid me) (specCt cfg me)
          (if det then none else some w) s).enc := by
  have hun : unprotBytes (kidArg me).bytes (ctArg cfg me)
      = (Spec.unprotectedHeader (specKid me) (specCt cfg me)).enc := by
    obtain ⟨k1, k2⟩ := kidBytes_spec me
    obtain ⟨c1, c2⟩ := ctBytes_spec h
    simp only [Spec.unprotectedHeader, Spec.Item.enc, encPairs_append, List.length_append,
      unprotBytes, mapCount, encodeHead_eq_head]
    rw [k1, c1, k2]
    exact congrArg (fun n => Spec.head 5 (_ + n) ++ _) c2
  unfold msgBytes hdrBytes
  rw [hun]
  have hpp := protectedHeader_eq me.alg
  have key : ∀ pay : Spec.Item, pay.enc = payPart det w →
      (Spec.Item.arr [.bstr (Spec.protectedHeader me.alg),
        Spec.unprotectedHeader (specKid me) (specCt cfg me), pay, .bstr s]).enc
      = encodeHead 4 4 ++ (((bstrBytes (protMap me.alg) ++
          (Spec.unprotectedHeader (specKid me) (specCt cfg me)).enc) ++ payPart det w) ++ bstrBytes s) := by
    intro pay hp
    generalize Spec.unprotectedHeader (specKid me) (specCt cfg me) = un
    simp only [Spec.Item.enc, Spec.encList, hp, hpp, bstrBytes, encodeHead_eq_head,
      List.append_nil, List.append_assoc, List.length_cons, List.length_nil]
  unfold Spec.coseSign1 tagPart tagBytes
  have hpay : ((match (if det then none else some w : Option Bytes) with
      | some p => Spec.Item.bstr p | none => .null)).enc = payPart det w := by
    cases det <;> simp [payPart, Spec.Item.enc, bstrBytes, encodeHead_eq_head]
  have := key _ hpay
  simp only []
  cases hasFlag me.flags optOmitTag with
  | true => simp only [Bool.not_true, Bool.false_eq_true, if_false, List.nil_append]; exact this.symm
  | false =>
    simp only [Bool.not_false, if_true, Spec.Item.enc, List.append_assoc]
    rw [← encodeHead_eq_head]
    congr 1
    rw [Spec.Item.enc] at this
    rw [← List.append_assoc (encodeHead 4 4)]
    simp only [List.append_assoc] at this ⊢
    exact this.symm

/-- Relation between a signature and the to-be-signed octets. `D` is the digest
function of the adapter. -/
def SigFor (C : Crypto) (D : Int → Bytes → Bytes) (me : SignCtx) (tbs sig : Bytes) :
    Prop :=
  if Spec.Opt.shortCircuit me.flags then
    ∃ ha n, Spec.hashOf me.alg = some ha ∧ scSign me.alg (D ha tbs) n = .ok sig
  else if me.alg = algEDDSA then
    ∃ n, C.signEddsa me.key tbs n = .ok sig
  else ∃ ha n, Spec.hashOf me.alg = some ha ∧ C.sign me.alg me.key (D ha tbs) n = .ok sig

/-- How the signature came about: the calls made to the adapter. -/
def SigRun (cfg : Config) (C : Crypto) (me : SignCtx) (p a w : UB) (sig : Bytes) : Prop :=
  if Spec.Opt.shortCircuit me.flags then
    ∃ h n, createTbsHash cfg C me.alg p a w (maxHashSize cfg) = .ok h ∧ scSign me.alg h n = .ok sig
  else if me.alg = algEDDSA then
    ∃ n, C.signEddsa me.key (Spec.sigStructure p.bytes a.bytes w.bytes) n = .ok sig
  else ∃ h n, createTbsHash cfg C me.alg p a w (maxHashSize cfg) = .ok h ∧
    C.sign me.alg me.key h n = .ok sig

theorem hashAlg_hashOf {cfg : Config} {alg : Int} (h : hashAlgOfSigAlg cfg alg ≠ algNone) :
    Spec.hashOf alg = some (hashAlgOfSigAlg cfg alg) := by
  unfold hashAlgOfSigAlg at *
  unfold Spec.hashOf
  repeat' split at h
  all_goals simp_all [algES256, algES384, algES512, algPS256, algPS384, algPS512, algSHA256,
    algSHA384, algSHA512, algNone]

theorem createTbsHash_ok {cfg : Config} {C : Crypto} {D : Int → Bytes → Bytes}
    (hD : Spec.StreamHash C D) {alg : Int} {p a w : UB} {n : Nat} {h : Bytes}
    (hp : p.wf) (ha : a.wf) (hw : w.wf)
    (hh : createTbsHash cfg C alg p a w n = .ok h) :
    ∃ hal, Spec.hashOf alg = some hal ∧
      h = D hal (Spec.sigStructure p.bytes a.bytes w.bytes) := by
  rw [createTbsHash_eq] at hh
  split at hh
  · cases hh
  · rename_i hne
    cases hs : C.hashStart (hashAlgOfSigAlg cfg alg) with
    | error x => rw [hs] at hh; cases hh
    | ok h0 =>
      rw [hs] at hh
      simp only [] at hh
      obtain ⟨Abs, k1, k2, k3, k4⟩ := hD
      have := streamHash_foldl k2 k3 (tbsChunks p a w) h0 _ [] (k1 _ _ hs)
      have := k4 _ _ _ _ _ this hh
      rw [List.nil_append, tbsChunks_bytes hp ha hw] at this
      exact ⟨_, hashAlg_hashOf hne, this⟩

theorem scSign_fits {alg : Int} {h s : Bytes} {n : Nat} (hs : scSign alg h n = .ok s) :
    s.length ≤ n := by
  unfold scSign at hs
  have : ∃ k, scSigSize alg = .ok k := ⟨_, rfl⟩
  obtain ⟨k, hk⟩ := this
  rw [hk] at hs
  simp only [] at hs
  split at hs
  · cases hs
  · split at hs
    · simp only [Except.ok.injEq] at hs
      rw [← hs]
      simp only [List.length_take]
      omega
    · cases hs

/-- From the calls to what was signed. -/
theorem SigRun.sigFor {cfg : Config} {C : Crypto} {D : Int → Bytes → Bytes}
    (hD : Spec.StreamHash C D) {me : SignCtx} {p a w : UB} (hp : p.wf) (ha : a.wf) (hw : w.wf)
    {s : Bytes} (h : SigRun cfg C me p a w s) :
    SigFor C D me (Spec.sigStructure p.bytes a.bytes w.bytes) s := by
  unfold SigRun at h
  unfold SigFor
  split
  · rename_i hf
    rw [if_pos hf] at h
    obtain ⟨hash, n, hh, hs⟩ := h
    obtain ⟨hal, e1, e2⟩ := createTbsHash_ok hD hp ha hw hh
    exact ⟨hal, n, e1, e2 ▸ hs⟩
  · rename_i hf
    rw [if_neg hf] at h
    split
    · rename_i he
      rw [if_pos he] at h
      exact h
    · rename_i he
      rw [if_neg he] at h
      obtain ⟨hash, n, hh, hs⟩ := h
      obtain ⟨hal, e1, e2⟩ := createTbsHash_ok hD hp ha hw hh
      exact ⟨hal, n, e1, e2 ▸ hs⟩

/-- Success of a signing procedure that had room to write: the signature fits and
is a signature over the Sig_structure. -/
theorem signDispatch_room {cfg : Config} {C : Crypto}
    (hfit : Spec.SignFits C) {me me' : SignCtx} {p a w : UB}
    (hp : p.wf) (ha : a.wf) (hw : w.wf) {n : Nat} {sig : UB} {ub : Bool}
    (hsc : ¬ (hasFlag me.flags optShortCircuit = true ∧ cfg.disableShortCircuit = true))
    (hed : me.alg = algEDDSA → cfg.disableEDDSA = false)
    (h : signDispatch cfg C me p a w (.room n) = (.ok sig, me', ub)) :
    ∃ s, sig = .data s ∧ s.length ≤ n ∧ ub = false ∧ SigRun cfg C me p a w s := by
  unfold signDispatch at h
  by_cases hf : hasFlag me.flags optShortCircuit = true
  · have hd : cfg.disableShortCircuit = false := by
      cases hc : cfg.disableShortCircuit with
      | false => rfl
      | true => exact absurd ⟨hf, hc⟩ hsc
    simp only [hd, hf, Bool.not_false, Bool.and_self, if_true, Prod.mk.injEq] at h
    obtain ⟨h, _, hub⟩ := h
    unfold signShortCircuit at h
    cases hh : createTbsHash cfg C me.alg p a w (maxHashSize cfg) with
    | error x => rw [hh] at h; cases h
    | ok hash =>
      rw [hh] at h
      simp only [] at h
      cases hs : scSign me.alg hash n with
      | error x => rw [hs] at h; cases h
      | ok s =>
        rw [hs] at h
        simp only [Except.map, Except.ok.injEq] at h
        refine ⟨s, h.symm, ?_, hub.symm, ?_⟩
        · exact scSign_fits hs
        · unfold SigRun
          rw [opt_shortCircuit, if_pos hf]
          exact ⟨hash, n, hh, hs⟩
  · have hf' : hasFlag me.flags optShortCircuit = false := by simpa using hf
    simp only [hf', Bool.and_false, Bool.false_eq_true, if_false] at h
    unfold SigRun
    simp only [opt_shortCircuit, hf', Bool.false_eq_true, if_false]
    by_cases he : me.alg = algEDDSA
    · simp only [if_pos he]
      simp only [hed he, he, Bool.not_false, beq_self_eq_true, Bool.and_self, if_true] at h
      unfold signEddsa at h
      split at h
      · cases h
      · cases h
      · rename_i tbs ub' hct
        simp only [] at h
        split at h
        · cases h
        · rename_i hnn
          have hnn : me.aux.isNull = false := by simpa using hnn
          rw [createTbs_run me.aux (UB.wf_src hp _) (UB.wf_src ha _) (UB.wf_src hw _)] at hct
          simp only [Prod.mk.injEq] at hct
          obtain ⟨ht, hub'⟩ := hct
          split at ht
          · cases ht
          · simp only [Except.ok.injEq, hnn, seen, Bool.false_eq_true, if_false] at ht
            subst ht
            cases hs : C.signEddsa me.key (UB.bytes (.data (Spec.sigStructure p.bytes a.bytes w.bytes))) n with
            | error x => rw [hs] at h; cases h
            | ok s =>
              rw [hs] at h
              simp only [Except.map, Prod.mk.injEq, Except.ok.injEq] at h
              obtain ⟨h1, _, h3⟩ := h
              exact ⟨s, h1.symm, hfit.eddsa _ _ _ _ hs, by rw [← h3, ← hub'], n, hs⟩
    · simp only [if_neg he]
      have : (me.alg == algEDDSA) = false := by simpa using he
      simp only [this, Bool.and_false, Bool.false_eq_true, if_false, Prod.mk.injEq] at h
      obtain ⟨h, _, hub⟩ := h
      unfold signDefault at h
      cases hh : createTbsHash cfg C me.alg p a w (maxHashSize cfg) with
      | error x => rw [hh] at h; cases h
      | ok hash =>
        rw [hh] at h
        simp only [] at h
        cases hs : C.sign me.alg me.key hash n with
        | error x => rw [hs] at h; cases h
        | ok s =>
          rw [hs] at h
          simp only [Except.map, Except.ok.injEq] at h
          exact ⟨s, h.symm, hfit.sign _ _ _ _ _ hs, hub.symm, hash, n, rfl, hs⟩

end TCose
