import Verif.Lemmas.SignOne
import Verif.Lemmas.Head
import Verif.Spec.Crypto

/-! Helper lemmas: `createTbs`, `createTbsHash` against the Sig_structure. -/

namespace TCose
open Enc (maxStart)

theorem sigStructure_eq (p a w : Bytes) :
    Spec.sigStructure p a w
      = encodeHead 4 4 ++ ((encodeHead 3 contextString.length ++ contextString) ++
          (bstrBytes p ++ (bstrBytes a ++ bstrBytes w))) := by
  simp only [Spec.sigStructure, Spec.Item.enc, Spec.encList, contextString_eq,
    encodeHead_eq_head, bstrBytes, List.append_nil]
  rfl

theorem bstrBytes_inj {p q x y : Bytes} (hp : p.length < 2 ^ 64) (hq : q.length < 2 ^ 64)
    (h : bstrBytes p ++ x = bstrBytes q ++ y) : p = q ∧ x = y := by
  simp only [bstrBytes, List.append_assoc] at h
  obtain ⟨h1, h2⟩ := encodeHead_prefix_inj (by omega) hp hq h
  exact append_inj_of_len h2 h1

theorem sigStructure_inj {p a w p' a' w' : Bytes}
    (h1 : p.length < 2 ^ 64) (h2 : a.length < 2 ^ 64) (h3 : w.length < 2 ^ 64)
    (h1' : p'.length < 2 ^ 64) (h2' : a'.length < 2 ^ 64) (h3' : w'.length < 2 ^ 64)
    (h : Spec.sigStructure p a w = Spec.sigStructure p' a' w') : p = p' ∧ a = a' ∧ w = w' := by
  rw [sigStructure_eq, sigStructure_eq] at h
  have h := (append_inj_of_len (append_inj_of_len h rfl).2 rfl).2
  obtain ⟨e1, h⟩ := bstrBytes_inj h1 h1' h
  obtain ⟨e2, h⟩ := bstrBytes_inj h2 h2' h
  have h : bstrBytes w ++ [] = bstrBytes w' ++ [] := by simpa using h
  exact ⟨e1, e2, (bstrBytes_inj h3 h3' h).1⟩

/-- The buffer holds the Sig_structure, or it is reported too small. -/
theorem createTbs_run {prot aad pay : UB} {p a w : Bytes} (buf : Mem)
    (hp : Src buf.isNull prot p) (ha : Src buf.isNull aad a) (hw : Src buf.isNull pay w) :
    createTbs prot aad pay buf
      = (if buf.cap < (Spec.sigStructure p a w).length then .error .tooSmall
         else .ok (seen buf.isNull (Spec.sigStructure p a w)), false) := by
  have h0 := Rel.init_rel buf
  have h1 := h0.openArray_rel
  rw [Ideal.openArray, Ideal.init, Ideal.openLevel_ok (ns := []) _ trivial (by simp) (by simp [maxStart])] at h1
  have h2 := h1.addText_rel contextString
  rw [Ideal.addText, Ideal.addItem_cons (by decide) (by decide)] at h2
  have h3 := h2.addBytes_rel hp
  rw [Ideal.addBytes, Ideal.addItem_cons (by decide) (by decide)] at h3
  have h4 := h3.addBytes_rel ha
  rw [Ideal.addBytes, Ideal.addItem_cons (by decide) (by decide)] at h4
  have h5 := h4.addBytes_rel hw
  rw [Ideal.addBytes, Ideal.addItem_cons (by decide) (by decide)] at h5
  have h6 := h5.closeArray_rel
  simp only [List.append_assoc, bumpN] at h6
  rw [Ideal.closeArray, Ideal.closeLevel_ok] at h6
  have hout : [] ++ encodeHead 4 (0 + 1 + 1 + 1 + 1) ++
      (encodeHead 3 contextString.length ++ (contextString ++ (encodeHead 2 p.length ++
        (p ++ (encodeHead 2 a.length ++ (a ++ (encodeHead 2 w.length ++ w)))))))
      = Spec.sigStructure p a w := by
    rw [sigStructure_eq]; simp [bstrBytes]
  rw [hout] at h6
  have htbs : (((((Enc.init buf).openArray.addText contextString).addBytes prot).addBytes aad).addBytes
      pay).closeArray = tbsEnc prot aad pay buf := rfl
  rw [htbs] at h6
  unfold createTbs
  generalize tbsEnc prot aad pay buf = e at h6
  simp only []
  have hub := h6.ub
  rw [hub]
  by_cases hs : e.small = true
  · have hc := h6.small hs
    simp only [] at hc
    have hf : e.finish = .error .tooSmall := by simp [Enc.finish, Enc.errState, hs]
    rw [hf, if_pos hc]
  · have hs : e.small = false := by simpa using hs
    obtain ⟨g1, g2, g3, g4⟩ := h6.good hs
    have hle := h6.le
    simp only [] at g1 g2 g3 g4
    have hf : e.finish = .ok (seen buf.isNull (Spec.sigStructure p a w)) := by
      unfold Enc.finish Enc.errState
      rw [hs, g2, g3]
      simp only [Bool.false_eq_true, if_false, List.isEmpty_nil, if_true]
      have hn := h6.nul_eq
      cases hm : e.mem with
      | null c =>
        rw [hm] at hn
        have hn : buf.isNull = true := hn.symm
        rw [hn]
        simp only [seen, if_true, g1]
      | buf m =>
        rw [hm] at hn
        have hn : buf.isNull = false := hn.symm
        have := g4 m hm
        rw [hn]
        simp only [seen, Bool.false_eq_true, if_false, this]
    rw [hf, if_neg (by omega)]

/-- The octets fed to the hash, in order. -/
def tbsChunks (prot aad pay : UB) : List UB :=
  [.data (0x84 :: 0x6a :: contextString),
   .data (encodeHead 2 prot.len), prot,
   .data (encodeHead 2 aad.len), aad,
   .data (encodeHead 2 pay.len), pay]

theorem createTbsHash_eq (cfg : Config) (C : Crypto) (alg : Int) (prot aad pay : UB) (room : Nat) :
    createTbsHash cfg C alg prot aad pay room
      = if hashAlgOfSigAlg cfg alg = algNone then .error .unsupportedSigningAlg
        else match C.hashStart (hashAlgOfSigAlg cfg alg) with
          | .error x => .error x
          | .ok h0 => C.hashFinish ((tbsChunks prot aad pay).foldl C.hashUpdate h0) room := by
  unfold createTbsHash
  simp only [hashBstr, tbsChunks, List.foldl]
  rfl

theorem streamHash_foldl {C : Crypto} {Abs : C.HashCtx → Int → Bytes → Prop}
    (hd : ∀ h alg b u, Abs h alg b → Abs (C.hashUpdate h (.data u)) alg (b ++ u))
    (hn : ∀ h alg b n, Abs h alg b → Abs (C.hashUpdate h (.null n)) alg b)
    (us : List UB) : ∀ h alg b, Abs h alg b →
      Abs (us.foldl C.hashUpdate h) alg (b ++ (us.map UB.bytes).flatten) := by
  induction us with
  | nil => intro h alg b hb; simpa using hb
  | cons u us ih =>
    intro h alg b hb
    cases u with
    | null n => simpa [UB.bytes] using ih _ _ _ (hn h alg b n hb)
    | data u => simpa [UB.bytes] using ih _ _ _ (hd h alg b u hb)

theorem tbsChunks_bytes {prot aad pay : UB} (hp : prot.len = prot.bytes.length)
    (ha : aad.len = aad.bytes.length) (hw : pay.len = pay.bytes.length) :
    ((tbsChunks prot aad pay).map UB.bytes).flatten
      = Spec.sigStructure prot.bytes aad.bytes pay.bytes := by
  rw [sigStructure_eq]
  have : (0x84 : UInt8) :: 0x6a :: contextString
      = encodeHead 4 4 ++ (encodeHead 3 contextString.length ++ contextString) := by decide
  simp [tbsChunks, UB.bytes, this, hp, ha, hw, bstrBytes]

end TCose
