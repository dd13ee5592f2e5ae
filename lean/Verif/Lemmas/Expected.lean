import Verif.Lemmas.EncEncodes

/-!
# Running the checks on a decoded message
-/

namespace TCose
open Spec

theorem hashesAs_upTo {C : Crypto} {ha : Int} {n : Nat} {D : Bytes → Bytes}
    (h : HashesAs C ha n D) (N : Nat) : HashesUpTo N C ha n D := by
  obtain ⟨Abs, h1, h2, h3, h4⟩ := h
  exact ⟨Abs, h1, fun h b u _ => h2 h b u, h3, h4⟩

theorem hashesUpTo_foldl {C : Crypto} {N : Nat} {Abs : C.HashCtx → Bytes → Prop}
    (hd : ∀ h b u, u.length ≤ N → Abs h b → Abs (C.hashUpdate h (.data u)) (b ++ u))
    (hn : ∀ h b k, Abs h b → Abs (C.hashUpdate h (.null k)) b) :
    ∀ (us : List UB), (∀ u ∈ us, u.bytes.length ≤ N) → ∀ (h : C.HashCtx) (b : Bytes), Abs h b →
      Abs (us.foldl C.hashUpdate h) (b ++ (us.map UB.bytes).flatten) := by
  intro us
  induction us with
  | nil => intro _ h b hb; simpa using hb
  | cons u us ih =>
    intro hu h b hb
    rw [List.foldl_cons, List.map_cons, List.flatten_cons, ← List.append_assoc]
    refine ih (fun v hv => hu v (by simp [hv])) _ _ ?_
    cases u with
    | data u => exact hd _ _ _ (hu (.data u) (by simp)) hb
    | null k => simpa [UB.bytes] using hn _ _ _ hb

theorem tbsChunks_le {p a w : UB} {N : Nat} (h : PiecesUpTo N p.bytes a.bytes w.bytes) :
    ∀ u ∈ tbsChunks p a w, u.bytes.length ≤ N := by
  obtain ⟨hN, hp, ha, hw⟩ := h
  have hh : ∀ n, (UB.data (encodeHead 2 n)).bytes.length ≤ N := by
    intro n
    have := encodeHead_length_le 2 n
    show (encodeHead 2 n).length ≤ N
    omega
  have hcs : (UB.data (0x84 :: 0x6a :: contextString)).bytes.length ≤ N := by
    have : (UB.data (0x84 :: 0x6a :: contextString)).bytes.length = 12 := by decide
    omega
  simp only [tbsChunks, List.mem_cons, List.not_mem_nil, or_false]
  rintro u (h | h | h | h | h | h | h) <;> subst h
  · exact hcs
  · exact hh _
  · exact hp
  · exact hh _
  · exact ha
  · exact hh _
  · exact hw

theorem createTbsHash_works {cfg : Config} {C : Crypto} {alg : Int} {D : Bytes → Bytes} {p a w : UB}
    {n N : Nat} (hne : hashAlgOfSigAlg cfg alg ≠ algNone)
    (hh : HashesUpTo N C (hashAlgOfSigAlg cfg alg) n D) (hp : p.wf) (ha : a.wf) (hw : w.wf)
    (hN : PiecesUpTo N p.bytes a.bytes w.bytes) :
    createTbsHash cfg C alg p a w n = .ok (D (sigStructure p.bytes a.bytes w.bytes)) := by
  obtain ⟨Abs, ⟨h0, k1, k1'⟩, k2, k3, k4⟩ := hh
  rw [createTbsHash_eq, if_neg hne, k1]
  simp only
  have := k4 _ _ (hashesUpTo_foldl k2 k3 (tbsChunks p a w) (tbsChunks_le hN) h0 _ k1')
  rw [this, List.nil_append, tbsChunks_bytes hp ha hw]

end TCose
