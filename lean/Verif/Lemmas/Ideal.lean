import Verif.Qcbor.Encode
import Verif.Lemmas.Cbor

/-!
# Helper: the bounded encoder refines an ideal encoder with unbounded output

`Ideal` keeps the octets written so far in a list.  `Rel` connects it to the
model of QCBOR's encoder in both size-calculation mode and buffer mode.
-/

namespace TCose

structure Ideal where
  out : Bytes
  err : Option EncErr
  nest : List Nest

namespace Ideal

def ins (a : Ideal) (b : Bytes) (pos : Nat) : Ideal :=
  { a with out := a.out.take pos ++ b ++ a.out.drop pos }

def bump (a : Ideal) : Ideal :=
  match a.nest with
  | [] => a
  | n :: ns =>
    if n.count + 1 ≥ Enc.maxItems + 1 then { a with err := some .arrayTooLong }
    else { a with nest := { n with count := n.count + 1 } :: ns }

def inOpenB (a : Ideal) : Bool :=
  match a.nest with
  | n :: _ => n.kind == .openB
  | [] => false

def addItem (a : Ideal) (head content : Bytes) : Ideal :=
  if a.err.isSome then a
  else if a.inOpenB then { a with err := some .openByteString }
  else ({ a with out := a.out ++ head ++ content } : Ideal).bump

def addTag (a : Ideal) (t : Nat) : Ideal :=
  if a.err.isSome then a
  else if a.inOpenB then { a with err := some .openByteString }
  else { a with out := a.out ++ encodeHead 6 t }

def openLevel (a : Ideal) (k : NKind) : Ideal :=
  if a.err.isSome then a
  else if a.inOpenB then { a with err := some .openByteString }
  else
    let a1 := a.bump
    if a1.err.isSome then a1
    else if a1.out.length ≥ Enc.maxStart then { a1 with err := some .bufferTooLarge }
    else if a1.nest.length ≥ Enc.maxNesting then { a1 with err := some .nestingTooDeep }
    else { a1 with nest := { kind := k, start := a1.out.length, count := 0 } :: a1.nest }

def closeLevel (a : Ideal) (k : NKind) (head : Nest → Bytes) : Ideal :=
  if a.err.isSome then a
  else
    match a.nest with
    | [] => { a with err := some .tooManyCloses }
    | n :: ns =>
      if n.kind ≠ k then { a with err := some .closeMismatch }
      else { a.ins (head n) n.start with nest := ns }

def addBytes (a : Ideal) (b : Bytes) : Ideal := a.addItem (encodeHead 2 b.length) b
def addText (a : Ideal) (b : Bytes) : Ideal := a.addItem (encodeHead 3 b.length) b
def addEncoded (a : Ideal) (b : Bytes) : Ideal := a.addItem [] b
def addInt (a : Ideal) (i : Int) : Ideal := a.addItem (Enc.intHead i) []
def addUInt (a : Ideal) (n : Nat) : Ideal := a.addItem (encodeHead 0 n) []
def addNull (a : Ideal) : Ideal := a.addItem [0xf6] []
def openArray (a : Ideal) : Ideal := a.openLevel .arr
def openMap (a : Ideal) : Ideal := a.openLevel .map
def bstrWrap (a : Ideal) : Ideal := a.openLevel .bstr
def closeArray (a : Ideal) : Ideal := a.closeLevel .arr fun n => encodeHead 4 n.count
def closeMap (a : Ideal) : Ideal := a.closeLevel .map fun n => encodeHead 5 (n.count / 2)
def closeBstr (a : Ideal) : Ideal :=
  a.closeLevel .bstr fun n => encodeHead 2 (a.out.length - n.start)
/-- Signature octets `s` written into an open byte string which is then closed. -/
def closeBytes (a : Ideal) (s : Bytes) : Ideal :=
  ({ a with out := a.out ++ s } : Ideal).closeLevel .openB fun _ => encodeHead 2 s.length

def init : Ideal := { out := [], err := none, nest := [] }

/-- Start positions of open levels are in order and inside the output. -/
def Sorted : List Nest → Nat → Prop
  | [], _ => True
  | n :: ns, p => n.start ≤ p ∧ Sorted ns n.start

def Inv (a : Ideal) : Prop := Sorted a.nest a.out.length

theorem Sorted.mono : ∀ {ns : List Nest} {p q : Nat}, Sorted ns p → p ≤ q → Sorted ns q
  | [], _, _, _, _ => trivial
  | _ :: _, _, _, h, hp => ⟨Nat.le_trans h.1 hp, h.2⟩

end Ideal

/-- The bounded encoder `e` (with `cap` octets, `nul` = size mode) represents
the ideal state `a`. After an overflow only "it does not fit" is kept. -/
structure Rel (cap : Nat) (nul : Bool) (e : Enc) (a : Ideal) : Prop where
  cap_eq : e.mem.cap = cap
  nul_eq : e.mem.isNull = nul
  ub : e.ub = false
  le : e.len ≤ cap
  inv : a.Inv
  small : e.small = true → cap < a.out.length
  good : e.small = false →
    e.len = a.out.length ∧ e.err = a.err ∧ e.nest = a.nest ∧
      ∀ m, e.mem = .buf m → m.take e.len = a.out

/-- `s` supplies the octets `b`: a real pointer to `b`, or (in size mode, or when
empty) a NULL pointer of the right length. -/
def Src (nul : Bool) (s : UB) (b : Bytes) : Prop :=
  s = .data b ∨ ((nul = true ∨ b = []) ∧ s.len = b.length)

theorem Src.len {nul s b} (h : Src nul s b) : s.len = b.length := by
  rcases h with rfl | ⟨_, h⟩
  · rfl
  · exact h

theorem Src.data (nul : Bool) (b : Bytes) : Src nul (.data b) b := Or.inl rfl
theorem Src.nil (nul : Bool) : Src nul .nil [] := Or.inr ⟨Or.inr rfl, rfl⟩

namespace Enc

theorem insertMem_length {m b : Bytes} {len pos : Nat} (hp : pos ≤ len)
    (hf : len + b.length ≤ m.length) : (insertMem m len pos b).length = m.length := by
  simp [insertMem]; omega

theorem insertMem_take {m b : Bytes} {len pos : Nat} (hp : pos ≤ len)
    (hf : len + b.length ≤ m.length) :
    (insertMem m len pos b).take (len + b.length)
      = (m.take len).take pos ++ b ++ (m.take len).drop pos := by
  unfold insertMem
  rw [List.take_append_of_le_length (by simp; omega)]
  rw [List.take_of_length_le (by simp; omega)]
  simp [List.take_take, Nat.min_eq_left hp, List.drop_take]

theorem insert_small_of_small {e : Enc} {s : UB} {pos : Nat} (h : e.small = true) :
    e.insert s pos = e := by simp [insert, h]

end Enc

namespace Rel
open Enc

variable {cap : Nat} {nul : Bool} {e : Enc} {a : Ideal}

theorem insert_rel (h : Rel cap nul e a) {s : UB} {b : Bytes} (hs : Src nul s b)
    {pos posE : Nat} (hpos : e.small = false → posE = pos) (hp : pos ≤ a.out.length)
    {ns nsE : List Nest} (hns : e.small = false → nsE = ns)
    (hinv : Ideal.Sorted ns (a.out.length + b.length)) :
    Rel cap nul { e.insert s posE with nest := nsE } { a.ins b pos with nest := ns } := by
  have hcap := h.cap_eq
  have hout : (a.ins b pos).out.length = a.out.length + b.length := by
    simp [Ideal.ins]; omega
  by_cases hsm : e.small = true
  · rw [insert_small_of_small hsm]
    refine ⟨h.cap_eq, h.nul_eq, h.ub, h.le, ?_, ?_, ?_⟩
    · simpa only [Ideal.Inv, hout] using hinv
    · intro _
      have := h.small hsm
      show cap < (a.ins b pos).out.length
      omega
    · intro hh; simp [hsm] at hh
  · have hsm : e.small = false := by simpa using hsm
    obtain ⟨hl, he, hn, hm⟩ := h.good hsm
    have hposE := hpos hsm
    have hnsE := hns hsm
    subst hposE hnsE
    have hslen := hs.len
    have hle := h.le
    unfold Enc.insert
    rw [if_neg (by simp [hsm])]
    by_cases hfit : e.mem.cap - e.len < s.len
    · rw [if_pos hfit]
      refine ⟨h.cap_eq, h.nul_eq, h.ub, h.le, ?_, ?_, ?_⟩
      · simpa only [Ideal.Inv, hout] using hinv
      · intro _
        show cap < (a.ins b posE).out.length
        omega
      · intro hh; simp at hh
    · rw [if_neg hfit, if_neg (by omega)]
      rcases hmem : e.mem with c | m
      · rw [hmem] at hcap
        have hnul : nul = true := by rw [← h.nul_eq, hmem]; rfl
        refine ⟨?_, ?_, h.ub, ?_, ?_, ?_, ?_⟩
        · simpa [hmem] using hcap
        · simpa [hmem, Mem.isNull] using hnul.symm
        · simp only [Mem.cap] at hcap; rw [hmem] at hfit; simp only [Mem.cap] at hfit; simp only; omega
        · simpa only [Ideal.Inv, hout] using hinv
        · intro hh; simp [hsm] at hh
        · intro _
          refine ⟨?_, he, rfl, ?_⟩
          · show e.len + s.len = (a.ins b posE).out.length
            omega
          · intro m hm'; simp at hm'
      · have hnul : nul = false := by rw [← h.nul_eq, hmem]; rfl
        rw [hmem] at hcap hfit
        simp only [Mem.cap] at hcap hfit
        have hm1 := hm m hmem
        rcases hs with rfl | ⟨hs1, hs2⟩
        · simp only [UB.len] at hfit
          have hlen : (insertMem m e.len posE b).length = m.length :=
            insertMem_length (by omega) (by omega)
          refine ⟨?_, ?_, h.ub, ?_, ?_, ?_, ?_⟩
          · simp only [Mem.cap]; omega
          · simp [Mem.isNull, hnul]
          · simp only; omega
          · simpa only [Ideal.Inv, hout] using hinv
          · intro hh; simp [hsm] at hh
          · intro _
            refine ⟨?_, he, rfl, ?_⟩
            · show e.len + b.length = (a.ins b posE).out.length
              omega
            · intro m' hm'
              simp only [Mem.buf.injEq] at hm'
              subst hm'
              simp only
              rw [insertMem_take (by omega) (by omega), hm1]
              rfl
        · have hb : b = [] := by
            rcases hs1 with h1 | h1
            · rw [hnul] at h1; cases h1
            · exact h1
          subst hb
          simp only [List.length_nil] at hs2
          have hgoal : Rel cap nul { e with nest := nsE } { a.ins [] posE with nest := nsE } := by
            refine ⟨h.cap_eq, h.nul_eq, h.ub, h.le, ?_, ?_, ?_⟩
            · simpa only [Ideal.Inv, hout] using hinv
            · intro hh; simp [hsm] at hh
            · intro _
              refine ⟨?_, he, rfl, ?_⟩
              · show e.len = (a.ins [] posE).out.length
                rw [hout]; simpa using hl
              · intro m' hm'
                show _ = (a.ins [] posE).out
                simpa [Ideal.ins] using hm m' hm'
          cases s with
          | null n =>
            simp only [UB.len] at hs2
            subst hs2
            simpa using hgoal
          | data b' =>
            simp only [UB.len] at hs2
            have : b' = [] := List.length_eq_zero_iff.mp hs2
            subst this
            have h0 : insertMem m e.len posE [] = m := by
              simp only [insertMem, List.append_nil, List.length_nil, Nat.add_zero]
              rw [List.append_assoc]
              have : (List.drop posE m).take (e.len - posE) ++ List.drop e.len m = List.drop posE m := by
                have : List.drop e.len m = List.drop (e.len - posE) (List.drop posE m) := by
                  rw [List.drop_drop]; congr 1; omega
                rw [this, List.take_append_drop]
              rw [this, List.take_append_drop]
            simp only [h0, List.length_nil, Nat.add_zero]
            rw [← hmem]
            exact hgoal

theorem append_rel (h : Rel cap nul e a) {s : UB} {b : Bytes} (hs : Src nul s b) :
    Rel cap nul (e.append s) { a with out := a.out ++ b } := by
  have h1 := insert_rel h hs (posE := e.len) (pos := a.out.length) (ns := a.nest)
    (nsE := e.nest) (fun hsm => (h.good hsm).1) (Nat.le_refl _)
    (fun hsm => (h.good hsm).2.2.1) (Ideal.Sorted.mono h.inv (by omega))
  have hn : (e.insert s e.len).nest = e.nest := by
    unfold Enc.insert
    repeat' split
    all_goals rfl
  have h2 : ({ e.insert s e.len with nest := e.nest } : Enc) = e.append s := by
    unfold Enc.append; rw [← hn]
  rw [h2] at h1
  simpa [Ideal.ins] using h1

theorem of_small (h : Rel cap nul e a) (hs : e.small = true) {e' : Enc} {a' : Ideal}
    (h1 : e'.mem = e.mem) (h2 : e'.len = e.len) (h3 : e'.small = true) (h4 : e'.ub = e.ub)
    (hi : a'.Inv) (hl : a.out.length ≤ a'.out.length) : Rel cap nul e' a' := by
  refine ⟨?_, ?_, ?_, ?_, hi, ?_, ?_⟩
  · rw [h1]; exact h.cap_eq
  · rw [h1]; exact h.nul_eq
  · rw [h4]; exact h.ub
  · rw [h2]; exact h.le
  · intro _; have := h.small hs; omega
  · intro hh; rw [h3] at hh; cases hh

theorem of_good (h : Rel cap nul e a) (hs : e.small = false) {e' : Enc} {a' : Ideal}
    (h1 : e'.mem = e.mem) (h2 : e'.len = e.len) (h3 : e'.small = false) (h4 : e'.ub = e.ub)
    (hi : a'.Inv) (hl : a'.out = a.out) (he : e'.err = a'.err) (hn : e'.nest = a'.nest) :
    Rel cap nul e' a' := by
  obtain ⟨g1, g2, g3, g4⟩ := h.good hs
  refine ⟨?_, ?_, ?_, ?_, hi, ?_, ?_⟩
  · rw [h1]; exact h.cap_eq
  · rw [h1]; exact h.nul_eq
  · rw [h4]; exact h.ub
  · rw [h2]; exact h.le
  · intro hh; rw [h3] at hh; cases hh
  · intro _
    refine ⟨?_, he, hn, ?_⟩
    · rw [h2, hl]; exact g1
    · intro m hm; rw [h2, hl]; exact g4 m (by rw [← hm, h1])

end Rel

namespace Ideal

theorem bump_out (a : Ideal) : a.bump.out = a.out := by
  unfold bump; repeat' split
  all_goals rfl

theorem bump_inv {a : Ideal} (h : a.Inv) : a.bump.Inv := by
  unfold bump Inv at *
  split
  · exact h
  · rename_i n ns hn
    rw [hn] at h
    split
    · rw [hn]; exact h
    · exact h

theorem addItem_len (a : Ideal) (x y : Bytes) : a.out.length ≤ (a.addItem x y).out.length := by
  unfold addItem; repeat' split
  all_goals simp [bump_out]

theorem addItem_inv {a : Ideal} (h : a.Inv) (x y : Bytes) : (a.addItem x y).Inv := by
  unfold addItem
  repeat' split
  · exact h
  · exact h
  · apply bump_inv
    exact Sorted.mono h (by simp)

theorem addTag_len (a : Ideal) (t : Nat) : a.out.length ≤ (a.addTag t).out.length := by
  unfold addTag; repeat' split
  all_goals simp

theorem addTag_inv {a : Ideal} (h : a.Inv) (t : Nat) : (a.addTag t).Inv := by
  unfold addTag
  repeat' split
  · exact h
  · exact h
  · exact Sorted.mono h (by simp)

theorem openLevel_out (a : Ideal) (k : NKind) : (a.openLevel k).out = a.out := by
  unfold openLevel; simp only []
  repeat' split
  all_goals simp [bump_out]

theorem openLevel_inv {a : Ideal} (h : a.Inv) (k : NKind) : (a.openLevel k).Inv := by
  have hb := bump_inv h
  unfold openLevel; simp only []
  repeat' split
  · exact h
  · exact h
  · exact hb
  · exact hb
  · exact hb
  · exact ⟨Nat.le_refl _, hb⟩

theorem closeLevel_len (a : Ideal) (k : NKind) (f : Nest → Bytes) :
    a.out.length ≤ (a.closeLevel k f).out.length := by
  unfold closeLevel; repeat' split
  all_goals simp [ins]
  omega

theorem closeLevel_inv {a : Ideal} (h : a.Inv) (k : NKind) (f : Nest → Bytes) :
    (a.closeLevel k f).Inv := by
  unfold closeLevel
  split
  · exact h
  · split
    · exact h
    · rename_i n ns hn
      unfold Inv at *
      rw [hn] at h
      split
      · rw [hn]; exact h
      · have h1 := h.1
        refine Sorted.mono h.2 ?_
        simp [ins]; omega

end Ideal

namespace Rel
open Enc
variable {cap : Nat} {nul : Bool} {e : Enc} {a : Ideal}

theorem bump_rel (h : Rel cap nul e a) : Rel cap nul e.bump a.bump := by
  have hi := Ideal.bump_inv h.inv
  by_cases hs : e.small = true
  · refine of_small h hs ?_ ?_ ?_ ?_ hi (by rw [Ideal.bump_out]; exact Nat.le_refl _)
    all_goals (unfold Enc.bump; repeat' split)
    all_goals first | rfl | exact hs
  · have hs : e.small = false := by simpa using hs
    obtain ⟨g1, g2, g3, g4⟩ := h.good hs
    refine of_good h hs ?_ ?_ ?_ ?_ hi (Ideal.bump_out a) ?_ ?_
    all_goals unfold Enc.bump
    all_goals try unfold Ideal.bump
    all_goals rw [g3]
    all_goals cases hn : a.nest
    all_goals simp only []
    all_goals try split
    all_goals first | rfl | exact hs | exact g2 | exact g3 | simp_all

theorem inOpenB_eq (h : Rel cap nul e a) (hs : e.small = false) : e.inOpenB = a.inOpenB := by
  unfold Enc.inOpenB Ideal.inOpenB
  rw [(h.good hs).2.2.1]
  cases a.nest <;> rfl

theorem append_small_mono (e : Enc) (s : UB) (h : e.small = true) : e.append s = e :=
  Enc.insert_small_of_small h

theorem addItem_rel (h : Rel cap nul e a) (head : Bytes) {s : UB} {b : Bytes} (hs : Src nul s b) :
    Rel cap nul (e.addItem head s) (a.addItem head b) := by
  have hi := Ideal.addItem_inv h.inv head b
  have hl := Ideal.addItem_len a head b
  by_cases hsm : e.small = true
  · refine of_small h hsm ?_ ?_ ?_ ?_ hi hl
    all_goals unfold Enc.addItem
    all_goals rw [append_small_mono e _ hsm, append_small_mono e _ hsm]
    all_goals unfold Enc.bump
    all_goals repeat' split
    all_goals first | rfl | exact hsm
  · have hsm : e.small = false := by simpa using hsm
    unfold Enc.addItem Ideal.addItem
    rw [inOpenB_eq h hsm, (h.good hsm).2.1]
    split
    · exact h
    · split
      · obtain ⟨g1, g2, g3, g4⟩ := h.good hsm
        exact of_good h hsm rfl rfl hsm rfl h.inv rfl rfl g3
      · exact bump_rel (append_rel (append_rel h (Src.data nul head)) hs)

theorem addTag_rel (h : Rel cap nul e a) (t : Nat) :
    Rel cap nul (e.addTag t) (a.addTag t) := by
  have hi := Ideal.addTag_inv h.inv t
  have hl := Ideal.addTag_len a t
  by_cases hsm : e.small = true
  · refine of_small h hsm ?_ ?_ ?_ ?_ hi hl
    all_goals unfold Enc.addTag
    all_goals rw [append_small_mono e _ hsm]
    all_goals repeat' split
    all_goals first | rfl | exact hsm
  · have hsm : e.small = false := by simpa using hsm
    unfold Enc.addTag Ideal.addTag
    rw [inOpenB_eq h hsm, (h.good hsm).2.1]
    split
    · exact h
    · split
      · obtain ⟨g1, g2, g3, g4⟩ := h.good hsm
        exact of_good h hsm rfl rfl hsm rfl h.inv rfl rfl g3
      · exact append_rel h (Src.data nul _)

theorem openLevel_rel (h : Rel cap nul e a) (k : NKind) :
    Rel cap nul (e.openLevel k) (a.openLevel k) := by
  have hi := Ideal.openLevel_inv h.inv k
  by_cases hsm : e.small = true
  · refine of_small h hsm ?_ ?_ ?_ ?_ hi (by rw [Ideal.openLevel_out]; exact Nat.le_refl _)
    all_goals unfold Enc.openLevel Enc.bump
    all_goals simp only []
    all_goals repeat' split
    all_goals first | rfl | exact hsm
  · have hsm : e.small = false := by simpa using hsm
    have hb := bump_rel h
    have hbs : e.bump.small = false := by
      unfold Enc.bump; repeat' split
      all_goals exact hsm
    obtain ⟨g1, g2, g3, g4⟩ := h.good hsm
    obtain ⟨b1, b2, b3, b4⟩ := hb.good hbs
    have hbi := Ideal.bump_inv h.inv
    unfold Enc.openLevel Ideal.openLevel
    rw [inOpenB_eq h hsm, g2]
    simp only [b1, b2, b3]
    split
    · exact h
    · split
      · exact of_good h hsm rfl rfl hsm rfl h.inv rfl rfl g3
      · split
        · exact hb
        · split
          · exact of_good hb hbs rfl b1.symm hbs rfl hb.inv rfl rfl rfl
          · split
            · exact of_good hb hbs rfl b1.symm hbs rfl hb.inv rfl rfl rfl
            · exact of_good hb hbs rfl b1.symm hbs rfl ⟨Nat.le_refl _, hb.inv⟩ rfl rfl rfl

theorem closeLevel_rel (h : Rel cap nul e a) (k : NKind) {f g : Nest → Bytes}
    (hfg : e.small = false → f = g) :
    Rel cap nul (e.closeLevel k f) (a.closeLevel k g) := by
  have hi := Ideal.closeLevel_inv h.inv k g
  have hl := Ideal.closeLevel_len a k g
  by_cases hsm : e.small = true
  · refine of_small h hsm ?_ ?_ ?_ ?_ hi hl
    all_goals unfold Enc.closeLevel
    all_goals repeat' split
    all_goals first | rfl | exact hsm | simp only [Enc.insert_small_of_small hsm, hsm]
  · have hsm : e.small = false := by simpa using hsm
    obtain ⟨g1, g2, g3, g4⟩ := h.good hsm
    have hfg := hfg hsm
    subst hfg
    unfold Enc.closeLevel Ideal.closeLevel
    rw [g2]
    split
    · exact h
    · rw [g3]
      cases hn : a.nest with
      | nil =>
        simp only []
        exact of_good h hsm rfl rfl hsm rfl trivial rfl rfl rfl
      | cons n ns =>
        simp only []
        split
        · exact of_good h hsm rfl rfl hsm rfl (hn ▸ h.inv) rfl rfl rfl
        · have hinv := h.inv
          unfold Ideal.Inv at hinv
          rw [hn] at hinv
          exact insert_rel h (Src.data nul _) (fun _ => rfl) hinv.1 (fun _ => rfl)
            (Ideal.Sorted.mono hinv.2 (by have := hinv.1; omega))

theorem addBytes_rel (h : Rel cap nul e a) {s : UB} {b : Bytes} (hs : Src nul s b) :
    Rel cap nul (e.addBytes s) (a.addBytes b) := by
  unfold Enc.addBytes Ideal.addBytes
  rw [hs.len]
  exact addItem_rel h _ hs

theorem addText_rel (h : Rel cap nul e a) (b : Bytes) :
    Rel cap nul (e.addText b) (a.addText b) := addItem_rel h _ (Src.data nul b)
theorem addEncoded_rel (h : Rel cap nul e a) {s : UB} {b : Bytes} (hs : Src nul s b) :
    Rel cap nul (e.addEncoded s) (a.addEncoded b) := addItem_rel h _ hs
theorem addInt_rel (h : Rel cap nul e a) (i : Int) :
    Rel cap nul (e.addInt i) (a.addInt i) := addItem_rel h _ (Src.nil nul)
theorem addUInt_rel (h : Rel cap nul e a) (i : Nat) :
    Rel cap nul (e.addUInt i) (a.addUInt i) := addItem_rel h _ (Src.nil nul)
theorem addNull_rel (h : Rel cap nul e a) :
    Rel cap nul e.addNull a.addNull := addItem_rel h _ (Src.nil nul)
theorem openArray_rel (h : Rel cap nul e a) : Rel cap nul e.openArray a.openArray :=
  openLevel_rel h _
theorem openMap_rel (h : Rel cap nul e a) : Rel cap nul e.openMap a.openMap :=
  openLevel_rel h _
theorem bstrWrap_rel (h : Rel cap nul e a) : Rel cap nul e.bstrWrap a.bstrWrap :=
  openLevel_rel h _
theorem closeArray_rel (h : Rel cap nul e a) : Rel cap nul e.closeArray a.closeArray :=
  closeLevel_rel h _ fun _ => rfl
theorem closeMap_rel (h : Rel cap nul e a) : Rel cap nul e.closeMap a.closeMap :=
  closeLevel_rel h _ fun _ => rfl
theorem closeBstr_rel (h : Rel cap nul e a) : Rel cap nul e.closeBstrWrap2.1 a.closeBstr :=
  closeLevel_rel h _ fun hs => by rw [(h.good hs).1]

theorem init_rel (m : Mem) : Rel m.cap m.isNull (Enc.init m) Ideal.init where
  cap_eq := rfl
  nul_eq := rfl
  ub := rfl
  le := Nat.zero_le _
  inv := trivial
  small := by simp [Enc.init]
  good := by simp [Enc.init, Ideal.init]

/-- How the ideal encoder sees the outcome of a signing procedure: `s` are the
octets in real memory (fitting in the room), or any octets of the right length
when only the size is known. -/
def SigSrc (cap : Nat) (nul : Bool) (len : Nat) (sig : UB) (s : Bytes) : Prop :=
  (sig = .data s ∧ nul = false ∧ s.length ≤ cap - len) ∨
  (sig = .null s.length ∧ (nul = true ∨ cap ≤ len))

/-- Writing and closing the signature. -/
def putSig (e : Enc) (sig : UB) : Enc :=
  (match sig with | .data s => e.writePlace s | .null _ => e).closeBytes sig.len

theorem putSig_rel (h : Rel cap nul e a) (hsm : e.small = false) {sig : UB} {s : Bytes}
    (hs : SigSrc cap nul e.len sig s) :
    Rel cap nul (putSig e sig) (a.closeBytes s) := by
  obtain ⟨g1, g2, g3, g4⟩ := h.good hsm
  have hle := h.le
  have hiA : ({ a with out := a.out ++ s } : Ideal).Inv :=
    Ideal.Sorted.mono h.inv (by simp)
  -- after writing and advancing
  have key : ∀ e1 : Enc, e1.mem.cap = cap → e1.mem.isNull = nul → e1.ub = false →
      e1.len = e.len → e1.small = false → e1.err = a.err → e1.nest = a.nest →
      (∀ m, e1.mem = .buf m → m.take e.len = a.out ∧
        (s.length ≤ cap - e.len → (m.drop e.len).take s.length = s)) →
      Rel cap nul (e1.closeBytes s.length) (a.closeBytes s) := by
    intro e1 c1 c2 c3 c4 c5 c6 c7 c8
    have hcl : (a.out ++ s).length ≤ (a.closeBytes s).out.length :=
      Ideal.closeLevel_len ({ a with out := a.out ++ s } : Ideal) _ _
    have hci : (a.closeBytes s).Inv := Ideal.closeLevel_inv hiA _ _
    unfold Enc.closeBytes Enc.advance
    simp only [c5, Bool.false_eq_true, if_false]
    split
    · rename_i hf
      simp only [if_true]
      refine ⟨c1, c2, c3, by rw [← c4] at hle; exact hle, hci, ?_, ?_⟩
      · intro _
        simp only [List.length_append] at hcl
        omega
      · intro hh; simp at hh
    · rename_i hf
      simp only [Bool.false_eq_true, if_false]
      have hr : Rel cap nul { e1 with len := e1.len + s.length, small := false } { a with out := a.out ++ s } := by
        refine ⟨c1, c2, c3, by simp only; omega, hiA, ?_, ?_⟩
        · intro hh; simp at hh
        · intro _
          refine ⟨by simp only [List.length_append]; omega, c6, c7, ?_⟩
          intro m hm
          obtain ⟨d1, d2⟩ := c8 m hm
          have d2 := d2 (by omega)
          simp only [c4]
          rw [List.take_add, d1, d2]
      exact closeLevel_rel hr _ fun _ => rfl
  unfold putSig
  rcases hs with ⟨rfl, hn, hroom⟩ | ⟨rfl, hn⟩
  · simp only [UB.len]
    rcases hmem : e.mem with c | m
    · have := h.nul_eq; rw [hmem] at this; simp [Mem.isNull] at this; simp [this] at hn
    · have hc := h.cap_eq
      rw [hmem] at hc
      simp only [Mem.cap] at hc
      have hlen : (m.take e.len ++ s ++ m.drop (e.len + s.length)).length = m.length := by
        simp; omega
      have he1 : e.writePlace s
          = { e with mem := .buf (m.take e.len ++ s ++ m.drop (e.len + s.length)) } := by
        unfold Enc.writePlace; rw [hmem]; simp only []; rw [if_neg (by omega)]
      rw [he1]
      refine key _ (by simp only [Mem.cap]; omega) (by simp [Mem.isNull, hn]) h.ub rfl hsm g2 g3 ?_
      intro m' hm'
      simp only [Mem.buf.injEq] at hm'
      subst hm'
      have ht : (m.take e.len).length = e.len := by simp; omega
      constructor
      · rw [List.append_assoc, List.take_append_of_le_length (by omega), List.take_take,
          Nat.min_self]
        exact g4 m hmem
      · intro _
        rw [List.append_assoc, List.drop_append, ht, Nat.sub_self, List.drop_zero,
          List.drop_of_length_le (by omega), List.nil_append,
          List.take_append_of_le_length (Nat.le_refl _), List.take_length]
  · simp only [UB.len]
    refine key e h.cap_eq h.nul_eq h.ub rfl hsm g2 g3 ?_
    intro m hm
    refine ⟨g4 m hm, ?_⟩
    intro hroom
    rcases hn with hn | hn
    · have := h.nul_eq; rw [hm] at this; simp [Mem.isNull] at this; simp [this] at hn
    · have : s.length = 0 := by omega
      have : s = [] := List.length_eq_zero_iff.mp this
      subst this; simp

/-- A slice of the output that lies before the end is readable through a
reference. -/
theorem deref_slice (h : Rel cap nul e a) (hsm : e.small = false) {off n : Nat}
    (hn : nul = false) (ho : off + n ≤ a.out.length) :
    e.deref (.at off n) = .data ((a.out.drop off).take n) := by
  obtain ⟨g1, g2, g3, g4⟩ := h.good hsm
  rcases hmem : e.mem with c | m
  · have := h.nul_eq; rw [hmem] at this; simp [Mem.isNull] at this; simp [this] at hn
  · unfold Enc.deref
    rw [hmem]
    simp only [UB.data.injEq]
    rw [← g4 m hmem, List.drop_take, List.take_take]
    congr 1
    omega

end Rel
end TCose
