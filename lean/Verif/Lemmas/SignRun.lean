import Verif.Lemmas.Ideal
import Verif.TCose.Sign

/-! Helper lemmas: closed form of what the signing functions write. -/

namespace TCose
open Enc (PRef Place maxStart)

/-- The enclosing level can take another item. -/
def LvlOk : List Nest → Prop
  | [] => True
  | n :: _ => n.kind ≠ .openB ∧ n.count < 65534

def bumpN : List Nest → List Nest
  | [] => []
  | n :: ns => { n with count := n.count + 1 } :: ns

@[simp] theorem bumpN_length (ns : List Nest) : (bumpN ns).length = ns.length := by
  cases ns <;> rfl

namespace Ideal

theorem bump_ok {o : Bytes} {ns : List Nest} (h : LvlOk ns) :
    (⟨o, none, ns⟩ : Ideal).bump = ⟨o, none, bumpN ns⟩ := by
  cases ns with
  | nil => rfl
  | cons n ns =>
    have := h.2
    have h2 : ¬ (n.count + 1 ≥ Enc.maxItems + 1) := by unfold Enc.maxItems; omega
    simp only [bump, bumpN, if_neg h2]

theorem inOpenB_ok {o : Bytes} {ns : List Nest} {er : Option EncErr} (h : LvlOk ns) :
    (⟨o, er, ns⟩ : Ideal).inOpenB = false := by
  cases ns with
  | nil => rfl
  | cons n ns => have := h.1; simp [inOpenB, this]

theorem addItem_ok {o x y : Bytes} {ns : List Nest} (h : LvlOk ns) :
    (⟨o, none, ns⟩ : Ideal).addItem x y = ⟨o ++ x ++ y, none, bumpN ns⟩ := by
  simp [addItem, inOpenB_ok h, bump_ok h]

theorem addTag_ok {o : Bytes} {t : Nat} {ns : List Nest} (h : LvlOk ns) :
    (⟨o, none, ns⟩ : Ideal).addTag t = ⟨o ++ encodeHead 6 t, none, ns⟩ := by
  simp [addTag, inOpenB_ok h]

theorem openLevel_ok {o : Bytes} {ns : List Nest} (k : NKind) (h : LvlOk ns)
    (hd : ns.length < 15) (hp : o.length < maxStart) :
    (⟨o, none, ns⟩ : Ideal).openLevel k = ⟨o, none, ⟨k, o.length, 0⟩ :: bumpN ns⟩ := by
  have hd' : ¬ Enc.maxNesting ≤ ns.length := by unfold Enc.maxNesting; omega
  have hp' : ¬ maxStart ≤ o.length := by omega
  simp [openLevel, inOpenB_ok h, bump_ok h, hd', hp']

theorem openLevel_big {o : Bytes} {ns : List Nest} (k : NKind) (h : LvlOk ns)
    (hp : maxStart ≤ o.length) :
    ((⟨o, none, ns⟩ : Ideal).openLevel k).err = some .bufferTooLarge := by
  simp [openLevel, inOpenB_ok h, bump_ok h, hp]

theorem closeLevel_ok {o c : Bytes} {ns : List Nest} (k : NKind) (n : Nat) (f : Nest → Bytes) :
    (⟨o ++ c, none, ⟨k, o.length, n⟩ :: ns⟩ : Ideal).closeLevel k f
      = ⟨o ++ f ⟨k, o.length, n⟩ ++ c, none, ns⟩ := by
  simp [closeLevel, ins]

theorem addItem_cons {o x y : Bytes} {k : NKind} {s c : Nat} {ns : List Nest}
    (hk : k ≠ .openB) (hc : c < 65534) :
    (⟨o, none, ⟨k, s, c⟩ :: ns⟩ : Ideal).addItem x y
      = ⟨o ++ x ++ y, none, ⟨k, s, c + 1⟩ :: ns⟩ := addItem_ok ⟨hk, hc⟩

theorem openLevel_cons {o : Bytes} {k : NKind} {s c : Nat} {ns : List Nest} (k' : NKind)
    (hk : k ≠ .openB) (hc : c < 65534) (hd : ns.length < 14) (hp : o.length < maxStart) :
    (⟨o, none, ⟨k, s, c⟩ :: ns⟩ : Ideal).openLevel k'
      = ⟨o, none, ⟨k', o.length, 0⟩ :: ⟨k, s, c + 1⟩ :: ns⟩ :=
  openLevel_ok k' ⟨hk, hc⟩ (by simp; omega) hp

theorem closeLevel_nil {o : Bytes} {ns : List Nest} (k : NKind) (n : Nat) (f : Nest → Bytes) :
    (⟨o, none, ⟨k, o.length, n⟩ :: ns⟩ : Ideal).closeLevel k f
      = ⟨o ++ f ⟨k, o.length, n⟩, none, ns⟩ := by
  simp [closeLevel, ins]

/-! Errors stick. -/

theorem addItem_err {a : Ideal} (h : a.err.isSome) (x y : Bytes) : a.addItem x y = a := by
  simp [addItem, h]
theorem openLevel_err {a : Ideal} (h : a.err.isSome) (k : NKind) : a.openLevel k = a := by
  simp [openLevel, h]
theorem closeLevel_err {a : Ideal} (h : a.err.isSome) (k : NKind) (f : Nest → Bytes) :
    a.closeLevel k f = a := by
  simp [closeLevel, h]
theorem closeBytes_err {a : Ideal} (h : a.err.isSome) (s : Bytes) :
    (a.closeBytes s).err = a.err := by
  unfold closeBytes
  rw [closeLevel_err (a := { a with out := a.out ++ s }) h]

end Ideal

/-! ## The pieces of the message -/

def protMap (alg : Int) : Bytes := encodeHead 5 1 ++ (Enc.intHead 1 ++ Enc.intHead alg)
def tagBytes (tagged : Bool) : Bytes := if tagged then encodeHead 6 18 else []
def bstrBytes (b : Bytes) : Bytes := encodeHead 2 b.length ++ b

/-- Content-type part of the context as the code sees it. -/
inductive CtArg where
  | none | num (n : Nat) | text (t : Bytes) | both
  deriving DecidableEq

def ctArg (cfg : Config) (me : SignCtx) : CtArg :=
  if cfg.disableContentType then .none
  else if me.contentTypeUint ≠ emptyContentType then
    (match me.contentTypeTstr with | some _ => .both | Option.none => .num me.contentTypeUint)
  else (match me.contentTypeTstr with | some t => .text t | Option.none => .none)

/-- The kid that goes into the message. -/
def kidArg (me : SignCtx) : UB :=
  if hasFlag me.flags optShortCircuit ∧ me.kid.isNullOrEmpty then UB.data shortCircuitKid
  else me.kid

def kidBytes (kid : Bytes) : Bytes :=
  if kid.isEmpty then [] else Enc.intHead 4 ++ bstrBytes kid

def ctBytes : CtArg → Bytes
  | .none => []
  | .num n => Enc.intHead 3 ++ encodeHead 0 n
  | .text t => Enc.intHead 3 ++ (encodeHead 3 t.length ++ t)
  | .both => []

def mapCount (kid : Bytes) (ct : CtArg) : Nat :=
  (if kid.isEmpty then 0 else 1) + (match ct with | .none => 0 | .both => 0 | _ => 1)

def unprotBytes (kid : Bytes) (ct : CtArg) : Bytes :=
  encodeHead 5 (mapCount kid ct) ++ (kidBytes kid ++ ctBytes ct)

/-! ## Ideal runs -/

namespace Ideal

def prot (alg : Int) (a : Ideal) : Ideal :=
  (((((a.bstrWrap).openMap).addInt 1).addInt alg).closeMap).closeBstr

def unprot (kid : Bytes) (ct : CtArg) (a : Ideal) : Ideal :=
  let a := a.openMap
  let a := if kid.isEmpty then a else (a.addInt 4).addBytes kid
  let a := match ct with
    | .none => a
    | .both => a
    | .num n => (a.addInt 3).addUInt n
    | .text t => (a.addInt 3).addText t
  a.closeMap

theorem intHead_length_le (i : Int) : (Enc.intHead i).length ≤ 9 := by
  unfold Enc.intHead; split <;> exact encodeHead_length_le _ _

theorem protMap_length_le (alg : Int) : (protMap alg).length ≤ 11 := by
  have := intHead_length_le alg
  simp only [protMap, List.length_append]
  have h1 : (encodeHead 5 1).length = 1 := rfl
  have h2 : (Enc.intHead 1).length = 1 := rfl
  omega

theorem prot_ok {o : Bytes} {ns : List Nest} (alg : Int) (h : LvlOk ns) (hd : ns.length ≤ 13)
    (hp : o.length < maxStart) :
    (⟨o, none, ns⟩ : Ideal).prot alg
      = ⟨o ++ bstrBytes (protMap alg), none, bumpN ns⟩ := by
  unfold prot bstrWrap openMap addInt closeMap
  rw [openLevel_ok _ h (by omega) hp]
  rw [openLevel_cons _ (by decide) (by decide) (by simp; omega) hp]
  rw [addItem_cons (by decide) (by decide), addItem_cons (by decide) (by decide)]
  simp only [List.append_nil]
  rw [List.append_assoc, closeLevel_ok]
  simp only [closeBstr]
  rw [List.append_assoc, closeLevel_ok]
  simp [bstrBytes, protMap]

theorem unprot_ok {o : Bytes} {ns : List Nest} (kid : Bytes) (ct : CtArg) (h : LvlOk ns)
    (hd : ns.length ≤ 14) (hp : o.length < maxStart) :
    (⟨o, none, ns⟩ : Ideal).unprot kid ct
      = ⟨o ++ unprotBytes kid ct, none, bumpN ns⟩ := by
  unfold unprot openMap addInt closeMap addBytes addUInt addText
  rw [openLevel_ok _ h (by omega) hp]
  by_cases hk : kid.isEmpty
  · simp only [hk, if_true]
    cases ct with
    | none => simp [closeLevel_nil, unprotBytes, kidBytes, ctBytes, mapCount, hk]
    | both => simp [closeLevel_nil, unprotBytes, kidBytes, ctBytes, mapCount, hk]
    | num n =>
      simp only []
      rw [addItem_cons (by decide) (by decide), addItem_cons (by decide) (by decide)]
      simp only [List.append_nil, List.append_assoc]
      rw [closeLevel_ok]
      simp [unprotBytes, kidBytes, ctBytes, mapCount, hk]
    | text n =>
      simp only []
      rw [addItem_cons (by decide) (by decide), addItem_cons (by decide) (by decide)]
      simp only [List.append_nil, List.append_assoc]
      rw [closeLevel_ok]
      simp [unprotBytes, kidBytes, ctBytes, mapCount, hk]
  · have hk : kid.isEmpty = false := by simpa using hk
    simp only [hk, Bool.false_eq_true, if_false]
    rw [addItem_cons (by decide) (by decide), addItem_cons (by decide) (by decide)]
    cases ct with
    | none =>
      simp only [List.append_nil, List.append_assoc]
      rw [closeLevel_ok]
      simp [unprotBytes, kidBytes, ctBytes, mapCount, hk, bstrBytes]
    | both =>
      simp only [List.append_nil, List.append_assoc]
      rw [closeLevel_ok]
      simp [unprotBytes, kidBytes, ctBytes, mapCount, hk, bstrBytes]
    | num n =>
      simp only []
      rw [addItem_cons (by decide) (by decide), addItem_cons (by decide) (by decide)]
      simp only [List.append_nil, List.append_assoc]
      rw [closeLevel_ok]
      simp [unprotBytes, kidBytes, ctBytes, mapCount, hk, bstrBytes]
    | text n =>
      simp only []
      rw [addItem_cons (by decide) (by decide), addItem_cons (by decide) (by decide)]
      simp only [List.append_nil, List.append_assoc]
      rw [closeLevel_ok]
      simp [unprotBytes, kidBytes, ctBytes, mapCount, hk, bstrBytes]

end Ideal
end TCose
