import Verif.Qcbor.Decode
import Verif.Spec.Limits

/-!
# Specification: the elements of a CBOR array or map

A plain reading of the elements of a container, without searching, callbacks or
decoder state.  The header-parameter properties are stated in terms of the
entries it lists.  It uses the trusted item decoder (`entry`, `skipValue`) and
nothing of t_cose.
-/

namespace TCose.Spec
open TCose

/-- One element: its label (maps only), the item, and the position just behind
the item's head. -/
structure Entry where
  label : Option Val
  itm : Itm
  cur : Cur
  deriving Repr, DecidableEq

/-- The elements of a non-empty container with `left` elements (`none`:
indefinite length) starting at `c`, and the position behind the container. -/
def traverse (P : QParams) (m : Bool) (room : Nat) :
    Nat → Option Nat → Cur → Except QErr (List Entry × Cur)
  | 0, _, _ => .error .fuel
  | n + 1, left, c =>
    if c.rest.isEmpty then .error .noMoreItems
    else
      match entry P m c with
      | (.error e, _) => .error e
      | (.ok (l, it), c1) =>
        match skipValue P room it.val c1 with
        | .error e => .error e
        | .ok c2 =>
          match ascend [⟨m, left⟩] c2 with
          | ([], c3) => .ok ([⟨l, it, c1⟩], c3)
          | (l' :: _, c3) =>
            match traverse P m room n l'.left c3 with
            | .error e => .error e
            | .ok (es, c4) => .ok (⟨l, it, c1⟩ :: es, c4)

/-- The elements of a container whose head was just read: none if it is
empty. -/
def elements (P : QParams) (m : Bool) (room : Nat) (n : Option Nat) (c : Cur) :
    Except QErr (List Entry × Cur) :=
  match n with
  | some 0 => .ok ([], c)
  | some k => traverse P m room (c.rest.length + 1) (some k) c
  | none =>
    if c.rest.head? = some 0xff then .ok ([], c.adv 1)
    else traverse P m room (c.rest.length + 1) none c

/-- A COSE_Sign1 message laid open: tags (innermost first), the octets of the
protected header, the parameters in both headers, payload, signature, and
whatever else is in the array. -/
structure MsgView where
  tags : List Nat
  prot : Str
  protEntries : List Entry
  unprotEntries : List Entry
  payload : Val
  payloadTags : List Nat
  sig : Str
  extra : List Entry
  deriving Repr, DecidableEq

/-- The wrapped protected header `s` holds the parameters `es`: none if it is
empty, else it starts with a map of them. (15 nesting levels, two of them
taken outside.) -/
def IsProtected (P : QParams) (s : Str) (es : List Entry) : Prop :=
  (s.bytes = [] ∧ es = []) ∨
  (s.bytes ≠ [] ∧ ∃ it k c3 c4, entry P false ⟨s.off, s.bytes⟩ = (.ok (none, it), c3) ∧
    it.val = .map k ∧ it.err = none ∧ elements P true 12 k c3 = .ok (es, c4))

/-- `msg` is an array, and nothing more, that starts with a byte string, a map,
any item and a byte string, laid open in `v`. -/
def IsView (P : QParams) (msg : Bytes) (v : MsgView) : Prop :=
  msg.length ≤ maxMessage ∧ ∃ n c1 e0 e1 e2 e3 cEnd m c2,
    entry P false ⟨0, msg⟩ = (.ok (none, ⟨.arr n, v.tags, none⟩), c1) ∧
    elements P false 14 n c1 = .ok (e0 :: e1 :: e2 :: e3 :: v.extra, cEnd) ∧
    cEnd.rest = [] ∧
    e0.itm = ⟨.bstr v.prot, [], none⟩ ∧ IsProtected P v.prot v.protEntries ∧
    e1.itm.val = .map m ∧ e1.itm.err = none ∧
    elements P true 13 m e1.cur = .ok (v.unprotEntries, c2) ∧
    e2.itm = ⟨v.payload, v.payloadTags, none⟩ ∧
    e3.itm = ⟨.bstr v.sig, [], none⟩

end TCose.Spec
