import Verif.Spec.Read

/-!
# Specification: what a verifier makes of the headers of any message

`Message.Valid` (Spec.Message) says when the headers follow the rules.  Here is
what becomes of *any* headers, good or bad: the parameters they give, or the
error code of the first fault in the order in which t_cose documents to look.
Only the header as a list of parameters is used, not its encoding.
-/

namespace TCose.Spec
open TCose

/-- The integer in an item, if it fits `int64_t`.  (Negative integers below that
are outside QCBOR's limits, see `Item.fits`.) -/
def Item.int64? : Item → Option Int
  | .uint n => if n ≤ 9223372036854775807 then some n else none
  | .nint n => some (-1 - (n : Int))
  | _ => none

/-- The octets of a byte string. -/
def Item.bytes? : Item → Option Bytes
  | .bstr b => some b
  | _ => none

/-- The octets of a text string. -/
def Item.text? : Item → Option Bytes
  | .tstr b => some b
  | _ => none

/-- What stands for an item that could not be read, because of the tags around it or its
range (`Item.untag` in Spec.Untag).  The simple value 25 has no encoding. -/
def unread : Item := .simple 25

/-- The item could be read. -/
def Item.isRead : Item → Bool
  | .simple n => n != 24 && n != 25
  | _ => true

/-- The item is tagged. -/
def Item.isTag : Item → Bool
  | .tag _ _ => true
  | _ => false

/-- No tags on the parameters of RFC 8152 table 2, nor on the labels listed in
crit. -/
def Header.Plain (h : Header) : Prop :=
  ∀ i x, (Label.int i, x) ∈ h → 1 ≤ i → i ≤ 6 → x.isTag = false ∧
    ∀ xs, x = .arr xs → ∀ y ∈ xs, y.isTag = false

/-- The parameter is not of the type that RFC 8152 table 2 gives: alg (1) an
integer, kid (4), IV (5) and Partial IV (6) byte strings.  The content type (3)
is looked at later, if it can be read at all. -/
def wrongType (i : Int) (x : Item) : Prop :=
  (i = 1 ∧ x.int64? = none) ∨ ((i = 4 ∨ i = 5 ∨ i = 6) ∧ x.bytes? = none) ∨
    (i = 3 ∧ x.isRead = false)

instance (i : Int) (x : Item) : Decidable (wrongType i x) := by unfold wrongType; infer_instance

/-- Labels of parameters that the verifier does not know. -/
structure Unknown where
  ints : List Int
  texts : List Bytes
  deriving DecidableEq, Repr

/-- The fault of a known parameter that is there twice, of a wrong type or not CBOR. -/
def paramFault (seen : List Int) (i : Int) (x : Item) : Err :=
  if i ∉ seen ∧ x.isNot = true then .cborNotWellFormed else .parameterCbor

/-- Through the parameters in order.  `seen` are the labels of known parameters
so far.  Faults: a known label twice or with a wrong type; an integer label that
does not fit `int64_t`; more than ten unknown integer or text labels.  The label 0
is not recorded. -/
def scan : Header → List Int → Unknown → Except Err Unknown
  | [], _, u => .ok u
  | (.int i, x) :: r, seen, u =>
    if i = 1 ∨ i = 3 ∨ i = 4 ∨ i = 5 ∨ i = 6 then
      if i ∈ seen ∨ wrongType i x then .error (paramFault seen i x) else scan r (i :: seen) u
    else if i = 2 then scan r seen u
    else if 9223372036854775807 < i then .error .parameterCbor
    else if u.ints.length = 10 then .error .tooManyParameters
    else scan r seen (if i = 0 then u else { u with ints := u.ints ++ [i] })
  | (.text t, _) :: r, seen, u =>
    if u.texts.length = 10 then .error .tooManyParameters
    else scan r seen { u with texts := u.texts ++ [t] }

/-- What is known after reading headers: algorithm (0: none), kid, IV, Partial
IV, content type as text and as number, the labels in crit, unknown labels. -/
structure Known where
  alg : Int
  kid : Option Bytes
  iv : Option Bytes
  partialIv : Option Bytes
  ctText : Option Bytes
  ctNum : Option Nat
  critInts : List Int
  critTexts : List Bytes
  ints : List Int
  texts : List Bytes
  deriving DecidableEq, Repr

/-- Nothing. -/
def Known.nothing : Known := ⟨0, none, none, none, none, none, [], [], [], []⟩

/-- The algorithm: in the protected header only, not 0, not above `INT32_MAX`;
of what is left, the low 32 bits as a signed number. -/
def readAlg (prot : Bool) (h : Header) (old : Int) : Except Err Int :=
  match Header.get h 1 with
  | none => .ok old
  | some x =>
    if prot = false then .error .parameterNotProtected
    else
      let i := x.int64?.getD 0
      if i = 0 ∨ 2147483647 < i then .error .nonIntegerAlgId else .ok (Int.bmod i 4294967296)

/-- A byte-string parameter, in one of the headers only. -/
def readBytes (h : Header) (i : Int) (old : Option Bytes) : Except Err (Option Bytes) :=
  match Header.get h i with
  | none => .ok old
  | some x => if old = none then .ok x.bytes? else .error .duplicateParameter

/-- The content type: text, or a number up to 65535; twice the same kind is a
duplicate, except that an empty text may be given again. -/
def readContentType (h : Header) (old : Option Bytes × Option Nat) :
    Except Err (Option Bytes × Option Nat) :=
  match Header.get h 3 with
  | none => .ok old
  | some x =>
    match x.text?, x.int64? with
    | some t, _ => if old.1.getD [] = [] then .ok (some t, old.2) else .error .duplicateParameter
    | none, some i =>
      if i < 0 ∨ 65535 < i then .error .badContentType
      else if old.2 = none then .ok (old.1, some i.toNat)
      else .error .duplicateParameter
    | none, none => .error .badContentType

/-- The elements of a crit array can be used: integers and texts, at most ten of
each, and not "nothing": some first integer other than 0 or some first text other
than the empty one. -/
def critUsable (xs : List Item) : Prop :=
  (∀ x ∈ xs, x.int64?.isSome = true ∨ x.text?.isSome = true) ∧
  (xs.filterMap Item.int64?).length ≤ 10 ∧ (xs.filterMap Item.text?).length ≤ 10 ∧
  ¬ ((xs.filterMap Item.int64?).headD 0 = 0 ∧ (xs.filterMap Item.text?).headD [] = [])

instance (xs : List Item) : Decidable (critUsable xs) := by unfold critUsable; infer_instance

/-- The fault of a crit array that is not usable: an element that cannot be read, if nothing
is wrong with those before it, or something else. -/
def critFault (xs : List Item) : Err :=
  let ys := xs.takeWhile Item.isRead
  if ys.length < xs.length ∧ (∀ x ∈ ys, x.int64?.isSome = true ∨ x.text?.isSome = true) ∧
      (ys.filterMap Item.int64?).length ≤ 10 ∧ (ys.filterMap Item.text?).length ≤ 10 then
    .cborNotWellFormed
  else .critParameter

/-- The crit parameter: at most one, an array, in the protected header only,
usable. -/
def readCrit (prot : Bool) (h : Header) (old : List Int × List Bytes) :
    Except Err (List Int × List Bytes) :=
  match h.filter (fun p => decide (p.1 = .int 2)) with
  | [] => .ok old
  | [(_, .arr xs)] =>
    if prot = false then .error .parameterNotProtected
    else if critUsable xs then .ok (xs.filterMap Item.int64?, xs.filterMap Item.text?)
    else .error (critFault xs)
  | _ => .error .critParameter

/-- One header; `noCt` if the content type is not supported. -/
def readHeader (noCt prot : Bool) (h : Header) (k : Known) : Except Err Known :=
  match scan h [] ⟨k.ints, k.texts⟩ with
  | .error e => .error e
  | .ok u =>
  match readAlg prot h k.alg with
  | .error e => .error e
  | .ok alg =>
  match readBytes h 4 k.kid with
  | .error e => .error e
  | .ok kid =>
  match readBytes h 5 k.iv with
  | .error e => .error e
  | .ok iv =>
  match readBytes h 6 k.partialIv with
  | .error e => .error e
  | .ok piv =>
  match (if noCt then .ok (k.ctText, k.ctNum) else readContentType h (k.ctText, k.ctNum)) with
  | .error e => .error e
  | .ok ct =>
  match readCrit prot h (k.critInts, k.critTexts) with
  | .error e => .error e
  | .ok crit => .ok ⟨alg, kid, iv, piv, ct.1, ct.2, crit.1, crit.2, u.ints, u.texts⟩

/-- Both headers of a message, the protected one first. -/
def Message.read (noCt : Bool) (m : Message) : Except Err Known :=
  match readHeader noCt true m.prot Known.nothing with
  | .error e => .error e
  | .ok k => readHeader noCt false m.unprot k

/-- The payload is not where the caller expects it: inside the message, or
detached. -/
def Message.payloadFault (m : Message) (detached : Bool) : Option Err :=
  match m.payload, detached with
  | some _, false | none, true => none
  | none, false => some .sign1Format
  | some _, true => some .cborFormatting

/-- A parameter that crit lists is present and not known.  Of the integers in
crit, those behind a 0 do not count. -/
def Known.blocked (k : Known) : Prop :=
  (∃ i ∈ k.critInts.takeWhile (· != 0), i ∈ k.ints) ∨ ∃ t ∈ k.critTexts, t ∈ k.texts

instance (k : Known) : Decidable k.blocked := by unfold Known.blocked; infer_instance

end TCose.Spec
