import Verif.Cbor

/-!
# The QCBOR encoder operations used by t_cose

QCBOR is external (not in /repo): this is the trusted model of the calls made
in src/t_cose_sign1_sign.c and src/t_cose_util.c.  It follows QCBOR 1.2:
`UsefulOutBuf` with a sticky "does not fit" error, size-calculation mode when
the storage pointer is NULL, heads of arrays / maps / wrapped byte strings
inserted at close time by sliding the data to the right, and a sticky encoder
error `uError`.

Simplifications: the item count at the top level (outside any array) is not
tracked (QCBOR limits it to 65534); once `uError` is set every operation that
would change the encoder state is a no-op.
-/

namespace TCose

/-- Storage given to `QCBOREncode_Init`: a NULL pointer with a length
(size calculation), or real memory of `m.length` octets. -/
inductive Mem where
  | null (cap : Nat)
  | buf (m : Bytes)
  deriving Repr, DecidableEq

def Mem.cap : Mem → Nat
  | .null c => c
  | .buf m => m.length

def Mem.isNull : Mem → Bool
  | .null _ => true
  | .buf _ => false

/-- Kind of an open nesting level. `openB` is `CBOR_MAJOR_NONE_TYPE_OPEN_BSTR`
from `QCBOREncode_OpenBytes`; `arrI` and `mapI` are the indefinite-length
array and map (`CBOR_MAJOR_NONE_TYPE_ARRAY_INDEFINITE_LEN`, `..._MAP_...`). -/
inductive NKind where
  | arr | map | bstr | openB | arrI | mapI
  deriving Repr, DecidableEq

/-- One level of `QCBORTrackNesting`. -/
structure Nest where
  kind : NKind
  start : Nat
  count : Nat
  deriving Repr, DecidableEq

/-- Encoder errors (`QCBORError` values set by the encoder; the
buffer-too-small condition is the separate `small` flag). -/
inductive EncErr where
  | bufferTooLarge | nestingTooDeep | arrayTooLong | tooManyCloses
  | closeMismatch | openByteString | stillOpen
  deriving Repr, DecidableEq

/-- `QCBOREncodeContext`. `small` is `UsefulOutBuf.err`; `err` is `uError`;
`nest` are the open levels, innermost first; `ub` is a ghost flag that records
that undefined behaviour happened (octets copied from a NULL pointer into real
memory, or a crypto adapter writing past the room it was given). -/
structure Enc where
  mem : Mem
  len : Nat
  small : Bool
  err : Option EncErr
  nest : List Nest
  ub : Bool
  deriving Repr, DecidableEq

namespace Enc

/-- `QCBOREncode_Init`. -/
def init (m : Mem) : Enc :=
  { mem := m, len := 0, small := false, err := none, nest := [], ub := false }

/-- Memory effect of `UsefulOutBuf_InsertUsefulBuf` on real memory: octets from
`pos` up to `len` slide right by `b.length`. -/
def insertMem (m : Bytes) (len pos : Nat) (b : Bytes) : Bytes :=
  m.take pos ++ b ++ (m.drop pos).take (len - pos) ++ m.drop (len + b.length)

/-- `UsefulOutBuf_InsertUsefulBuf` at `pos ≤ len`. -/
def insert (e : Enc) (s : UB) (pos : Nat) : Enc :=
  if e.small then e
  else if e.mem.cap - e.len < s.len then { e with small := true }
  else if e.len < pos then { e with small := true }
  else
    match e.mem, s with
    | .null _, _ => { e with len := e.len + s.len }
    | .buf m, .data b =>
      { e with mem := .buf (insertMem m e.len pos b), len := e.len + b.length }
    | .buf m, .null n =>
      -- memmove from NULL: harmless when n = 0, otherwise undefined
      if n = 0 then e
      else { e with mem := .buf (insertMem m e.len pos (List.replicate n 0)),
                    len := e.len + n, ub := true }

/-- `UsefulOutBuf_AppendUsefulBuf`. -/
def append (e : Enc) (s : UB) : Enc := e.insert s e.len

/-- `QCBOR_MAX_ITEMS_IN_ARRAY`. -/
def maxItems : Nat := 65534

/-- `QCBOR_MAX_ARRAY_NESTING`. -/
def maxNesting : Nat := 15

/-- `UINT32_MAX - sizeof(uint64_t)`, the largest recordable start offset. -/
def maxStart : Nat := 4294967287

/-- `Nesting_Increment`: one more item in the current level. -/
def bump (e : Enc) : Enc :=
  match e.nest with
  | [] => e
  | n :: ns =>
    if n.count + 1 ≥ maxItems + 1 then { e with err := some .arrayTooLong }
    else { e with nest := { n with count := n.count + 1 } :: ns }

/-- True when the current level is an open byte string: adding anything is an
error (`QCBOR_ERR_OPEN_BYTE_STRING`). -/
def inOpenB (e : Enc) : Bool :=
  match e.nest with
  | n :: _ => n.kind == .openB
  | [] => false

/-- `AppendCBORHead` + optional content + `Increment`, the common part of
`QCBOREncode_AddBytes`, `AddText`, `AddInt64`, `AddSimple`, ... -/
def addItem (e : Enc) (head : Bytes) (content : UB) : Enc :=
  if e.err.isSome then e
  else if e.inOpenB then { e with err := some .openByteString }
  else ((e.append (.data head)).append content).bump

/-- `QCBOREncode_AddBytes`. -/
def addBytes (e : Enc) (b : UB) : Enc := e.addItem (encodeHead 2 b.len) b
/-- `QCBOREncode_AddText` / `QCBOREncode_AddSZString`. -/
def addText (e : Enc) (b : Bytes) : Enc := e.addItem (encodeHead 3 b.length) (.data b)
/-- `QCBOREncode_AddEncoded`: raw octets counted as one item. -/
def addEncoded (e : Enc) (b : UB) : Enc := e.addItem [] b
/-- The head octets of `QCBOREncode_AddInt64`. -/
def intHead (i : Int) : Bytes :=
  if i < 0 then encodeHead 1 (-1 - i).toNat else encodeHead 0 i.toNat
/-- `QCBOREncode_AddInt64`. -/
def addInt (e : Enc) (i : Int) : Enc := e.addItem (intHead i) .nil
/-- `QCBOREncode_AddUInt64`. -/
def addUInt (e : Enc) (n : Nat) : Enc := e.addItem (encodeHead 0 n) .nil
/-- `QCBOREncode_AddNULL`: simple value 22, one octet 0xf6. -/
def addNull (e : Enc) : Enc := e.addItem [0xf6] .nil

/-- `QCBOREncode_AddTag`: only a head, not counted as an item. -/
def addTag (e : Enc) (t : Nat) : Enc :=
  if e.err.isSome then e
  else if e.inOpenB then { e with err := some .openByteString }
  else e.append (.data (encodeHead 6 t))

/-- `QCBOREncode_OpenMapOrArray`: counts as an item of the enclosing level,
records the start position, writes nothing. -/
def openLevel (e : Enc) (k : NKind) : Enc :=
  if e.err.isSome then e
  else if e.inOpenB then { e with err := some .openByteString }
  else
    let e1 := e.bump
    if e1.err.isSome then e1
    else if e1.len ≥ maxStart then { e1 with err := some .bufferTooLarge }
    else if e1.nest.length ≥ maxNesting then { e1 with err := some .nestingTooDeep }
    else { e1 with nest := { kind := k, start := e1.len, count := 0 } :: e1.nest }

/-- `QCBOREncode_OpenArray`. -/
def openArray (e : Enc) : Enc := e.openLevel .arr
/-- `QCBOREncode_OpenMap`. -/
def openMap (e : Enc) : Enc := e.openLevel .map
/-- `QCBOREncode_BstrWrap`. -/
def bstrWrap (e : Enc) : Enc := e.openLevel .bstr

/-- `InsertCBORHead`: check the level, insert the head at the start of the
level, pop it. -/
def closeLevel (e : Enc) (k : NKind) (head : Nest → Bytes) : Enc :=
  if e.err.isSome then e
  else
    match e.nest with
    | [] => { e with err := some .tooManyCloses }
    | n :: ns =>
      if n.kind ≠ k then { e with err := some .closeMismatch }
      else { e.insert (.data (head n)) n.start with nest := ns }

/-- `QCBOREncode_CloseArray`. -/
def closeArray (e : Enc) : Enc := e.closeLevel .arr fun n => encodeHead 4 n.count
/-- `QCBOREncode_CloseMap`: labels and values are counted separately. -/
def closeMap (e : Enc) : Enc := e.closeLevel .map fun n => encodeHead 5 (n.count / 2)

/-- `AppendCBORHead` on its own: nothing is counted. -/
def addHead (e : Enc) (head : Bytes) : Enc :=
  if e.err.isSome then e
  else if e.inOpenB then { e with err := some .openByteString }
  else e.append (.data head)

/-- `QCBOREncode_OpenArrayIndefiniteLength`: the initial octet 0x9f, then the
bookkeeping of a definite-length open. -/
def openArrayIndef (e : Enc) : Enc := (e.addHead [0x9f]).openLevel .arrI
/-- `QCBOREncode_OpenMapIndefiniteLength`: initial octet 0xbf. -/
def openMapIndef (e : Enc) : Enc := (e.addHead [0xbf]).openLevel .mapI

/-- `QCBOREncode_CloseMapOrArrayIndefiniteLength`: check the level, append the
break octet, pop the level. -/
def closeIndef (e : Enc) (k : NKind) : Enc :=
  if e.err.isSome then e
  else
    match e.nest with
    | [] => { e with err := some .tooManyCloses }
    | n :: ns =>
      if n.kind ≠ k then { e with err := some .closeMismatch }
      else { e.append (.data [0xff]) with nest := ns }

/-- `QCBOREncode_CloseArrayIndefiniteLength`. -/
def closeArrayIndef (e : Enc) : Enc := e.closeIndef .arrI
/-- `QCBOREncode_CloseMapIndefiniteLength`. -/
def closeMapIndef (e : Enc) : Enc := e.closeIndef .mapI

/-- `QCBOREncode_AddBool`: simple value 21 or 20. -/
def addBool (e : Enc) (b : Bool) : Enc := e.addItem [if b then 0xf5 else 0xf4] .nil

/-- A reference into the output buffer as stored in
`t_cose_sign1_sign_ctx.protected_parameters`: NULL with a length, or
offset and length relative to the start of the output buffer. -/
inductive PRef where
  | null (len : Nat)
  | at (off len : Nat)
  deriving Repr, DecidableEq

/-- Read through a reference, now. -/
def deref (e : Enc) : PRef → UB
  | .null n => .null n
  | .at off n =>
    match e.mem with
    | .null _ => .null n
    | .buf m => .data ((m.drop off).take n)

/-- Start of the current level, `Nesting_GetStartPos` (0 at the top level). -/
def curStart (e : Enc) : Nat :=
  match e.nest with
  | [] => 0
  | n :: _ => n.start

/-- `UsefulOutBuf_OutUBuf` followed by `UsefulBuf_Tail`. -/
def outTail (e : Enc) (start : Nat) : PRef :=
  if e.small then .null 0
  else if e.len < start then .null 0
  else match e.mem with
    | .null _ => .null (e.len - start)
    | .buf _ => .at start (e.len - start)

/-- `QCBOREncode_CloseBstrWrap2(ctx, false, &wrapped)`. The wrapped content
starts after the head that was just inserted. -/
def closeBstrWrap2 (e : Enc) : Enc × PRef :=
  let e' := e.closeLevel .bstr fun n => encodeHead 2 (e.len - n.start)
  (e', e'.outTail (e.curStart + (e'.len - e.len)))

/-- Room handed out by `QCBOREncode_OpenBytes`
(`UsefulOutBuf_GetOutPlace`): NULL in size mode or when there is no room. -/
inductive Place where
  | null
  | room (n : Nat)
  deriving Repr, DecidableEq

def outPlace (e : Enc) : Place :=
  match e.mem with
  | .null _ => .null
  | .buf m => if m.length - e.len > 0 then .room (m.length - e.len) else .null

/-- `QCBOREncode_OpenBytes`. -/
def openBytes (e : Enc) : Enc × Place := (e.openLevel .openB, e.outPlace)

/-- The crypto adapter writes the signature `s` at the place handed out by
`openBytes`. Writing more than the room is undefined behaviour. -/
def writePlace (e : Enc) (s : Bytes) : Enc :=
  match e.mem with
  | .null _ => e
  | .buf m =>
    if m.length - e.len < s.length then { e with ub := true }
    else { e with mem := .buf (m.take e.len ++ s ++ m.drop (e.len + s.length)) }

/-- `UsefulOutBuf_Advance`. -/
def advance (e : Enc) (n : Nat) : Enc :=
  if e.small then e
  else if e.mem.cap - e.len < n then { e with small := true }
  else { e with len := e.len + n }

/-- `QCBOREncode_CloseBytes`. -/
def closeBytes (e : Enc) (n : Nat) : Enc :=
  let e1 := e.advance n
  if e1.small then e1
  else e1.closeLevel .openB fun _ => encodeHead 2 n

/-- `QCBOREncode_GetErrorState`, in the three classes t_cose distinguishes. -/
inductive EncState where
  | ok | tooSmall | other (e : EncErr)
  deriving Repr, DecidableEq

def errState (e : Enc) : EncState :=
  if e.small then .tooSmall
  else match e.err with
    | some x => .other x
    | none => .ok

/-- `QCBOREncode_Finish`: the encoded output, or an error. In size mode the
result is a NULL pointer with the length. -/
def finish (e : Enc) : Except EncState UB :=
  match e.errState with
  | .ok =>
    if e.nest.isEmpty then
      match e.mem with
      | .null _ => .ok (.null e.len)
      | .buf m => .ok (.data (m.take e.len))
    else .error (.other .stillOpen)
  | s => .error s

end Enc
end TCose
