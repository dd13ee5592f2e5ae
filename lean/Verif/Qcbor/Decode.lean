import Verif.Basic

/-!
# The QCBOR decoder operations used by t_cose

QCBOR is external (not in /repo): this is the trusted model of the "spiffy
decode" calls made in src/t_cose_sign1_verify.c and src/t_cose_parameters.c.
It follows QCBOR 1.2.

A decoder position is a cursor: an offset into the message and the octets of
the current window from there on.  Strings are slices (offset and octets), so
that "points into the message" can be stated.

Loops that QCBOR runs over the input take a fuel argument; running out is the
distinct error `QErr.fuel`, and `Verif.Lemmas.DecBase and DecMap` proves it never happens
with the fuel used here.

Simplifications (all recorded in DESIGN.md):
* the built-in handling of tag content (dates, big numbers, URIs, ...) is the
  parameter `QParams.tagProc`, about which nothing is assumed; it never applies
  to arrays and maps (decimal fractions and bigfloats stay arrays);
* QCBOR's table of four large tag numbers is not modelled;
* the peek for a "break" after an item of an indefinite-length container looks
  at the next octet only;
* `GetNext` at an array level is only modelled for use as t_cose uses it: an
  array or map that was fetched with it but not entered is not stepped over.
-/

namespace TCose

/-- The decoder error codes that matter (`QCBORError`, qcbor_common.h). -/
inductive QErr where
  | badType7 | extraBytes | unsupported | unconsumed | badInt
  | hitEnd | badBreak
  | inputTooLarge | nestingTooDeep | decodeTooLong | noStringAllocator | mapLabelType
  | tooManyTags | unexpectedType | duplicateLabel | intOverflow | exitMismatch
  | noMoreItems | labelNotFound | mapNotEntered | callbackFail | tagContent
  | fuel
  deriving Repr, DecidableEq

/-- `QCBORDecode_IsNotWellFormedError` (codes 20-39). -/
def QErr.notWellFormed : QErr → Bool
  | .badType7 | .extraBytes | .unsupported | .unconsumed | .badInt
  | .hitEnd | .badBreak => true
  | _ => false

/-- `QCBORDecode_IsUnrecoverableError` (codes 30-59). The model's own `fuel`
counts as unrecoverable. -/
def QErr.unrec : QErr → Bool
  | .hitEnd | .badBreak | .inputTooLarge | .nestingTooDeep | .decodeTooLong
  | .noStringAllocator | .mapLabelType | .fuel => true
  | _ => false

/-- A string in the message: offset of its first octet, and its octets. -/
structure Str where
  off : Nat
  bytes : Bytes
  deriving Repr, DecidableEq

/-- The `q_useful_buf_c` of a string, `none` being `NULL_Q_USEFUL_BUF_C`. -/
def Str.ub : Option Str → UB
  | none => .nil
  | some s => .data s.bytes

/-- A decode position: offset in the message and octets left in the window. -/
structure Cur where
  pos : Nat
  rest : Bytes
  deriving Repr, DecidableEq

/-- Move `n` octets ahead. -/
def Cur.adv (c : Cur) (n : Nat) : Cur := ⟨c.pos + n, c.rest.drop n⟩

/-- `QCBORItem.uDataType` with the value, as far as t_cose looks at it. Counts
of arrays and maps are `none` for indefinite length. -/
inductive Val where
  | int (i : Int)
  | uint (n : Nat)
  | bstr (s : Str)
  | tstr (s : Str)
  | arr (n : Option Nat)
  | map (n : Option Nat)
  | null
  | brk
  | other
  deriving Repr, DecidableEq

/-- What QCBOR's tag-content handling does to a tagged item: nothing, change
its type to one t_cose does not know, or fail (recoverably). -/
inductive TagRes where
  | keep | retype | fail
  deriving Repr, DecidableEq

/-- Parameters of the decoder: `QCBOR_MAX_TAGS_PER_ITEM` (4 in QCBOR) and the
tag-content handling. -/
structure QParams where
  maxTags : Nat
  tagProc : List Nat → Val → TagRes

/-- QCBOR as built by default, without tag-content handling (for examples). -/
def QParams.std : QParams := ⟨4, fun _ _ => .keep⟩

def int64Max : Nat := 9223372036854775807

/-- Big-endian value of octets. -/
def octetsVal (b : Bytes) : Nat := b.foldl (fun a x => a * 256 + x.toNat) 0

/-- `DecodeHead`: major type, additional info, argument. -/
def decodeHead (c : Cur) : Except QErr (Nat × Nat × Nat) × Cur :=
  match c.rest with
  | [] => (.error .hitEnd, c)
  | b :: r =>
    let ai := b.toNat % 32
    let c1 : Cur := ⟨c.pos + 1, r⟩
    if ai < 24 then (.ok (b.toNat / 32, ai, ai), c1)
    else if ai < 28 then
      let k := 2 ^ (ai - 24)
      if r.length < k then (.error .hitEnd, c1)
      else (.ok (b.toNat / 32, ai, octetsVal (r.take k)), c1.adv k)
    else if ai < 31 then (.error .unsupported, c1)
    else (.ok (b.toNat / 32, 31, 31), c1)

/-- One decoded data item, tag number or break. -/
inductive Atom where
  | val (v : Val)
  | tag (n : Nat)
  deriving Repr, DecidableEq

/-- String content: `arg` octets must be there. Indefinite-length strings need
an allocator, which t_cose never sets up. -/
def decodeStr (mk : Str → Val) (ai arg : Nat) (c : Cur) : Except QErr Atom × Cur :=
  if ai = 31 then (.error .noStringAllocator, c)
  else if c.rest.length < arg then (.error .hitEnd, c)
  else (.ok (.val (mk ⟨c.pos, c.rest.take arg⟩)), c.adv arg)

/-- Type 7: simple values, floats, break. -/
def decodeType7 (ai arg : Nat) : Except QErr Atom :=
  if ai = 31 then .ok (.val .brk)
  else if ai = 22 then .ok (.val .null)
  else if ai = 24 ∧ arg ≤ 31 then .error .badType7
  else .ok (.val .other)

/-- `QCBORDecode_DecodeAtomicDataItem`. -/
def decodeAtom (c : Cur) : Except QErr Atom × Cur :=
  match decodeHead c with
  | (.error e, c1) => (.error e, c1)
  | (.ok (major, ai, arg), c1) =>
    if major = 0 then
      (if ai = 31 then .error .badInt
       else .ok (.val (if arg ≤ int64Max then .int arg else .uint arg)), c1)
    else if major = 1 then
      (if ai = 31 then .error .badInt
       else if arg ≤ int64Max then .ok (.val (.int (-1 - (arg : Int))))
       else .error .intOverflow, c1)
    else if major = 2 then decodeStr .bstr ai arg c1
    else if major = 3 then decodeStr .tstr ai arg c1
    else if major = 4 then
      (if ai = 31 then .ok (.val (.arr none))
       else if arg > 65534 then .error .decodeTooLong
       else .ok (.val (.arr (some arg))), c1)
    else if major = 5 then
      (if ai = 31 then .ok (.val (.map none))
       else if arg > 32767 then .error .decodeTooLong
       else .ok (.val (.map (some arg))), c1)
    else if major = 6 then
      (if ai = 31 then .error .badInt else .ok (.tag arg), c1)
    else (decodeType7 ai arg, c1)

/-- `QCBORItem`: the value, its tags (innermost first) and the recoverable
error with which it was fetched, if any. -/
structure Itm where
  val : Val
  tags : List Nat
  err : Option QErr
  deriving Repr, DecidableEq

/-- `QCBORDecode_GetNextTagNumber`: tags, then the item. An unrecoverable error
is `Except.error`; a recoverable one is inside the item. -/
def nextTagged (P : QParams) : Nat → Cur → List Nat → Bool → Except QErr Itm × Cur
  | 0, c, _, _ => (.error .fuel, c)
  | n + 1, c, tags, over =>
    match decodeAtom c with
    | (.error e, c1) =>
      if e.unrec then (.error e, c1) else (.ok ⟨.other, tags, some e⟩, c1)
    | (.ok (.tag t), c1) =>
      if tags.length < P.maxTags then nextTagged P n c1 (t :: tags) over
      else nextTagged P n c1 tags true
    | (.ok (.val v), c1) =>
      (.ok ⟨v, tags, if over then some .tooManyTags else none⟩, c1)

/-- An item with its tags, without tag-content handling (used for map labels). -/
def nextRaw (P : QParams) (c : Cur) : Except QErr Itm × Cur :=
  nextTagged P (c.rest.length + 1) c [] false

/-- Tag-content handling (`QCBORDecode_GetNextTagContent`). -/
def tagContent (P : QParams) (it : Itm) : Itm :=
  if it.err.isSome || it.tags.isEmpty then it
  else
    match it.val with
    | .arr _ | .map _ | .brk => it
    | v =>
      match P.tagProc it.tags v with
      | .keep => it
      | .retype => { it with val := .other }
      | .fail => { it with val := .other, err := some .tagContent }

/-- An item as fetched at an array level. -/
def nextItem (P : QParams) (c : Cur) : Except QErr Itm × Cur :=
  match nextRaw P c with
  | (.error e, c1) => (.error e, c1)
  | (.ok it, c1) => (.ok (tagContent P it), c1)

/-- Label types allowed in a map (`QCBORDecode_GetNextMapEntry`). -/
def Val.isLabel : Val → Bool
  | .int _ | .uint _ | .bstr _ | .tstr _ => true
  | _ => false

/-- `QCBORDecode_GetNextMapEntry`, for a map (label and value) or an array.
The label is `none` in an array, or when fetching the label failed
recoverably. -/
def entry (P : QParams) (isMap : Bool) (c : Cur) : Except QErr (Option Val × Itm) × Cur :=
  if isMap then
    match nextRaw P c with
    | (.error e, c1) => (.error e, c1)
    | (.ok l, c1) =>
      match l.err with
      | some e => (.ok (none, ⟨.other, [], some e⟩), c1)
      | none =>
        if l.val = .brk then (.error .badBreak, c1)
        else
          match nextItem P c1 with
          | (.error e, c2) => (.error e, c2)
          | (.ok v, c2) =>
            if l.val.isLabel then
              if v.val = .brk then (.error .badBreak, c2) else (.ok (some l.val, v), c2)
            else (.error .mapLabelType, c2)
  else
    match nextItem P c with
    | (.error e, c1) => (.error e, c1)
    | (.ok v, c1) => if v.val = .brk then (.error .badBreak, c1) else (.ok (none, v), c1)

/-- One level of `QCBORDecodeNesting`: kind and items (map: entries) left,
`none` for indefinite length. -/
structure NLvl where
  isMap : Bool
  left : Option Nat
  deriving Repr, DecidableEq

/-- `QCBORDecode_NestLevelAscender`: an item is complete; step out of every
level that ends with it. -/
def ascend : List NLvl → Cur → List NLvl × Cur
  | [], c => ([], c)
  | ⟨m, some n⟩ :: st, c =>
    if n ≤ 1 then ascend st c else (⟨m, some (n - 1)⟩ :: st, c)
  | ⟨m, none⟩ :: st, c =>
    if c.rest.head? = some 0xff then ascend st (c.adv 1) else (⟨m, none⟩ :: st, c)

/-- What a fetched item does to the nesting (`QCBORDecode_GetNextMapOrArray`):
a non-empty array or map descends (at most `room` levels), anything else is
complete. -/
def push (room : Nat) (v : Val) (st : List NLvl) (c : Cur) : Except QErr (List NLvl × Cur) :=
  let desc (m : Bool) (n : Option Nat) : Except QErr (List NLvl × Cur) :=
    match n with
    | some 0 => .ok (ascend st c)
    | some k =>
      if st.length ≥ room then .error .nestingTooDeep else .ok (⟨m, some k⟩ :: st, c)
    | none =>
      if st.length ≥ room then .error .nestingTooDeep else .ok (ascend (⟨m, none⟩ :: st) c)
  match v with
  | .arr n => desc false n
  | .map n => desc true n
  | _ => .ok (ascend st c)

/-- The loop of `QCBORDecode_ConsumeItem`: fetch until the nesting levels of
`st` are all left. Recoverable errors are ignored. -/
def skip (P : QParams) (room : Nat) : Nat → List NLvl → Cur → Except QErr Cur
  | _, [], c => .ok c
  | 0, _ :: _, _ => .error .fuel
  | n + 1, l :: st, c =>
    if c.rest.isEmpty then .error .noMoreItems
    else
      match entry P l.isMap c with
      | (.error e, _) => .error e
      | (.ok (_, it), c1) =>
        match push room it.val (l :: st) c1 with
        | .error e => .error e
        | .ok (st', c2) => skip P room n st' c2

/-- Step over the rest of levels `st`, with enough fuel. -/
def skipAll (P : QParams) (room : Nat) (st : List NLvl) (c : Cur) : Except QErr Cur :=
  skip P room (c.rest.length + 1) st c

/-- `QCBORDecode_ConsumeItem` on an item just fetched. -/
def skipValue (P : QParams) (room : Nat) (v : Val) (c : Cur) : Except QErr Cur :=
  match push room v [] c with
  | .error e => .error e
  | .ok (st, c1) => skipAll P room st c1

/-- Data types that can be asked for in a map search. -/
inductive QTyp where
  | int | bstr | arr | any
  deriving Repr, DecidableEq

/-- `MatchType`. -/
def QTyp.ok : QTyp → Val → Bool
  | .any, _ => true
  | .int, .int _ => true
  | .bstr, .bstr _ => true
  | .arr, .arr _ => true
  | _, _ => false

/-- Items found so far: label, value, and the position just behind the item's
head (where an array entered later continues). -/
abbrev Found := List (Int × Val × Cur)

/-- What `MapSearch` does with one entry: a wanted label is checked and
recorded, anything else goes to the callback, which returns `false` to stop. -/
def searchStep {σ : Type} (qs : List (Int × QTyp)) (cb : σ → Option Val → σ × Bool)
    (label : Option Val) (it : Itm) (c1 : Cur) (found : Found) (s : σ) :
    Except QErr Found × σ :=
  let unmatched : Except QErr Found × σ :=
    match cb s label with
    | (s', true) => (.ok found, s')
    | (s', false) => (.error .callbackFail, s')
  match label with
  | some (.int i) =>
    match qs.lookup i with
    | some t =>
      if (found.lookup i).isSome then (.error .duplicateLabel, s)
      else
        match it.err with
        | some e => (.error e, s)
        | none =>
          if t.ok it.val then (.ok ((i, it.val, c1) :: found), s)
          else (.error .unexpectedType, s)
    | none => unmatched
  | _ => unmatched

/-- The loop of `MapSearch` over all entries of a non-empty map. Returns the
items found and the end of the map. -/
def searchLoop (P : QParams) (room : Nat) {σ : Type} (qs : List (Int × QTyp))
    (cb : σ → Option Val → σ × Bool) :
    Nat → Option Nat → Cur → Found → σ → Except QErr (Found × Cur) × σ
  | 0, _, _, _, s => (.error .fuel, s)
  | n + 1, left, c, found, s =>
    if c.rest.isEmpty then (.error .noMoreItems, s)
    else
      match entry P true c with
      | (.error e, _) => (.error e, s)
      | (.ok (label, it), c1) =>
        match searchStep qs cb label it c1 found s with
        | (.error e, s) => (.error e, s)
        | (.ok found, s) =>
          match skipValue P room it.val c1 with
          | .error e => (.error e, s)
          | .ok c2 =>
            match ascend [⟨true, left⟩] c2 with
            | ([], c3) => (.ok (found, c3), s)
            | (l :: _, c3) => searchLoop P room qs cb n l.left c3 found s

/-- Entered ("bounded") levels. `arr` keeps the items left (`some 0` is the end,
`none` an indefinite-length array still running), `map` where the map starts
and its size, `wrap` where the message continues after a wrapped byte
string. -/
inductive Lvl where
  | arr (left : Option Nat)
  | map (start : Cur) (cnt : Option Nat)
  | wrap (outer : Cur)
  deriving Repr, DecidableEq

/-- `QCBORDecodeContext`: cursor, entered levels (innermost first), sticky error
`uLastError`, tags of the last entered item `uLastTags`. -/
structure Dec where
  cur : Cur
  lvls : List Lvl
  err : Option QErr
  tags : List Nat
  deriving Repr, DecidableEq

/-- `QCBOR_MAX_DECODE_INPUT_SIZE` (UINT32_MAX - 2). -/
def maxDecodeInput : Nat := 4294967293

/-- `QCBOR_MAX_ARRAY_NESTING`. -/
def maxDecNesting : Nat := 15

namespace Dec

/-- `QCBORDecode_Init`. QCBOR reports an over-long input on the first fetch;
here the error is recorded at once. -/
def init (msg : Bytes) : Dec :=
  { cur := ⟨0, msg⟩, lvls := [],
    err := if msg.length > maxDecodeInput then some .inputTooLarge else none, tags := [] }

/-- Levels still available for nesting. -/
def room (d : Dec) : Nat := maxDecNesting - d.lvls.length

/-- The part of the ascender that concerns an entered level. -/
def itemDone : List Lvl → Cur → List Lvl × Cur
  | .arr (some n) :: ls, c => (.arr (some (n - 1)) :: ls, c)
  | .arr none :: ls, c =>
    if c.rest.head? = some 0xff then (.arr (some 0) :: ls, c.adv 1) else (.arr none :: ls, c)
  | ls, c => (ls, c)

/-- `DecodeNesting_IsAtEndOfBoundedLevel`. -/
def atEnd (d : Dec) : Bool :=
  match d.lvls with
  | .arr (some 0) :: _ => true
  | _ => false

/-- Fetch the next item at an array, wrapped or top level, without the
bookkeeping for the enclosing level. All errors are in `Except`. -/
def fetch (P : QParams) (d : Dec) : Except QErr Itm × Cur :=
  if d.atEnd || d.cur.rest.isEmpty then (.error .noMoreItems, d.cur)
  else
    match entry P false d.cur with
    | (.error e, c1) => (.error e, c1)
    | (.ok (_, it), c1) =>
      match it.err with
      | some e => (.error e, c1)
      | none => (.ok it, c1)

/-- The item is complete: update the enclosing level. -/
def done (d : Dec) (c : Cur) : Dec :=
  { d with lvls := (itemDone d.lvls c).1, cur := (itemDone d.lvls c).2 }

/-- `QCBORDecode_GetNext`. It neither looks at nor sets the sticky error. -/
def getNext (P : QParams) (d : Dec) : Except QErr Itm × Dec :=
  match d.fetch P with
  | (.error e, c1) => (.error e, { d with cur := c1 })
  | (.ok it, c1) => (.ok it, { d.done c1 with tags := it.tags })

/-- Position and items left after entering an array or map with count `n`: an
indefinite-length one may end at once. -/
def openLvl (n : Option Nat) (c : Cur) : Option Nat × Cur :=
  match n with
  | some k => (some k, c)
  | none => if c.rest.head? = some 0xff then (some 0, c.adv 1) else (none, c)

/-- `QCBORDecode_EnterArray`. -/
def enterArray (P : QParams) (d : Dec) : Dec :=
  if d.err.isSome then d
  else
    match d.fetch P with
    | (.error e, c1) => { d with cur := c1, err := some e }
    | (.ok it, c1) =>
      match it.val with
      | .arr n =>
        if d.room = 0 then { d with cur := c1, err := some .nestingTooDeep }
        else { d with cur := (openLvl n c1).2, lvls := .arr (openLvl n c1).1 :: d.lvls,
                      tags := it.tags }
      | _ => { d with cur := c1, err := some .unexpectedType }

/-- `QCBORDecode_EnterMap`. -/
def enterMap (P : QParams) (d : Dec) : Dec :=
  if d.err.isSome then d
  else
    match d.fetch P with
    | (.error e, c1) => { d with cur := c1, err := some e }
    | (.ok it, c1) =>
      match it.val with
      | .map n =>
        if d.room = 0 then { d with cur := c1, err := some .nestingTooDeep }
        else { d with cur := (openLvl n c1).2,
                      lvls := .map (openLvl n c1).2 (openLvl n c1).1 :: d.lvls,
                      tags := it.tags }
      | _ => { d with cur := c1, err := some .unexpectedType }

/-- `MapSearch` over the entered map. An empty map has nothing in it. -/
def mapSearch (P : QParams) (d : Dec) {σ : Type} (qs : List (Int × QTyp))
    (cb : σ → Option Val → σ × Bool) (s : σ) : Except QErr Found × σ :=
  match d.lvls with
  | .map _ (some 0) :: _ => (.ok [], s)
  | .map start cnt :: _ =>
    match searchLoop P d.room qs cb (start.rest.length + 1) cnt start [] s with
    | (.error e, s) => (.error e, s)
    | (.ok (found, _), s) => (.ok found, s)
  | _ => (.error .mapNotEntered, s)

/-- `QCBORDecode_GetItemsInMapWithCallback`. The traversal position is
restored, so only the error state can change. -/
def getItemsInMap (P : QParams) (d : Dec) {σ : Type} (qs : List (Int × QTyp))
    (cb : σ → Option Val → σ × Bool) (s : σ) : Dec × Found × σ :=
  if d.err.isSome then (d, [], s)
  else
    match d.mapSearch P qs cb s with
    | (.error e, s) => ({ d with err := some e }, [], s)
    | (.ok found, s) => (d, found, s)

/-- `QCBORDecode_EnterArrayFromMapN`. -/
def enterArrayFromMap (P : QParams) (d : Dec) (label : Int) : Dec :=
  if d.err.isSome then d
  else
    match d.mapSearch P [(label, .arr)] (fun (s : Unit) _ => (s, true)) () with
    | (.error e, _) => { d with err := some e }
    | (.ok found, _) =>
      match found.lookup label with
      | some (.arr n, c) =>
        if d.room = 0 then { d with err := some .nestingTooDeep }
        else { d with cur := (openLvl n c).2, lvls := .arr (openLvl n c).1 :: d.lvls }
      | _ => { d with err := some .labelNotFound }

/-- `QCBORDecode_ExitArray`: whatever was not consumed is stepped over. -/
def exitArray (P : QParams) (d : Dec) : Dec :=
  if d.err.isSome then d
  else
    match d.lvls with
    | .arr (some 0) :: ls => { d with lvls := ls }.done d.cur
    | .arr left :: ls =>
      match skipAll P (d.room + 1) [⟨false, left⟩] d.cur with
      | .error e => { d with err := some e }
      | .ok c => { d with lvls := ls }.done c
    | _ => { d with err := some .exitMismatch }

/-- `QCBORDecode_ExitMap`: continue behind the end of the map. -/
def exitMap (P : QParams) (d : Dec) : Dec :=
  if d.err.isSome then d
  else
    match d.lvls with
    | .map start (some 0) :: ls => { d with lvls := ls }.done start
    | .map start cnt :: ls =>
      match skipAll P (d.room + 1) [⟨true, cnt⟩] start with
      | .error e => { d with err := some e }
      | .ok c => { d with lvls := ls }.done c
    | _ => { d with err := some .exitMismatch }

/-- `QCBORDecode_EnterBstrWrapped` with `QCBOR_TAG_REQUIREMENT_NOT_A_TAG`. The
second component is what was stored through the output pointer: `none` if
nothing was stored, `some none` for `NULLUsefulBufC`. -/
def enterBstrWrapped (P : QParams) (d : Dec) : Dec × Option (Option Str) :=
  if d.err.isSome then (d, none)
  else
    match d.fetch P with
    | (.error e, c1) => ({ d with cur := c1, err := some e }, none)
    | (.ok it, c1) =>
      match it.val, it.tags with
      | .bstr s, [] =>
        if d.room = 0 then ({ d with cur := c1, err := some .nestingTooDeep }, some none)
        else ({ d with cur := ⟨s.off, s.bytes⟩, lvls := .wrap c1 :: d.lvls, tags := [] },
              some (some s))
      | _, _ => ({ d with cur := c1, err := some .unexpectedType }, some none)

/-- `QCBORDecode_ExitBstrWrapped`: octets left in the string are ignored. -/
def exitBstrWrapped (d : Dec) : Dec :=
  if d.err.isSome then d
  else
    match d.lvls with
    | .wrap outer :: ls => { d with lvls := ls }.done outer
    | _ => { d with err := some .exitMismatch }

/-- `QCBORDecode_GetByteString`; `none` if nothing useful was stored. -/
def getByteString (P : QParams) (d : Dec) : Dec × Option Str :=
  if d.err.isSome then (d, none)
  else
    match d.getNext P with
    | (.error e, d1) => ({ d1 with err := some e }, none)
    | (.ok it, d1) =>
      match it.val, it.tags with
      | .bstr s, [] => (d1, some s)
      | _, _ => ({ d1 with err := some .unexpectedType }, none)

/-- `QCBORDecode_GetNthTagOfLast`. -/
def nthTag (P : QParams) (d : Dec) (n : Nat) : Nat :=
  if d.err.isSome then 18446744073709551615
  else if n ≥ P.maxTags then 18446744073709551615
  else d.tags.getD n 18446744073709551615

/-- `QCBORDecode_Finish`. -/
def finish (d : Dec) : Option QErr :=
  match d.err with
  | some e => some e
  | none =>
    if !d.lvls.isEmpty then some .unconsumed
    else if !d.cur.rest.isEmpty then some .extraBytes
    else none

end Dec
end TCose
