import Verif.Qcbor.Decode

/-!
# src/t_cose_parameters.c and src/t_cose_parameters.h
-/

namespace TCose

/-- `struct t_cose_parameters` (inc/t_cose/t_cose_sign1_verify.h:71-102). A NULL
`q_useful_buf_c` is `none`. With `T_COSE_DISABLE_CONTENT_TYPE` the two content
type fields do not exist; the model keeps them at their cleared values. -/
structure Params where
  alg : Int
  kid : Option Str
  iv : Option Str
  partialIv : Option Str
  ctTstr : Option Str
  ctUint : Nat
  deriving Repr, DecidableEq

/-- `clear_cose_parameters` (src/t_cose_parameters.h:93-113). -/
def Params.clear : Params :=
  { alg := algNone, kid := none, iv := none, partialIv := none, ctTstr := none,
    ctUint := emptyContentType }

/-- `T_COSE_PARAMETER_LIST_MAX` (inc/t_cose/t_cose_common.h:433). -/
def paramListMax : Nat := 10

/-- `struct t_cose_label_list` (src/t_cose_parameters.h:42-47): the two arrays,
each of `T_COSE_PARAMETER_LIST_MAX+1` elements, as lists of that length. `ub` is
a ghost flag set when an element outside an array is read or written. -/
structure LabelList where
  ints : List Int
  tstrs : List (Option Str)
  ub : Bool
  deriving Repr, DecidableEq

/-- `clear_label_list` (src/t_cose_parameters.h:67-70). -/
def LabelList.clear : LabelList :=
  { ints := List.replicate (paramListMax + 1) 0,
    tstrs := List.replicate (paramListMax + 1) none, ub := false }

/-- Store into `int_labels[n]`. -/
def LabelList.setInt (l : LabelList) (n : Nat) (v : Int) : LabelList :=
  if n < l.ints.length then { l with ints := l.ints.set n v } else { l with ub := true }

/-- Store into `tstr_labels[n]`. -/
def LabelList.setTstr (l : LabelList) (n : Nat) (v : Str) : LabelList :=
  if n < l.tstrs.length then { l with tstrs := l.tstrs.set n (some v) }
  else { l with ub := true }

/-- `add_label_to_list` (src/t_cose_parameters.c:39-85). The search loops stop
at the first terminator; with none they read past the array (`ub`). -/
def addLabel (label : Option Val) (l : LabelList) : Except Err Unit × LabelList :=
  match label with
  | some (.int i) =>
    let n := l.ints.findIdx (· == 0)
    if n ≥ l.ints.length then (.error .tooManyParameters, { l with ub := true })
    else if n = paramListMax then (.error .tooManyParameters, l)
    else (.ok (), l.setInt n i)
  | some (.tstr s) =>
    let n := l.tstrs.findIdx (·.isNone)
    if n ≥ l.tstrs.length then (.error .tooManyParameters, { l with ub := true })
    else if n = paramListMax then (.error .tooManyParameters, l)
    else (.ok (), l.setTstr n s)
  | _ => (.error .parameterCbor, l)

/-- `is_label_list_clear` (src/t_cose_parameters.c:95-100). -/
def LabelList.isClear (l : LabelList) : Bool :=
  l.ints.head? == some 0 && (Str.ub (l.tstrs.headD none)).isNullOrEmpty

/-- The loop of `decode_critical_parameter` (src/t_cose_parameters.c:157-184):
labels are stored one after the other, integers and strings counted apart. The
fuel is never used up (`modelHang` would be the outcome). -/
def critLoop (P : QParams) : Nat → Dec → Nat → Nat → LabelList →
    Except Err Unit × LabelList × Dec
  | 0, d, _, _, l => (.error .modelHang, l, d)
  | n + 1, d, ni, nt, l =>
    match d.getNext P with
    | (.error .noMoreItems, d1) => (.ok (), l, d1)
    | (.error _, d1) => (.error .cborNotWellFormed, l, d1)
    | (.ok it, d1) =>
      match it.val with
      | .int i =>
        if ni ≥ paramListMax then (.error .critParameter, l, d1)
        else critLoop P n d1 (ni + 1) nt (l.setInt ni i)
      | .tstr s =>
        if nt ≥ paramListMax then (.error .critParameter, l, d1)
        else critLoop P n d1 ni (nt + 1) (l.setTstr nt s)
      | _ => (.error .critParameter, l, d1)

/-- `decode_critical_parameter` (src/t_cose_parameters.c:117-199); `prot` is
`critical_labels != NULL`. -/
def decodeCritical (P : QParams) (d : Dec) (prot : Bool) (l : LabelList) :
    Except Err Unit × LabelList × Dec :=
  let d1 := d.enterArrayFromMap P 2
  let d2 := { d1 with err := none }
  match d1.err with
  | some .labelNotFound => (.ok (), l, d2)
  | some _ => (.error .critParameter, l, d2)
  | none =>
    if !prot then (.error .parameterNotProtected, l, d2)
    else
      match critLoop P (d2.cur.rest.length + 1) d2 0 0 l with
      | (.error x, l', d3) => (.error x, l', d3)
      | (.ok (), l', d3) =>
        let d4 := d3.exitArray P
        if l'.isClear then (.error .critParameter, l', d4) else (.ok (), l', d4)

/-- The labels before the terminator, as the loops of `check_critical_labels`
visit them. -/
def LabelList.intPrefix (l : LabelList) : List Int := l.ints.takeWhile (· != 0)
/-- The string labels before the terminator. -/
def LabelList.tstrPrefix (l : LabelList) : List Bytes :=
  (l.tstrs.takeWhile (·.isSome)).map fun s => (Str.ub s).bytes

/-- A list whose terminator is there, so that the loops over it stay inside. -/
def LabelList.terminated (l : LabelList) : Bool :=
  l.ints.contains 0 && l.tstrs.contains none

/-- `check_critical_labels` (src/t_cose_parameters.c:205-252). The Boolean is
the ghost undefined-behaviour flag: a list without terminator is read past its
end. -/
def checkCritical (crit unk : LabelList) : Except Err Unit × Bool :=
  (if unk.intPrefix.any (fun u => crit.intPrefix.any (· == u)) then
      .error .unknownCriticalParameter
    else if unk.tstrPrefix.any (fun u => crit.tstrPrefix.any (· == u)) then
      .error .unknownCriticalParameter
    else .ok (),
   !(crit.terminated && unk.terminated))

/-- `struct cb_context` (src/t_cose_parameters.c:255-258). -/
structure CbCtx where
  unk : LabelList
  ret : Except Err Unit
  deriving DecidableEq

/-- `header_parameter_callback` (src/t_cose_parameters.c:274-304). -/
def headerCb (s : CbCtx) (label : Option Val) : CbCtx × Bool :=
  let (ret, unk) : Except Err Unit × LabelList :=
    if label = some (.int 2) then (.ok (), s.unk) else addLabel label s.unk
  match ret with
  | .ok () => (⟨unk, .ok ()⟩, true)
  | .error x => (⟨unk, .error x⟩, false)

/-- `header_items` (src/t_cose_parameters.c:371-391): alg, kid, iv, partial iv,
content type, with the data types asked for. -/
def headerQs : List (Int × QTyp) := [(1, .int), (4, .bstr), (5, .bstr), (6, .bstr), (3, .any)]

/-- `(int32_t)` of an `int64_t`: the low 32 bits, two's complement. -/
def toInt32 (i : Int) : Int := (i + 2147483648) % 4294967296 - 2147483648

/-- src/t_cose_parameters.c:430-442: the algorithm id. -/
def takeAlg (prot : Bool) (f : Found) (p : Params) : Except Err Params :=
  match f.lookup 1 with
  | some (.int i, _) =>
    if !prot then .error .parameterNotProtected
    else if i = 0 ∨ i > 2147483647 then .error .nonIntegerAlgId
    else .ok { p with alg := toInt32 i }
  | _ => .ok p

/-- src/t_cose_parameters.c:445-452: the kid. -/
def takeKid (f : Found) (p : Params) : Except Err Params :=
  match f.lookup 4 with
  | some (.bstr s, _) =>
    if p.kid.isNone then .ok { p with kid := some s } else .error .duplicateParameter
  | _ => .ok p

/-- src/t_cose_parameters.c:455-462: the IV. -/
def takeIv (f : Found) (p : Params) : Except Err Params :=
  match f.lookup 5 with
  | some (.bstr s, _) =>
    if p.iv.isNone then .ok { p with iv := some s } else .error .duplicateParameter
  | _ => .ok p

/-- src/t_cose_parameters.c:465-472: the partial IV. -/
def takePartialIv (f : Found) (p : Params) : Except Err Params :=
  match f.lookup 6 with
  | some (.bstr s, _) =>
    if p.partialIv.isNone then .ok { p with partialIv := some s }
    else .error .duplicateParameter
  | _ => .ok p

/-- src/t_cose_parameters.c:474-497: the content type. -/
def takeContentType (cfg : Config) (f : Found) (p : Params) : Except Err Params :=
  if cfg.disableContentType then .ok p
  else
    match f.lookup 3 with
    | none => .ok p
    | some (.tstr s, _) =>
      if !(Str.ub p.ctTstr).isNullOrEmpty then .error .duplicateParameter
      else .ok { p with ctTstr := some s }
    | some (.int i, _) =>
      if i < 0 ∨ i > 65535 then .error .badContentType
      else if p.ctUint ≠ emptyContentType then .error .duplicateParameter
      else .ok { p with ctUint := i.toNat }
    | some _ => .error .badContentType

/-- src/t_cose_parameters.c:429-497: copy what was found into the parameters.
On an error the caller drops everything, so the partial update is not
returned. -/
def copyParams (cfg : Config) (prot : Bool) (f : Found) (p : Params) : Except Err Params :=
  match takeAlg prot f p with
  | .error x => .error x
  | .ok p =>
    match takeKid f p with
    | .error x => .error x
    | .ok p =>
      match takeIv f p with
      | .error x => .error x
      | .ok p =>
        match takePartialIv f p with
        | .error x => .error x
        | .ok p => takeContentType cfg f p

/-- The state of header parsing in `t_cose_sign1_verify_internal`: decoder,
parameters, critical and unknown labels. -/
structure Parse where
  d : Dec
  params : Params
  crit : LabelList
  unk : LabelList
  deriving Repr, DecidableEq

/-- Error mapping at src/t_cose_parameters.c:404-414 (`modelHang` for the
decoder model's own fuel error). -/
def paramErr (e : QErr) : Err :=
  if e = .fuel then .modelHang
  else if e.notWellFormed then .cborNotWellFormed else .parameterCbor

/-- `parse_cose_header_parameters` (src/t_cose_parameters.c:340-506); `prot` is
`critical_labels != NULL`. -/
def parseHeader (cfg : Config) (P : QParams) (prot : Bool) (st : Parse) :
    Except Err Unit × Parse :=
  let d1 := st.d.enterMap P
  match d1.getItemsInMap P headerQs headerCb ⟨st.unk, .ok ()⟩ with
  | (d2, found, cb) =>
    match d2.err with
    | some .callbackFail => (cb.ret, { st with d := d2, unk := cb.unk })
    | some e => (.error (paramErr e), { st with d := d2, unk := cb.unk })
    | none =>
      match copyParams cfg prot found st.params with
      | .error x => (.error x, { st with d := d2, unk := cb.unk })
      | .ok p =>
        match decodeCritical P d2 prot st.crit with
        | (r, crit, d3) => (r, { d := d3.exitMap P, params := p, crit := crit, unk := cb.unk })

end TCose
