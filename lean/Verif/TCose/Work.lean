import Verif.TCose.Verify

/-!
# How much work the decoding in a verification is

The number of times the decoder reads an initial byte with its argument
(`QCBORDecode_DecodeAtomicDataItem`), looks for a break, or looks at a nesting
level when an item is complete. The functions follow the control flow of the
functions they count, which are called for the results on which the control flow
depends. Not counted: the two label lists (at most eleven elements each), the
tags copied to the context (at most four) and what the crypto adapter does.
-/

namespace TCose

/-- Initial bytes read by `nextTagged` (Qcbor/Decode): one for each tag and one
for the item. -/
def workTagged : Nat → Cur → Nat
  | 0, _ => 0
  | n + 1, c =>
    1 + match decodeAtom c with
      | (.ok (.tag _), c1) => workTagged n c1
      | _ => 0

/-- `nextRaw`, and `nextItem`, which reads the same. -/
def workItem (c : Cur) : Nat := workTagged (c.rest.length + 1) c

/-- `entry`: the label of a map entry and the value. -/
def workEntry (P : QParams) (isMap : Bool) (c : Cur) : Nat :=
  workItem c +
    if isMap then
      match nextRaw P c with
      | (.error _, _) => 0
      | (.ok l, c1) =>
        match l.err with
        | some _ => 0
        | none => if l.val = .brk then 0 else workItem c1
    else 0

/-- `ascend`: every level that is looked at. -/
def workAscend : List NLvl → Cur → Nat
  | [], _ => 0
  | ⟨_, some n⟩ :: st, c => 1 + if n ≤ 1 then workAscend st c else 0
  | ⟨_, none⟩ :: st, c =>
    1 + if c.rest.head? = some 0xff then workAscend st (c.adv 1) else 0

/-- `push`. -/
def workPush (room : Nat) (v : Val) (st : List NLvl) (c : Cur) : Nat :=
  let desc (m : Bool) (n : Option Nat) : Nat :=
    match n with
    | some 0 => workAscend st c
    | some _ => 0
    | none => if st.length ≥ room then 0 else workAscend (⟨m, none⟩ :: st) c
  match v with
  | .arr n => desc false n
  | .map n => desc true n
  | _ => workAscend st c

/-- `skip`. -/
def workSkip (P : QParams) (room : Nat) : Nat → List NLvl → Cur → Nat
  | _, [], _ => 0
  | 0, _ :: _, _ => 0
  | n + 1, l :: st, c =>
    if c.rest.isEmpty then 0
    else
      workEntry P l.isMap c +
        match entry P l.isMap c with
        | (.error _, _) => 0
        | (.ok (_, it), c1) =>
          workPush room it.val (l :: st) c1 +
            match push room it.val (l :: st) c1 with
            | .error _ => 0
            | .ok (st', c2) => workSkip P room n st' c2

/-- `skipAll`. -/
def workSkipAll (P : QParams) (room : Nat) (st : List NLvl) (c : Cur) : Nat :=
  workSkip P room (c.rest.length + 1) st c

/-- `skipValue`. -/
def workSkipValue (P : QParams) (room : Nat) (v : Val) (c : Cur) : Nat :=
  workPush room v [] c +
    match push room v [] c with
    | .error _ => 0
    | .ok (st, c1) => workSkipAll P room st c1

/-- `searchLoop`. -/
def workSearch (P : QParams) (room : Nat) {σ : Type} (qs : List (Int × QTyp))
    (cb : σ → Option Val → σ × Bool) : Nat → Option Nat → Cur → Found → σ → Nat
  | 0, _, _, _, _ => 0
  | n + 1, left, c, found, s =>
    if c.rest.isEmpty then 0
    else
      workEntry P true c +
        match entry P true c with
        | (.error _, _) => 0
        | (.ok (label, it), c1) =>
          match searchStep qs cb label it c1 found s with
          | (.error _, _) => 0
          | (.ok found, s) =>
            workSkipValue P room it.val c1 +
              match skipValue P room it.val c1 with
              | .error _ => 0
              | .ok c2 =>
                workAscend [⟨true, left⟩] c2 +
                  match ascend [⟨true, left⟩] c2 with
                  | ([], _) => 0
                  | (l :: _, c3) => workSearch P room qs cb n l.left c3 found s

namespace Dec

/-- `fetch`. -/
def workFetch (P : QParams) (d : Dec) : Nat :=
  if d.atEnd || d.cur.rest.isEmpty then 0 else workEntry P false d.cur

/-- `getNext`: the item, and a look at the level it is in. -/
def workNext (P : QParams) (d : Dec) : Nat := d.workFetch P + 1

/-- `enterArray`, `enterMap`, `enterBstrWrapped`, `getByteString`: an item is
fetched, and for an indefinite length a break looked for. -/
def workEnter (P : QParams) (d : Dec) : Nat := if d.err.isSome then 0 else d.workFetch P + 1

/-- `mapSearch`. -/
def workMap (P : QParams) (d : Dec) {σ : Type} (qs : List (Int × QTyp))
    (cb : σ → Option Val → σ × Bool) (s : σ) : Nat :=
  match d.lvls with
  | .map _ (some 0) :: _ => 0
  | .map start cnt :: _ => workSearch P d.room qs cb (start.rest.length + 1) cnt start [] s
  | _ => 0

/-- `getItemsInMap`. -/
def workItems (P : QParams) (d : Dec) {σ : Type} (qs : List (Int × QTyp))
    (cb : σ → Option Val → σ × Bool) (s : σ) : Nat :=
  if d.err.isSome then 0 else d.workMap P qs cb s

/-- `enterArrayFromMap`. -/
def workFromMap (P : QParams) (d : Dec) (label : Int) : Nat :=
  if d.err.isSome then 0
  else d.workMap P [(label, .arr)] (fun (s : Unit) _ => (s, true)) () + 1

/-- `exitArray`, `exitMap`: what is left of the array, or the whole map, is
stepped over. The map is counted in full; QCBOR remembers its end when it has
been searched before, and then does less. -/
def workExit (P : QParams) (d : Dec) : Nat :=
  if d.err.isSome then 0
  else
    match d.lvls with
    | .arr (some 0) :: _ => 1
    | .arr left :: _ => workSkipAll P (d.room + 1) [⟨false, left⟩] d.cur + 1
    | .map _ (some 0) :: _ => 1
    | .map start cnt :: _ => workSkipAll P (d.room + 1) [⟨true, cnt⟩] start + 1
    | _ => 0

end Dec

/-- `critLoop` (src/t_cose_parameters.c:157-184). -/
def workCritLoop (P : QParams) : Nat → Dec → Nat → Nat → Nat
  | 0, _, _, _ => 0
  | n + 1, d, ni, nt =>
    d.workNext P +
      match d.getNext P with
      | (.error _, _) => 0
      | (.ok it, d1) =>
        match it.val with
        | .int _ => if ni ≥ paramListMax then 0 else workCritLoop P n d1 (ni + 1) nt
        | .tstr _ => if nt ≥ paramListMax then 0 else workCritLoop P n d1 ni (nt + 1)
        | _ => 0

/-- `decodeCritical` (src/t_cose_parameters.c:117-199). -/
def workCritical (P : QParams) (d : Dec) (prot : Bool) (l : LabelList) : Nat :=
  let d1 := d.enterArrayFromMap P 2
  let d2 := { d1 with err := none }
  d.workFromMap P 2 +
    match d1.err with
    | some _ => 0
    | none =>
      if !prot then 0
      else
        workCritLoop P (d2.cur.rest.length + 1) d2 0 0 +
          match critLoop P (d2.cur.rest.length + 1) d2 0 0 l with
          | (.error _, _, _) => 0
          | (.ok (), _, d3) => d3.workExit P

/-- `parseHeader` (src/t_cose_parameters.c:340-506). -/
def workHeader (cfg : Config) (P : QParams) (prot : Bool) (st : Parse) : Nat :=
  let d1 := st.d.enterMap P
  st.d.workEnter P + d1.workItems P headerQs headerCb ⟨st.unk, .ok ()⟩ +
    match d1.getItemsInMap P headerQs headerCb ⟨st.unk, .ok ()⟩ with
    | (d2, found, _) =>
      match d2.err with
      | some _ => 0
      | none =>
        match copyParams cfg prot found st.params with
        | .error _ => 0
        | .ok _ =>
          workCritical P d2 prot st.crit +
            match decodeCritical P d2 prot st.crit with
            | (_, _, d3) => d3.workExit P

/-- `decodeBody` (src/t_cose_sign1_verify.c:407-459). -/
def workBody (cfg : Config) (P : QParams) (d : Dec) (pay : VPayload) (junk : Junk) : Nat :=
  let (d1, out) := d.enterBstrWrapped P
  let prot := wrapOut junk.prot out
  let st : Parse := { d := d1, params := Params.clear, crit := LabelList.clear,
                      unk := LabelList.clear }
  d.workEnter P + (if prot.ub.len ≠ 0 then workHeader cfg P true st else 0) +
    match parseProtected cfg P prot st with
    | (.error _, _) => 0
    | (.ok (), st) =>
      let st := { st with d := st.d.exitBstrWrapped }
      1 + workHeader cfg P false st +
        match parseHeader cfg P false st with
        | (.error _, _) => 0
        | (.ok (), st) =>
          (match pay with
            | .detached _ => st.d.workNext P
            | .inline _ => st.d.workEnter P) +
            match takePayload P st.d pay junk.payload with
            | .error _ => 0
            | .ok (d2, _) => d2.workEnter P + (d2.getByteString P).1.workExit P

/-- `verifyInternal` (src/t_cose_sign1_verify.c:354-506) up to the crypto. -/
def verifyWork (cfg : Config) (P : QParams) (junk : Junk) (me : VerifyCtx) (msg : Bytes)
    (pay : VPayload) : Nat :=
  let d := (Dec.init msg).enterArray P
  (Dec.init msg).workEnter P +
    match decodeErr d.err with
    | .error _ => 0
    | .ok () =>
      match processTags P me d with
      | (.error _, _, _) => 0
      | (.ok (), _, _) => workBody cfg P d pay junk

end TCose
