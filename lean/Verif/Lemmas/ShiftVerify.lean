import Verif.Lemmas.ShiftDec

/-!
# Verification of a moved message
-/

namespace TCose
open Spec

def Params.sh (k : Nat) (p : Params) : Params :=
  { p with kid := p.kid.map (Str.sh k), iv := p.iv.map (Str.sh k),
           partialIv := p.partialIv.map (Str.sh k), ctTstr := p.ctTstr.map (Str.sh k) }

def LabelList.sh (k : Nat) (l : LabelList) : LabelList :=
  { l with tstrs := l.tstrs.map (Option.map (Str.sh k)) }

theorem LabelList.sh_setInt (k n : Nat) (v : Int) (l : LabelList) :
    (l.sh k).setInt n v = (l.setInt n v).sh k := by
  unfold LabelList.setInt LabelList.sh
  simp only
  split <;> rfl

theorem LabelList.sh_setTstr (k n : Nat) (s : Str) (l : LabelList) :
    (l.sh k).setTstr n (s.sh k) = (l.setTstr n s).sh k := by
  unfold LabelList.setTstr LabelList.sh
  simp only [List.length_map]
  split
  · simp [List.map_set]
  · rfl

theorem findIdx_map_isNone (k : Nat) (ts : List (Option Str)) :
    (ts.map (Option.map (Str.sh k))).findIdx (·.isNone) = ts.findIdx (·.isNone) := by
  induction ts with
  | nil => rfl
  | cons t ts ih =>
    simp only [List.map_cons, List.findIdx_cons, ih]
    cases t <;> rfl

theorem addLabel_sh (k : Nat) (l : Option Val) (ll : LabelList) :
    addLabel (l.map (Val.sh k)) (ll.sh k) = ((addLabel l ll).1, (addLabel l ll).2.sh k) := by
  cases l with
  | none => rfl
  | some v =>
    cases v with
    | int i =>
      unfold addLabel
      simp only [Option.map_some, Val.sh]
      have e : (ll.sh k).ints = ll.ints := rfl
      rw [e]
      split
      · rfl
      · split
        · rfl
        · rw [LabelList.sh_setInt]
    | tstr s =>
      unfold addLabel
      simp only [Option.map_some, Val.sh]
      have e : (ll.sh k).tstrs = ll.tstrs.map (Option.map (Str.sh k)) := rfl
      rw [e, findIdx_map_isNone, List.length_map]
      split
      · rfl
      · split
        · rfl
        · rw [LabelList.sh_setTstr]
    | _ => rfl

def CbCtx.Sim (k : Nat) (s s' : CbCtx) : Prop := s'.unk = s.unk.sh k ∧ s'.ret = s.ret

theorem headerCb_sh (k : Nat) : CbSim k (CbCtx.Sim k) headerCb headerCb := by
  intro s s' l h
  have hl : l.map (Val.sh k) = some (.int 2) ↔ l = some (.int 2) := by
    cases l with
    | none => simp
    | some v => cases v <;> simp [Val.sh]
  unfold headerCb
  by_cases h2 : l = some (.int 2)
  · rw [if_pos h2, if_pos (hl.mpr h2)]
    exact ⟨⟨h.1, rfl⟩, rfl⟩
  · rw [if_neg h2, if_neg (fun hh => h2 (hl.mp hh)), h.1, addLabel_sh]
    generalize addLabel l s.unk = x
    obtain ⟨r, u⟩ := x
    cases r with
    | error e => exact ⟨⟨rfl, rfl⟩, rfl⟩
    | ok w => exact ⟨⟨rfl, rfl⟩, rfl⟩

theorem critLoop_sh {P : QParams} (hP : P.Local) (k : Nat) : ∀ (n : Nat) (d d' : Dec) (ni nt : Nat)
    (l : LabelList), DSim k d d' →
    (critLoop P n d' ni nt (l.sh k)).1 = (critLoop P n d ni nt l).1 ∧
    (critLoop P n d' ni nt (l.sh k)).2.1 = (critLoop P n d ni nt l).2.1.sh k ∧
    DSim k (critLoop P n d ni nt l).2.2 (critLoop P n d' ni nt (l.sh k)).2.2
  | 0, d, d', ni, nt, l, h => ⟨rfl, rfl, h⟩
  | n + 1, d, d', ni, nt, l, h => by
    unfold critLoop
    obtain ⟨h1, h2⟩ := h.getNext hP
    generalize d.getNext P = x at h1 h2 ⊢
    generalize d'.getNext P = y at h1 h2 ⊢
    obtain ⟨r, d1⟩ := x
    obtain ⟨r', d1'⟩ := y
    simp only at h1 h2
    subst h1
    cases r with
    | error e => cases e <;> exact ⟨rfl, rfl, h2⟩
    | ok it =>
      obtain ⟨v, tags, err⟩ := it
      simp only [Except.sh, Itm.sh]
      cases v with
      | int i =>
        simp only [Val.sh]
        split
        · exact ⟨rfl, rfl, h2⟩
        · rw [LabelList.sh_setInt]
          exact critLoop_sh hP k n d1 d1' _ _ _ h2
      | tstr s =>
        simp only [Val.sh]
        split
        · exact ⟨rfl, rfl, h2⟩
        · rw [LabelList.sh_setTstr]
          exact critLoop_sh hP k n d1 d1' _ _ _ h2
      | _ => exact ⟨rfl, rfl, h2⟩

theorem Str.ub_sh (k : Nat) (o : Option Str) : Str.ub (o.map (Str.sh k)) = Str.ub o := by
  cases o <;> rfl

theorem isClear_sh (k : Nat) (l : LabelList) : (l.sh k).isClear = l.isClear := by
  unfold LabelList.isClear LabelList.sh
  simp only
  cases l.tstrs with
  | nil => rfl
  | cons t ts => simp only [List.map_cons, List.headD_cons, Str.ub_sh]

theorem decodeCritical_sh {P : QParams} (hP : P.Local) {k : Nat} {d d' : Dec} (h : DSim k d d')
    (prot : Bool) (l : LabelList) :
    (decodeCritical P d' prot (l.sh k)).1 = (decodeCritical P d prot l).1 ∧
    (decodeCritical P d' prot (l.sh k)).2.1 = (decodeCritical P d prot l).2.1.sh k ∧
    DSim k (decodeCritical P d prot l).2.2 (decodeCritical P d' prot (l.sh k)).2.2 := by
  unfold decodeCritical
  have h1 := h.enterArrayFromMap hP 2
  generalize d.enterArrayFromMap P 2 = d1 at h1 ⊢
  generalize d'.enterArrayFromMap P 2 = d1' at h1 ⊢
  simp only
  have h2 := h1.setErr' none
  have hlen : d1'.cur.rest.length = d1.cur.rest.length := by rw [h1.cur]; rfl
  rw [h1.err, hlen]
  cases he : d1.err with
  | some e => cases e <;> exact ⟨rfl, rfl, h2⟩
  | none =>
    simp only
    split
    · exact ⟨rfl, rfl, h2⟩
    · obtain ⟨g1, g2, g3⟩ := critLoop_sh hP k (d1.cur.rest.length + 1) _ _ 0 0 l h2
      generalize critLoop P (d1.cur.rest.length + 1) { d1 with err := none } 0 0 l = x at g1 g2 g3 ⊢
      generalize critLoop P (d1.cur.rest.length + 1) { d1' with err := none } 0 0 (l.sh k) = y
        at g1 g2 g3 ⊢
      obtain ⟨r, l1, e1⟩ := x
      obtain ⟨r', l1', e1'⟩ := y
      simp only at g1 g2 g3
      subst g1 g2
      cases r' with
      | error e => exact ⟨rfl, rfl, g3⟩
      | ok u =>
        simp only [isClear_sh]
        split
        · exact ⟨rfl, rfl, g3.exitArray hP⟩
        · exact ⟨rfl, rfl, g3.exitArray hP⟩

theorem takeAlg_sh (k : Nat) (prot : Bool) (f : Found) (p : Params) :
    takeAlg prot (Found.sh k f) (p.sh k) = Except.sh (Params.sh k) (takeAlg prot f p) := by
  unfold takeAlg
  rw [Found.sh_lookup]
  cases f.lookup 1 with
  | none => rfl
  | some q =>
    obtain ⟨v, c⟩ := q
    simp only [Option.map_some]
    cases v with
    | int i =>
      simp only [Val.sh]
      split
      · rfl
      · split <;> rfl
    | _ => rfl

theorem takeKid_sh (k : Nat) (f : Found) (p : Params) :
    takeKid (Found.sh k f) (p.sh k) = Except.sh (Params.sh k) (takeKid f p) := by
  unfold takeKid
  rw [Found.sh_lookup]
  cases f.lookup 4 with
  | none => rfl
  | some q =>
    obtain ⟨v, c⟩ := q
    have e : (p.sh k).kid.isNone = p.kid.isNone := by simp [Params.sh]
    simp only [Option.map_some]
    cases v with
    | bstr s => simp only [Val.sh, e]; split <;> rfl
    | _ => rfl

theorem takeIv_sh (k : Nat) (f : Found) (p : Params) :
    takeIv (Found.sh k f) (p.sh k) = Except.sh (Params.sh k) (takeIv f p) := by
  unfold takeIv
  rw [Found.sh_lookup]
  cases f.lookup 5 with
  | none => rfl
  | some q =>
    obtain ⟨v, c⟩ := q
    have e : (p.sh k).iv.isNone = p.iv.isNone := by simp [Params.sh]
    simp only [Option.map_some]
    cases v with
    | bstr s => simp only [Val.sh, e]; split <;> rfl
    | _ => rfl

theorem takePartialIv_sh (k : Nat) (f : Found) (p : Params) :
    takePartialIv (Found.sh k f) (p.sh k) = Except.sh (Params.sh k) (takePartialIv f p) := by
  unfold takePartialIv
  rw [Found.sh_lookup]
  cases f.lookup 6 with
  | none => rfl
  | some q =>
    obtain ⟨v, c⟩ := q
    have e : (p.sh k).partialIv.isNone = p.partialIv.isNone := by simp [Params.sh]
    simp only [Option.map_some]
    cases v with
    | bstr s => simp only [Val.sh, e]; split <;> rfl
    | _ => rfl

theorem takeContentType_sh (cfg : Config) (k : Nat) (f : Found) (p : Params) :
    takeContentType cfg (Found.sh k f) (p.sh k) =
      Except.sh (Params.sh k) (takeContentType cfg f p) := by
  unfold takeContentType
  split
  · rfl
  · rw [Found.sh_lookup]
    cases f.lookup 3 with
    | none => rfl
    | some q =>
      obtain ⟨v, c⟩ := q
      have e : Str.ub (p.sh k).ctTstr = Str.ub p.ctTstr := Str.ub_sh k _
      have e2 : (p.sh k).ctUint = p.ctUint := rfl
      simp only [Option.map_some]
      cases v with
      | tstr s => simp only [Val.sh, e]; split <;> rfl
      | int i =>
        simp only [Val.sh, e2]
        split
        · rfl
        · split <;> rfl
      | _ => rfl

theorem copyParams_sh (cfg : Config) (k : Nat) (prot : Bool) (f : Found) (p : Params) :
    copyParams cfg prot (Found.sh k f) (p.sh k) =
      Except.sh (Params.sh k) (copyParams cfg prot f p) := by
  unfold copyParams
  rw [takeAlg_sh]
  cases takeAlg prot f p with
  | error e => rfl
  | ok p1 =>
    simp only [Except.sh]
    rw [takeKid_sh]
    cases takeKid f p1 with
    | error e => rfl
    | ok p2 =>
      simp only [Except.sh]
      rw [takeIv_sh]
      cases takeIv f p2 with
      | error e => rfl
      | ok p3 =>
        simp only [Except.sh]
        rw [takePartialIv_sh]
        cases takePartialIv f p3 with
        | error e => rfl
        | ok p4 => exact takeContentType_sh cfg k f p4

structure PSim (k : Nat) (st st' : Parse) : Prop where
  d : DSim k st.d st'.d
  params : st'.params = st.params.sh k
  crit : st'.crit = st.crit.sh k
  unk : st'.unk = st.unk.sh k

theorem parseHeader_sh {P : QParams} (hP : P.Local) {k : Nat} (cfg : Config) (prot : Bool)
    {st st' : Parse} (h : PSim k st st') :
    (parseHeader cfg P prot st').1 = (parseHeader cfg P prot st).1 ∧
    PSim k (parseHeader cfg P prot st).2 (parseHeader cfg P prot st').2 := by
  unfold parseHeader
  have h1 := h.d.enterMap hP
  generalize st.d.enterMap P = d1 at h1 ⊢
  generalize st'.d.enterMap P = d1' at h1 ⊢
  simp only
  obtain ⟨g1, g2, g3⟩ := h1.getItemsInMap hP (headerCb_sh k) headerQs ⟨st.unk, .ok ()⟩
    ⟨st'.unk, .ok ()⟩ ⟨h.unk, rfl⟩
  generalize d1.getItemsInMap P headerQs headerCb ⟨st.unk, .ok ()⟩ = x at g1 g2 g3 ⊢
  generalize d1'.getItemsInMap P headerQs headerCb ⟨st'.unk, .ok ()⟩ = y at g1 g2 g3 ⊢
  obtain ⟨d2, f, cb⟩ := x
  obtain ⟨d2', f', cb'⟩ := y
  simp only at g1 g2 g3 ⊢
  subst g2
  rw [g1.err]
  cases he : d2.err with
  | some e =>
    have hst : PSim k { st with d := d2, unk := cb.unk } { st' with d := d2', unk := cb'.unk } :=
      ⟨g1, h.params, h.crit, g3.1⟩
    cases e <;> first | exact ⟨g3.2, hst⟩ | exact ⟨rfl, hst⟩
  | none =>
    simp only
    rw [h.params, copyParams_sh]
    cases copyParams cfg prot f st.params with
    | error e => exact ⟨rfl, g1, rfl, h.crit, g3.1⟩
    | ok p =>
      simp only [Except.sh]
      rw [h.crit]
      obtain ⟨k1, k2, k3⟩ := decodeCritical_sh hP g1 prot st.crit
      generalize decodeCritical P d2 prot st.crit = x at k1 k2 k3 ⊢
      generalize decodeCritical P d2' prot (st.crit.sh k) = y at k1 k2 k3 ⊢
      obtain ⟨r, l1, e1⟩ := x
      obtain ⟨r', l1', e1'⟩ := y
      simp only at k1 k2 k3 ⊢
      exact ⟨k1, k3.exitMap hP, rfl, k2, g3.1⟩

def Buf.sh (k : Nat) : Buf → Buf
  | .slice s => .slice (s.sh k)
  | .ext b => .ext b

theorem Buf.sh_ub (k : Nat) (b : Buf) : (b.sh k).ub = b.ub := by cases b <;> rfl

theorem wrapOut_sh (k : Nat) (junk : UB) (o : Option (Option Str)) :
    wrapOut junk (o.map (Option.map (Str.sh k))) = (wrapOut junk o).sh k := by
  rcases o with _ | _ | s <;> rfl

theorem strOut_sh (k : Nat) (junk : UB) (o : Option Str) :
    strOut junk (o.map (Str.sh k)) = (strOut junk o).sh k := by
  cases o <;> rfl

theorem parseProtected_sh {P : QParams} (hP : P.Local) {k : Nat} (cfg : Config) (prot : Buf)
    {st st' : Parse} (h : PSim k st st') :
    (parseProtected cfg P (prot.sh k) st').1 = (parseProtected cfg P prot st).1 ∧
    PSim k (parseProtected cfg P prot st).2 (parseProtected cfg P (prot.sh k) st').2 := by
  unfold parseProtected
  rw [Buf.sh_ub]
  split
  · exact parseHeader_sh hP cfg true h
  · exact ⟨rfl, h⟩

/-- Results of `takePayload` correspond. -/
def PayoutSim (k : Nat) : Except Err (Dec × Buf) → Except Err (Dec × Buf) → Prop
  | .ok (d, b), .ok (d', b') => DSim k d d' ∧ b' = b.sh k
  | .error e, .error e' => e' = e
  | _, _ => False

theorem takePayload_sh {P : QParams} (hP : P.Local) {k : Nat} {d d' : Dec} (h : DSim k d d')
    (pay : VPayload) (junk : UB) :
    PayoutSim k (takePayload P d pay junk) (takePayload P d' pay junk) := by
  unfold takePayload
  cases pay with
  | detached p =>
    simp only
    obtain ⟨h1, h2⟩ := h.getNext hP
    generalize d.getNext P = x at h1 h2 ⊢
    generalize d'.getNext P = y at h1 h2 ⊢
    obtain ⟨r, d1⟩ := x
    obtain ⟨r', d1'⟩ := y
    simp only at h1 h2
    subst h1
    cases r with
    | error e => exact rfl
    | ok it =>
      obtain ⟨v, tags, err⟩ := it
      simp only [Except.sh, Itm.sh]
      have : v.sh k = .null ↔ v = .null := by cases v <;> simp [Val.sh]
      by_cases hv : v = .null
      · rw [if_pos hv, if_pos (this.mpr hv)]
        exact ⟨h2, rfl⟩
      · rw [if_neg hv, if_neg (fun h => hv (this.mp h))]
        exact rfl
  | inline w =>
    simp only
    obtain ⟨h1, h2⟩ := h.getByteString hP
    exact ⟨h1, by rw [h2, strOut_sh]⟩

def Decoded.sh (k : Nat) (x : Decoded) : Decoded :=
  { params := x.params.sh k, crit := x.crit.sh k, unk := x.unk.sh k, prot := x.prot.sh k,
    payload := x.payload.sh k, sig := x.sig.sh k }

theorem decodeBody_sh {P : QParams} (hP : P.Local) {k : Nat} {d d' : Dec} (h : DSim k d d')
    (cfg : Config) (pay : VPayload) (junk : Junk) :
    (decodeBody cfg P d' pay junk).1 = Except.sh (Decoded.sh k) (decodeBody cfg P d pay junk).1 ∧
    PSim k (decodeBody cfg P d pay junk).2 (decodeBody cfg P d' pay junk).2 := by
  unfold decodeBody
  obtain ⟨h1, h2⟩ := h.enterBstrWrapped hP
  generalize d.enterBstrWrapped P = x at h1 h2 ⊢
  generalize d'.enterBstrWrapped P = y at h1 h2 ⊢
  obtain ⟨d1, out⟩ := x
  obtain ⟨d1', out'⟩ := y
  simp only at h1 h2 ⊢
  subst h2
  rw [wrapOut_sh]
  have hp0 : PSim k { d := d1, params := Params.clear, crit := LabelList.clear, unk := LabelList.clear }
      { d := d1', params := Params.clear, crit := LabelList.clear, unk := LabelList.clear } :=
    ⟨h1, rfl, rfl, rfl⟩
  obtain ⟨g1, g2⟩ := parseProtected_sh hP cfg (wrapOut junk.prot out) hp0
  generalize parseProtected cfg P (wrapOut junk.prot out) _ = x at g1 g2 ⊢
  generalize parseProtected cfg P ((wrapOut junk.prot out).sh k) _ = y at g1 g2 ⊢
  obtain ⟨r, st⟩ := x
  obtain ⟨r', st'⟩ := y
  simp only at g1 g2 ⊢
  subst g1
  cases r' with
  | error e => exact ⟨rfl, g2⟩
  | ok u =>
    simp only
    have g3 : PSim k { st with d := st.d.exitBstrWrapped } { st' with d := st'.d.exitBstrWrapped } :=
      ⟨g2.d.exitBstrWrapped, g2.params, g2.crit, g2.unk⟩
    obtain ⟨k1, k2⟩ := parseHeader_sh hP cfg false g3
    generalize parseHeader cfg P false { st with d := st.d.exitBstrWrapped } = x at k1 k2 ⊢
    generalize parseHeader cfg P false { st' with d := st'.d.exitBstrWrapped } = y at k1 k2 ⊢
    obtain ⟨r, st2⟩ := x
    obtain ⟨r', st2'⟩ := y
    simp only at k1 k2 ⊢
    subst k1
    cases r' with
    | error e => exact ⟨rfl, k2⟩
    | ok u =>
      simp only
      have hpay := takePayload_sh hP k2.d pay junk.payload
      generalize takePayload P st2.d pay junk.payload = x at hpay ⊢
      generalize takePayload P st2'.d pay junk.payload = y at hpay ⊢
      cases x with
      | error e =>
        cases y with
        | error e' => cases hpay; exact ⟨rfl, k2⟩
        | ok q => exact absurd hpay id
      | ok q =>
        cases y with
        | error e' => exact absurd hpay id
        | ok q' =>
          obtain ⟨d5, b⟩ := q
          obtain ⟨d5', b'⟩ := q'
          obtain ⟨hd5, rfl⟩ := hpay
          simp only
          obtain ⟨m1, m2⟩ := hd5.getByteString hP
          generalize d5.getByteString P = x at m1 m2 ⊢
          generalize d5'.getByteString P = y at m1 m2 ⊢
          obtain ⟨d6, so⟩ := x
          obtain ⟨d6', so'⟩ := y
          simp only at m1 m2 ⊢
          subst m2
          rw [(m1.exitArray hP).finish]
          cases decodeErr (d6.exitArray P).finish with
          | error e => exact ⟨rfl, k2⟩
          | ok u =>
            refine ⟨?_, k2⟩
            simp only [Except.sh, Decoded.sh, strOut_sh, k2.params, k2.crit, k2.unk]

theorem tstrPrefix_sh (k : Nat) (l : LabelList) : (l.sh k).tstrPrefix = l.tstrPrefix := by
  unfold LabelList.tstrPrefix LabelList.sh
  simp only
  induction l.tstrs with
  | nil => rfl
  | cons t ts ih =>
    simp only [List.map_cons, List.takeWhile_cons, Option.isSome_map]
    split
    · simp only [List.map_cons, ih, Str.ub_sh]
    · rfl

theorem terminated_sh (k : Nat) (l : LabelList) : (l.sh k).terminated = l.terminated := by
  unfold LabelList.terminated LabelList.sh
  simp only
  congr 1
  induction l.tstrs with
  | nil => rfl
  | cons t ts ih =>
    simp only [List.map_cons, List.contains_cons, ih]
    cases t <;> rfl

theorem checkCritical_sh (k : Nat) (a b : LabelList) :
    checkCritical (a.sh k) (b.sh k) = checkCritical a b := by
  unfold checkCritical
  rw [tstrPrefix_sh, tstrPrefix_sh, terminated_sh, terminated_sh]
  rfl

theorem checkDecoded_sh (k : Nat) (cfg : Config) (C : Crypto) (me : VerifyCtx) (aad : UB)
    (x : Decoded) : checkDecoded cfg C me aad (x.sh k) = checkDecoded cfg C me aad x := by
  have hk : (x.sh k).params.kid.isNone = x.params.kid.isNone := by simp [Decoded.sh, Params.sh]
  have hkm : (x.sh k).params.kid.map (·.bytes) = x.params.kid.map (·.bytes) := by
    simp only [Decoded.sh, Params.sh]
    cases x.params.kid <;> rfl
  have hku : Str.ub (x.sh k).params.kid = Str.ub x.params.kid := Str.ub_sh k _
  have ha : (x.sh k).params.alg = x.params.alg := rfl
  have hc : checkCritical (x.sh k).crit (x.sh k).unk = checkCritical x.crit x.unk :=
    checkCritical_sh k _ _
  have h1 : (x.sh k).sig.ub = x.sig.ub := Buf.sh_ub k _
  have h2 : (x.sh k).prot.ub = x.prot.ub := Buf.sh_ub k _
  have h3 : (x.sh k).payload.ub = x.payload.ub := Buf.sh_ub k _
  unfold checkDecoded verifyShortCircuit verifyEddsa verifyDefault
  simp only [hk, hkm, hku, ha, hc, h1, h2, h3]

/-! ## Putting a tag 18 in front -/

theorem decodeAtom_tag18 (p : Nat) (msg : Bytes) :
    decodeAtom ⟨p, 0xd2 :: msg⟩ = (.ok (.tag 18), ⟨p + 1, msg⟩) := rfl

theorem nextTagged_untagged {P : QParams} {n : Nat} {c c1 : Cur} {tags : List Nat} {over : Bool}
    {it : Itm} (h : nextTagged P n c tags over = (.ok it, c1)) (hn : it.tags = tags)
    (ht : tags.length < P.maxTags) :
    (∃ v, decodeAtom c = (.ok (.val v), c1) ∧ it = ⟨v, tags, if over then some .tooManyTags else none⟩)
    ∨ ∃ e, decodeAtom c = (.error e, c1) ∧ e.unrec = false ∧ it = ⟨.other, tags, some e⟩ := by
  cases n with
  | zero => simp [nextTagged] at h
  | succ n =>
    unfold nextTagged at h
    generalize decodeAtom c = x at h ⊢
    obtain ⟨r, c'⟩ := x
    cases r with
    | error e =>
      right
      simp only at h
      split at h
      · simp at h
      · rename_i hu
        simp only [Prod.mk.injEq, Except.ok.injEq] at h
        exact ⟨e, by rw [h.2], by simpa using hu, h.1.symm⟩
    | ok a =>
      cases a with
      | val v =>
        left
        simp only [Prod.mk.injEq, Except.ok.injEq] at h
        exact ⟨v, by rw [h.2], h.1.symm⟩
      | tag t =>
        exfalso
        simp only at h
        rw [if_pos ht] at h
        have hlen : ∀ (n : Nat) (c : Cur) (ts : List Nat) (ov : Bool) (it : Itm) (c1 : Cur),
            nextTagged P n c ts ov = (.ok it, c1) → ts.length ≤ it.tags.length := by
          intro n
          induction n with
          | zero => intro c ts ov it c1 h; simp [nextTagged] at h
          | succ n ih =>
            intro c ts ov it c1 h
            unfold nextTagged at h
            generalize decodeAtom c = x at h
            obtain ⟨r, c'⟩ := x
            cases r with
            | error e =>
              simp only at h
              split at h
              · simp at h
              · simp only [Prod.mk.injEq, Except.ok.injEq] at h
                rw [← h.1]; exact Nat.le_refl _
            | ok a =>
              cases a with
              | val v =>
                simp only [Prod.mk.injEq, Except.ok.injEq] at h
                rw [← h.1]; exact Nat.le_refl _
              | tag t =>
                simp only at h
                split at h
                · have := ih _ _ _ _ _ h
                  simp only [List.length_cons] at this
                  omega
                · exact ih _ _ _ _ _ h
        have := hlen _ _ _ _ _ _ h
        rw [hn] at this
        simp only [List.length_cons] at this
        omega

theorem entry_tag18 {P : QParams} (h1 : 1 ≤ P.maxTags) {msg : Bytes} {n : Option Nat}
    {c1 : Cur} (h : entry P false ⟨0, msg⟩ = (.ok (none, ⟨.arr n, [], none⟩), c1)) :
    entry P false ⟨0, 0xd2 :: msg⟩ = (.ok (none, ⟨.arr n, [18], none⟩), c1.sh 1) := by
  unfold entry nextItem at h
  simp only [Bool.false_eq_true, if_false] at h
  generalize hx : nextRaw P ⟨0, msg⟩ = x at h
  obtain ⟨r, c'⟩ := x
  cases r with
  | error e => simp at h
  | ok it =>
    simp only at h
    split at h
    · simp at h
    · simp only [Prod.mk.injEq, Except.ok.injEq, true_and] at h
      obtain ⟨hit, rfl⟩ := h
      have htags : it.tags = [] := by
        have := tagContent_tags P it
        rw [hit] at this
        exact this.symm
      rcases nextTagged_untagged hx htags (by exact h1) with ⟨v, hv, hi⟩ | ⟨e, he, -, hi⟩
      · rw [hi] at hit
        have hv' : v = .arr n := by
          have : tagContent P ⟨v, [], none⟩ = ⟨v, [], none⟩ := rfl
          simp only [Bool.false_eq_true, if_false] at hit
          rw [this] at hit
          simp only [Itm.mk.injEq] at hit
          exact hit.1
        subst hv'
        have hsh := decodeAtom_sh 1 ⟨0, msg⟩
        rw [hv] at hsh
        have hsh : decodeAtom ⟨1, msg⟩ = (.ok (.val (.arr n)), c'.sh 1) := hsh
        have hraw : nextRaw P ⟨0, 0xd2 :: msg⟩ = (.ok ⟨.arr n, [18], none⟩, c'.sh 1) := by
          unfold nextRaw
          simp only [List.length_cons]
          unfold nextTagged
          rw [decodeAtom_tag18]
          simp only [List.length_nil]
          rw [if_pos (by omega)]
          unfold nextTagged
          simp only [Nat.zero_add]
          rw [hsh]
          rfl
        unfold entry nextItem
        simp only [Bool.false_eq_true, if_false]
        rw [hraw]
        rfl
      · rw [hi] at hit
        have : tagContent P ⟨.other, [], some e⟩ = ⟨.other, [], some e⟩ := rfl
        rw [this] at hit
        simp at hit

/-- Tagging an untagged message does not change the outcome when tagging is
neither required nor prohibited. -/
theorem verify_tag18 {P : QParams} (hP : P.Local) (h1 : 1 ≤ P.maxTags)
    (h4 : P.maxTags ≤ maxTagsToReturn) {cfg : Config} {C : Crypto} {junk : Junk} {me : VerifyCtx}
    {msg : Bytes} {aad : UB} {pay : VPayload} {want : Bool}
    (hr : hasFlag me.flags optTagRequired = false) (hp : hasFlag me.flags optTagProhibited = false)
    (hlen : msg.length < maxDecodeInput) {n : Option Nat} {c1 : Cur}
    (hen : entry P false ⟨0, msg⟩ = (.ok (none, ⟨.arr n, [], none⟩), c1)) :
    verifyInternal cfg P C junk me (0xd2 :: msg) aad pay want =
      { verifyInternal cfg P C junk me msg aad pay want with
        params := (verifyInternal cfg P C junk me msg aad pay want).params.map (Params.sh 1)
        payload := (verifyInternal cfg P C junk me msg aad pay want).payload.map (Buf.sh 1) } := by
  have hd := enterArray_intro_msg (by omega) hen
  have hd' := enterArray_intro_msg (msg := 0xd2 :: msg) (by simp; omega) (entry_tag18 h1 hen)
  rw [openLvl_sh] at hd'
  have hsim : DSim 1 ((Dec.init msg).enterArray P) ((Dec.init (0xd2 :: msg)).enterArray P) := by
    rw [hd, hd']
    exact ⟨rfl, rfl, rfl⟩
  have he : ((Dec.init msg).enterArray P).err = none := by rw [hd]
  have he' : ((Dec.init (0xd2 :: msg)).enterArray P).err = none := by rw [hd']
  have ht : ((Dec.init msg).enterArray P).tags = [] := by rw [hd]
  have ht' : ((Dec.init (0xd2 :: msg)).enterArray P).tags = [18] := by rw [hd']
  have hpt : processTags P me ((Dec.init msg).enterArray P) =
      (.ok (), { me with auTags := padTags [] }, false) := by
    rcases processTags_eq (me := me) he (by rw [ht]; simp) h4 with ⟨-, h⟩ | ⟨h, -⟩
    · rw [h, ht]; rfl
    · exact absurd ⟨fun g => Bool.noConfusion (hr.symm.trans g),
        fun g => Bool.noConfusion (hp.symm.trans g)⟩ h
  have hpt' : processTags P me ((Dec.init (0xd2 :: msg)).enterArray P) =
      (.ok (), { me with auTags := padTags [] }, false) := by
    rcases processTags_eq (me := me) he' (by rw [ht']; simpa using h1) h4 with ⟨-, h⟩ | ⟨h, -⟩
    · rw [h, ht']; rfl
    · exact absurd ⟨fun g => Bool.noConfusion (hr.symm.trans g),
        fun g => Bool.noConfusion (hp.symm.trans g)⟩ h
  unfold verifyInternal
  simp only
  rw [decodeErr_ok.mpr he, decodeErr_ok.mpr he']
  simp only
  rw [hpt, hpt']
  simp only
  obtain ⟨g1, g2⟩ := decodeBody_sh hP hsim cfg pay junk
  generalize decodeBody cfg P ((Dec.init msg).enterArray P) pay junk = x at g1 g2 ⊢
  generalize decodeBody cfg P ((Dec.init (0xd2 :: msg)).enterArray P) pay junk = y at g1 g2 ⊢
  obtain ⟨r, st⟩ := x
  obtain ⟨r', st'⟩ := y
  simp only at g1 g2
  subst g1
  cases r with
  | error e =>
    simp only [Except.sh, VRes.fail, g2.crit, g2.unk]
    rfl
  | ok dec =>
    simp only [Except.sh, checkDecoded_sh]
    generalize checkDecoded cfg C _ aad dec = z
    obtain ⟨r, me2, ub⟩ := z
    cases r with
    | error e => rfl
    | ok u =>
      simp only [Decoded.sh]
      by_cases hpay : pay = .inline true
      · simp only [if_pos hpay]; split <;> rfl
      · simp only [if_neg hpay]; split <;> rfl

end TCose
