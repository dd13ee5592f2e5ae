import Verif.Lemmas.Returned

/-!
# Every outcome of verification: no undefined behaviour, no endless loop

Invariants that hold after each decoding step whether or not it succeeded.
-/

namespace TCose
open Spec

/-- Unknown labels recorded: at most ten of each kind, none zero. -/
def UnkOk (u : LabelList) : Prop := ∃ st, LLok st ∧ u = mkLL st.1 st.2

/-- Critical labels recorded: at most ten of each kind. -/
def CrOk (l : LabelList) : Prop :=
  ∃ xs ts, xs.length ≤ paramListMax ∧ ts.length ≤ paramListMax ∧ l = mkLL xs ts

theorem UnkOk.ub {u : LabelList} (h : UnkOk u) : u.ub = false := by
  obtain ⟨st, -, rfl⟩ := h; rfl

theorem CrOk.ub {u : LabelList} (h : CrOk u) : u.ub = false := by
  obtain ⟨xs, ts, -, -, rfl⟩ := h; rfl

theorem UnkOk.term {u : LabelList} (h : UnkOk u) : u.terminated = true := by
  obtain ⟨st, hl, rfl⟩ := h; exact mkLL_terminated hl.1 hl.2.2

theorem CrOk.term {u : LabelList} (h : CrOk u) : u.terminated = true := by
  obtain ⟨xs, ts, h1, h2, rfl⟩ := h; exact mkLL_terminated h1 h2

theorem UnkOk_clear : UnkOk LabelList.clear := ⟨([], []), LLok_nil, rfl⟩

theorem CrOk_clear : CrOk LabelList.clear := ⟨[], [], by simp, by simp, rfl⟩

namespace Dec

theorem itemDone_adv (ls : List Lvl) (c : Cur) : Adv c (itemDone ls c).2 := by
  cases ls with
  | nil => exact Adv.refl c
  | cons l ls =>
    cases l with
    | arr left => rw [itemDone_arr]; exact stepLeft_adv left c
    | map s n => exact Adv.refl c
    | wrap o => exact Adv.refl c

theorem getNext_adv {P : QParams} {d d' : Dec} {it : Itm} (h : d.getNext P = (.ok it, d')) :
    d'.cur.rest.length < d.cur.rest.length ∧ d'.err = d.err := by
  obtain ⟨c1, hf, rfl⟩ := getNext_ok h
  have h1 := (fetch_adv hf).1
  have h2 := itemDone_adv d.lvls c1
  exact ⟨(h1.trans_adv h2).length_lt, rfl⟩

theorem getNext_err {P : QParams} {d d' : Dec} {e : QErr} (h : d.getNext P = (.error e, d')) :
    e ≠ .fuel ∧ d'.err = d.err := by
  unfold getNext at h
  generalize hf : d.fetch P = x at h
  obtain ⟨r, c1⟩ := x
  cases r with
  | error e' =>
    simp only [Prod.mk.injEq, Except.error.injEq] at h
    rw [← h.1, ← h.2]
    exact ⟨fetch_err hf, rfl⟩
  | ok it => simp at h

theorem enterMap_nf {P : QParams} {d : Dec} (h : d.err ≠ some .fuel) :
    (d.enterMap P).err ≠ some .fuel := by
  unfold enterMap
  split
  · exact h
  · generalize hf : d.fetch P = x
    obtain ⟨r, c1⟩ := x
    cases r with
    | error e => simpa using fetch_err hf
    | ok it =>
      simp only
      split
      · split
        · simp
        · exact h
      · simp

theorem enterArray_nf {P : QParams} {d : Dec} (h : d.err ≠ some .fuel) :
    (d.enterArray P).err ≠ some .fuel := by
  unfold enterArray
  split
  · exact h
  · generalize hf : d.fetch P = x
    obtain ⟨r, c1⟩ := x
    cases r with
    | error e => simpa using fetch_err hf
    | ok it =>
      simp only
      split
      · split
        · simp
        · exact h
      · simp

theorem enterBstrWrapped_nf {P : QParams} {d : Dec} (h : d.err ≠ some .fuel) :
    (d.enterBstrWrapped P).1.err ≠ some .fuel := by
  unfold enterBstrWrapped
  split
  · exact h
  · generalize hf : d.fetch P = x
    obtain ⟨r, c1⟩ := x
    cases r with
    | error e => simpa using fetch_err hf
    | ok it =>
      simp only
      split
      · split
        · simp
        · exact h
      · simp

theorem getByteString_nf {P : QParams} {d : Dec} (h : d.err ≠ some .fuel) :
    (d.getByteString P).1.err ≠ some .fuel := by
  unfold getByteString
  split
  · exact h
  · generalize hf : d.getNext P = x
    obtain ⟨r, d1⟩ := x
    cases r with
    | error e => simpa using (getNext_err hf).1
    | ok it =>
      simp only
      split
      · rw [(getNext_adv hf).2]; exact h
      · simp

theorem mapSearch_nf {P : QParams} {d : Dec} {σ : Type} {qs : List (Int × QTyp)}
    {cb : σ → Option Val → σ × Bool} {s : σ} : (d.mapSearch P qs cb s).1 ≠ .error .fuel := by
  unfold mapSearch
  split
  · simp
  · rename_i start cnt ls _ _
    have := searchLoop_no_fuel P d.room qs cb (start.rest.length + 1) cnt start [] s (by omega)
    generalize searchLoop P d.room qs cb (start.rest.length + 1) cnt start [] s = x at this ⊢
    obtain ⟨r, s'⟩ := x
    cases r with
    | error e => simpa using this
    | ok f => simp
  · simp

theorem mapSearch_inv {P : QParams} {d : Dec} {σ : Type} {qs : List (Int × QTyp)}
    {cb : σ → Option Val → σ × Bool} (I : σ → Prop) (hI : ∀ s l, I s → I (cb s l).1) {s : σ}
    (hs : I s) : I (d.mapSearch P qs cb s).2 := by
  unfold mapSearch
  split
  · exact hs
  · rename_i start cnt ls _ _
    have := searchLoop_inv P d.room qs cb I hI (start.rest.length + 1) cnt start [] s hs
    generalize searchLoop P d.room qs cb (start.rest.length + 1) cnt start [] s = x at this ⊢
    obtain ⟨r, s'⟩ := x
    cases r <;> exact this
  · exact hs

theorem getItemsInMap_nf {P : QParams} {d : Dec} {σ : Type} {qs : List (Int × QTyp)}
    {cb : σ → Option Val → σ × Bool} {s : σ} (h : d.err ≠ some .fuel) :
    (d.getItemsInMap P qs cb s).1.err ≠ some .fuel := by
  unfold getItemsInMap
  split
  · exact h
  · have := mapSearch_nf (P := P) (d := d) (qs := qs) (cb := cb) (s := s)
    generalize d.mapSearch P qs cb s = x at this ⊢
    obtain ⟨r, s'⟩ := x
    cases r with
    | error e => simpa using this
    | ok f => exact h

theorem getItemsInMap_inv {P : QParams} {d : Dec} {σ : Type} {qs : List (Int × QTyp)}
    {cb : σ → Option Val → σ × Bool} (I : σ → Prop) (hI : ∀ s l, I s → I (cb s l).1) {s : σ}
    (hs : I s) : I (d.getItemsInMap P qs cb s).2.2 := by
  unfold getItemsInMap
  split
  · exact hs
  · have := mapSearch_inv (P := P) (d := d) (qs := qs) (cb := cb) I hI hs
    generalize d.mapSearch P qs cb s = x at this ⊢
    obtain ⟨r, s'⟩ := x
    cases r <;> exact this

theorem enterArrayFromMap_nf {P : QParams} {d : Dec} {i : Int} (h : d.err ≠ some .fuel) :
    (d.enterArrayFromMap P i).err ≠ some .fuel := by
  unfold enterArrayFromMap
  split
  · exact h
  · have := mapSearch_nf (P := P) (d := d) (qs := [(i, .arr)])
      (cb := fun (s : Unit) _ => (s, true)) (s := ())
    generalize d.mapSearch P [(i, .arr)] (fun (s : Unit) _ => (s, true)) () = x at this ⊢
    obtain ⟨r, s'⟩ := x
    cases r with
    | error e => simpa using this
    | ok f =>
      simp only
      split
      · split
        · simp
        · exact h
      · simp

theorem exitArray_nf {P : QParams} {d : Dec} (h : d.err ≠ some .fuel) :
    (d.exitArray P).err ≠ some .fuel := by
  unfold exitArray
  split
  · exact h
  · split
    · exact h
    · rename_i left ls _ _
      have := skipAll_ok P (d.room + 1) [⟨false, left⟩] d.cur
      generalize skipAll P (d.room + 1) [⟨false, left⟩] d.cur = x at this ⊢
      cases x with
      | error e =>
        have : e ≠ .fuel := this
        simpa using this
      | ok c => exact h
    · simp

theorem exitMap_nf {P : QParams} {d : Dec} (h : d.err ≠ some .fuel) :
    (d.exitMap P).err ≠ some .fuel := by
  unfold exitMap
  split
  · exact h
  · split
    · exact h
    · rename_i start left ls _ _
      have := skipAll_ok P (d.room + 1) [⟨true, left⟩] start
      generalize skipAll P (d.room + 1) [⟨true, left⟩] start = x at this ⊢
      cases x with
      | error e =>
        have : e ≠ .fuel := this
        simpa using this
      | ok c => exact h
    · simp

theorem exitBstrWrapped_nf {d : Dec} (h : d.err ≠ some .fuel) :
    d.exitBstrWrapped.err ≠ some .fuel := by
  unfold exitBstrWrapped
  split
  · exact h
  · split
    · exact h
    · simp

theorem finish_nf {d : Dec} (h : d.err ≠ some .fuel) : d.finish ≠ some .fuel := by
  unfold finish
  split
  · rename_i e he; rw [he] at h; exact h
  · split
    · simp
    · split <;> simp

end Dec

theorem decodeErr_nh {o : Option QErr} (h : o ≠ some .fuel) : decodeErr o ≠ .error .modelHang := by
  unfold decodeErr
  cases o with
  | none => simp
  | some e =>
    simp only
    rw [if_neg (by simpa using h)]
    split
    · simp
    · split <;> simp

theorem paramErr_nh {e : QErr} (h : e ≠ .fuel) : paramErr e ≠ .modelHang := by
  unfold paramErr
  rw [if_neg h]
  split <;> simp

theorem critLoop_inv (P : QParams) : ∀ (n : Nat) (d : Dec) (xs : List Int) (ts : List Str),
    xs.length ≤ paramListMax → ts.length ≤ paramListMax → d.cur.rest.length < n →
    CrOk (critLoop P n d xs.length ts.length (mkLL xs ts)).2.1 ∧
    (critLoop P n d xs.length ts.length (mkLL xs ts)).2.2.err = d.err ∧
    (critLoop P n d xs.length ts.length (mkLL xs ts)).1 ≠ .error .modelHang
  | 0, d, xs, ts, h1, h2, h3 => absurd h3 (by omega)
  | n + 1, d, xs, ts, h1, h2, h3 => by
    have hl : CrOk (mkLL xs ts) := ⟨xs, ts, h1, h2, rfl⟩
    unfold critLoop
    generalize hg : d.getNext P = x
    obtain ⟨r, d1⟩ := x
    cases r with
    | error e =>
      have := (Dec.getNext_err hg).2
      cases e <;> exact ⟨hl, this, by simp⟩
    | ok it =>
      obtain ⟨hlt, herr⟩ := Dec.getNext_adv hg
      simp only
      split
      · split
        · exact ⟨hl, herr, by simp⟩
        · rename_i i _ hlen
          rw [mkLL_setInt i (by omega)]
          have := critLoop_inv P n d1 (xs ++ [i]) ts (by simp; omega) h2 (by omega)
          rw [List.length_append, List.length_singleton, herr] at this
          exact this
      · split
        · exact ⟨hl, herr, by simp⟩
        · rename_i s _ hlen
          rw [mkLL_setTstr s (by omega)]
          have := critLoop_inv P n d1 xs (ts ++ [s]) h1 (by simp; omega) (by omega)
          rw [List.length_append, List.length_singleton, herr] at this
          exact this
      · exact ⟨hl, herr, by simp⟩

theorem decodeCritical_inv {P : QParams} {d : Dec} {prot : Bool} {l : LabelList}
    (hl : CrOk l) (hp : prot = true → l = LabelList.clear) :
    CrOk (decodeCritical P d prot l).2.1 ∧
    (decodeCritical P d prot l).2.2.err ≠ some .fuel ∧
    (decodeCritical P d prot l).1 ≠ .error .modelHang := by
  unfold decodeCritical
  simp only
  generalize d.enterArrayFromMap P 2 = d1
  split
  · exact ⟨hl, by simp, by simp⟩
  · exact ⟨hl, by simp, by simp⟩
  · split
    · exact ⟨hl, by simp, by simp⟩
    · rename_i hpr
      have hpr : prot = true := by simpa using hpr
      rw [hp hpr, ← mkLL_nil]
      obtain ⟨h1, h2, h3⟩ := critLoop_inv P (d1.cur.rest.length + 1) { d1 with err := none } [] []
        (by simp) (by simp) (by simp)
      simp only [List.length_nil] at h1 h2 h3
      generalize critLoop P (d1.cur.rest.length + 1) { d1 with err := none } 0 0 (mkLL [] []) = x
        at h1 h2 h3 ⊢
      obtain ⟨r, l', d3⟩ := x
      simp only at h1 h2 h3
      cases r with
      | error e => exact ⟨h1, by simp [h2], by simpa using h3⟩
      | ok u =>
        simp only
        have hx : (d3.exitArray P).err ≠ some .fuel := Dec.exitArray_nf (by simp [h2])
        split
        · exact ⟨h1, hx, by simp⟩
        · exact ⟨h1, hx, by simp⟩

theorem copyParams_nh {cfg : Config} {prot : Bool} {f : Found} {p : Params} :
    copyParams cfg prot f p ≠ .error .modelHang := by
  have ha : takeAlg prot f p ≠ .error .modelHang := by
    unfold takeAlg; repeat' split
    all_goals simp
  have hk : ∀ p, takeKid f p ≠ .error .modelHang := by
    intro p; unfold takeKid; repeat' split
    all_goals simp
  have hi : ∀ p, takeIv f p ≠ .error .modelHang := by
    intro p; unfold takeIv; repeat' split
    all_goals simp
  have hq : ∀ p, takePartialIv f p ≠ .error .modelHang := by
    intro p; unfold takePartialIv; repeat' split
    all_goals simp
  have hc : ∀ p, takeContentType cfg f p ≠ .error .modelHang := by
    intro p; unfold takeContentType; repeat' split
    all_goals simp
  unfold copyParams
  split
  · rename_i x h; rw [h] at ha; exact ha
  · split
    · rename_i x h; intro hh; exact hk _ (h.trans hh)
    · split
      · rename_i x h; intro hh; exact hi _ (h.trans hh)
      · split
        · rename_i x h; intro hh; exact hq _ (h.trans hh)
        · exact hc _

/-- What holds of the parsing state after every step. -/
structure PInv (st : Parse) : Prop where
  nf : st.d.err ≠ some .fuel
  crit : CrOk st.crit
  unk : UnkOk st.unk

theorem parseHeader_inv {cfg : Config} {P : QParams} {prot : Bool} {st : Parse} (h : PInv st)
    (hp : prot = true → st.crit = LabelList.clear) :
    PInv (parseHeader cfg P prot st).2 ∧ (parseHeader cfg P prot st).1 ≠ .error .modelHang := by
  unfold parseHeader
  have h1 := Dec.enterMap_nf (P := P) h.nf
  generalize st.d.enterMap P = d1 at h1 ⊢
  simp only
  have hcb : CbOk ⟨st.unk, .ok ()⟩ := by
    obtain ⟨s, hs, hu⟩ := h.unk
    exact ⟨⟨s, hs, hu⟩, by simp⟩
  have h2 := Dec.getItemsInMap_nf (P := P) (qs := headerQs) (cb := headerCb)
    (s := ⟨st.unk, .ok ()⟩) h1
  have h3 := Dec.getItemsInMap_inv (P := P) (d := d1) (qs := headerQs) CbOk
    (fun s l hs => (headerCb_inv hs l).1) hcb
  generalize d1.getItemsInMap P headerQs headerCb ⟨st.unk, .ok ()⟩ = x at h2 h3 ⊢
  obtain ⟨d2, f, cb⟩ := x
  simp only at h2 h3 ⊢
  have hu : UnkOk cb.unk := h3.1
  split
  · exact ⟨⟨h2, h.crit, hu⟩, h3.2⟩
  · rename_i e _ he
    exact ⟨⟨h2, h.crit, hu⟩, by
      have := paramErr_nh (e := e) (by rw [he] at h2; simpa using h2)
      simpa using this⟩
  · have hc := copyParams_nh (cfg := cfg) (prot := prot) (f := f) (p := st.params)
    generalize copyParams cfg prot f st.params = y at hc ⊢
    cases y with
    | error e => exact ⟨⟨h2, h.crit, hu⟩, by simpa using hc⟩
    | ok p =>
      simp only
      obtain ⟨k1, k2, k3⟩ := decodeCritical_inv (P := P) (d := d2) (prot := prot) h.crit hp
      generalize decodeCritical P d2 prot st.crit = z at k1 k2 k3 ⊢
      obtain ⟨r, l, d3⟩ := z
      exact ⟨⟨Dec.exitMap_nf k2, k1, hu⟩, k3⟩

theorem decodeBody_inv {cfg : Config} {P : QParams} {d : Dec} {pay : VPayload} {junk : Junk}
    (h : d.err ≠ some .fuel) :
    (CrOk (decodeBody cfg P d pay junk).2.crit ∧ UnkOk (decodeBody cfg P d pay junk).2.unk) ∧
    (∀ x, (decodeBody cfg P d pay junk).1 = .ok x → CrOk x.crit ∧ UnkOk x.unk) ∧
    (decodeBody cfg P d pay junk).1 ≠ .error .modelHang := by
  unfold decodeBody
  have h1 := Dec.enterBstrWrapped_nf (P := P) h
  generalize d.enterBstrWrapped P = x at h1 ⊢
  obtain ⟨d1, out⟩ := x
  simp only at h1 ⊢
  have h0 : PInv (Parse.mk d1 Params.clear LabelList.clear LabelList.clear) := ⟨h1, CrOk_clear, UnkOk_clear⟩
  have h2 : PInv (parseProtected cfg P (wrapOut junk.prot out) (Parse.mk d1 Params.clear LabelList.clear LabelList.clear)).2 ∧
      (parseProtected cfg P (wrapOut junk.prot out) (Parse.mk d1 Params.clear LabelList.clear LabelList.clear)).1 ≠ .error .modelHang := by
    unfold parseProtected
    split
    · exact parseHeader_inv h0 (fun _ => rfl)
    · exact ⟨h0, by simp⟩
  generalize parseProtected cfg P (wrapOut junk.prot out) _ = x at h2 ⊢
  obtain ⟨r, st⟩ := x
  simp only at h2 ⊢
  obtain ⟨h2, h2r⟩ := h2
  cases r with
  | error e => exact ⟨⟨h2.crit, h2.unk⟩, by simp, by simpa using h2r⟩
  | ok u =>
    simp only
    have h3 : PInv { st with d := st.d.exitBstrWrapped } :=
      ⟨Dec.exitBstrWrapped_nf h2.nf, h2.crit, h2.unk⟩
    obtain ⟨h4, h4r⟩ := parseHeader_inv (cfg := cfg) (P := P) (prot := false) h3 (by simp)
    generalize parseHeader cfg P false { st with d := st.d.exitBstrWrapped } = x at h4 h4r ⊢
    obtain ⟨r, st2⟩ := x
    simp only at h4 h4r ⊢
    cases r with
    | error e => exact ⟨⟨h4.crit, h4.unk⟩, by simp, by simpa using h4r⟩
    | ok u =>
      simp only
      have h5 : ∀ d5 b, takePayload P st2.d pay junk.payload = .ok (d5, b) →
          d5.err ≠ some .fuel := by
        intro d5 b hb
        unfold takePayload at hb
        cases pay with
        | detached p =>
          simp only at hb
          generalize hg : st2.d.getNext P = y at hb
          obtain ⟨r, d1⟩ := y
          cases r with
          | error e => simp at hb
          | ok it =>
            simp only at hb
            split at hb
            · simp only [Except.ok.injEq, Prod.mk.injEq] at hb
              rw [← hb.1, (Dec.getNext_adv hg).2]; exact h4.nf
            · simp at hb
        | inline w =>
          simp only [Except.ok.injEq, Prod.mk.injEq] at hb
          rw [← hb.1]
          exact Dec.getByteString_nf h4.nf
      have h5r : takePayload P st2.d pay junk.payload ≠ .error .modelHang := by
        unfold takePayload
        repeat' split
        all_goals simp
      generalize takePayload P st2.d pay junk.payload = y at h5 h5r ⊢
      cases y with
      | error e => exact ⟨⟨h4.crit, h4.unk⟩, by simp, by simpa using h5r⟩
      | ok q =>
        obtain ⟨d5, b⟩ := q
        simp only
        have h6 := Dec.getByteString_nf (P := P) (h5 d5 b rfl)
        generalize d5.getByteString P = z at h6 ⊢
        obtain ⟨d6, so⟩ := z
        simp only at h6 ⊢
        have h7 := decodeErr_nh (Dec.finish_nf (Dec.exitArray_nf (P := P) h6))
        generalize decodeErr (d6.exitArray P).finish = w at h7 ⊢
        cases w with
        | error e => exact ⟨⟨h4.crit, h4.unk⟩, by simp, by simpa using h7⟩
        | ok u =>
          refine ⟨⟨h4.crit, h4.unk⟩, ?_, by simp⟩
          intro x hx
          simp only [Except.ok.injEq] at hx
          rw [← hx]
          exact ⟨h4.crit, h4.unk⟩

/-- The adapter functions return (with some error code or a result): none of
them is the model's mark for an endless loop. -/
structure Crypto.Returns (C : Crypto) : Prop where
  start : ∀ a, C.hashStart a ≠ .error .modelHang
  finish : ∀ h n, C.hashFinish h n ≠ .error .modelHang
  verify : ∀ a k i h s, C.verify a k i h s ≠ .error .modelHang
  verifyEddsa : ∀ k i t s, C.verifyEddsa k i t s ≠ .error .modelHang

theorem createTbsHash_nh {cfg : Config} {C : Crypto} (hC : C.Returns) {alg : Int}
    {prot aad pay : UB} {room : Nat} :
    createTbsHash cfg C alg prot aad pay room ≠ .error .modelHang := by
  unfold createTbsHash
  simp only
  split
  · simp
  · have := hC.start (hashAlgOfSigAlg cfg alg)
    generalize C.hashStart (hashAlgOfSigAlg cfg alg) = x at this ⊢
    cases x with
    | error e => simpa using this
    | ok h => exact hC.finish _ _

theorem scVerify_nh (h s : Bytes) : scVerify h s ≠ .error .modelHang := by
  unfold scVerify
  repeat' split
  all_goals simp

theorem checkDecoded_inv {cfg : Config} {C : Crypto} {me : VerifyCtx} {aad : UB} {x : Decoded}
    (hw : x.Wf aad) (hc : CrOk x.crit) (hu : UnkOk x.unk) :
    (checkDecoded cfg C me aad x).2.2 = false ∧
    (C.Returns → (checkDecoded cfg C me aad x).1 ≠ .error .modelHang) ∧
    ((checkDecoded cfg C me aad x).2.1 = me ∨
      (isEddsa cfg x ∧ (x.tbs aad).length ≤ me.aux.cap ∧
        (checkDecoded cfg C me aad x).2.1 = { me with auxSize := (x.tbs aad).length })) := by
  unfold checkDecoded
  split
  · exact ⟨rfl, by simp, .inl rfl⟩
  · have hcr : (if hasFlag me.flags optUnknownCritAllowed then ((.ok () : Except Err Unit), false)
        else checkCritical x.crit x.unk).2 = false ∧
        (if hasFlag me.flags optUnknownCritAllowed then ((.ok () : Except Err Unit), false)
        else checkCritical x.crit x.unk).1 ≠ .error .modelHang := by
      split
      · exact ⟨rfl, by simp⟩
      · unfold checkCritical
        simp only [hc.term, hu.term]
        refine ⟨rfl, ?_⟩
        repeat' split
        all_goals simp
    generalize (if hasFlag me.flags optUnknownCritAllowed then ((.ok () : Except Err Unit), false)
        else checkCritical x.crit x.unk) = y at hcr ⊢
    obtain ⟨cr, ub⟩ := y
    obtain ⟨hub, hcr⟩ := hcr
    simp only at hub hcr ⊢
    subst hub
    cases cr with
    | error e => exact ⟨rfl, fun _ => by simpa using hcr, .inl rfl⟩
    | ok u =>
      simp only
      split
      · refine ⟨rfl, fun hC => ?_, .inl rfl⟩
        unfold verifyShortCircuit
        split
        · simp
        · split
          · simp
          · have := createTbsHash_nh hC (cfg := cfg) (alg := x.params.alg) (prot := x.prot.ub)
              (aad := aad) (pay := x.payload.ub) (room := maxHashSize cfg)
            generalize createTbsHash cfg C x.params.alg x.prot.ub aad x.payload.ub
              (maxHashSize cfg) = z at this ⊢
            cases z with
            | error e => simpa using this
            | ok h => exact scVerify_nh _ _
      · split
        · rename_i hed
          have hed : isEddsa cfg x := by
            simp only [Bool.and_eq_true, Bool.not_eq_true', beq_iff_eq] at hed
            exact hed
          rw [verifyEddsa_eq hw]
          split
          · exact ⟨rfl, by simp, .inl rfl⟩
          · rename_i hcap
            refine ⟨rfl, fun hC => ?_, .inr ⟨hed, by omega, rfl⟩⟩
            simp only
            split
            · simp
            · split
              · simp
              · exact hC.verifyEddsa _ _ _ _
        · refine ⟨rfl, fun hC => ?_, .inl rfl⟩
          unfold verifyDefault
          split
          · simp
          · have := createTbsHash_nh hC (cfg := cfg) (alg := x.params.alg) (prot := x.prot.ub)
              (aad := aad) (pay := x.payload.ub) (room := maxHashSize cfg)
            generalize createTbsHash cfg C x.params.alg x.prot.ub aad x.payload.ub
              (maxHashSize cfg) = z at this ⊢
            cases z with
            | error e => simpa using this
            | ok h => exact hC.verify _ _ _ _ _

/-- Shape of the tag processing in a run, whatever its outcome. -/
theorem enterArray_tags {P : QParams} {msg : Bytes}
    (he : ((Dec.init msg).enterArray P).err = none) :
    ((Dec.init msg).enterArray P).tags.length ≤ P.maxTags := by
  obtain ⟨-, n, c1, tags, hen, hd⟩ := enterArray_msg rfl he
  rw [hd]
  exact entry_tags_le hen

theorem init_nf (msg : Bytes) : (Dec.init msg).err ≠ some .fuel := by
  unfold Dec.init
  simp only
  split <;> simp

/-- All outcomes of a verification call. -/
theorem verify_cases {cfg : Config} {P : QParams} {C : Crypto} {junk : Junk} {me : VerifyCtx}
    {msg : Bytes} {aad : UB} {pay : VPayload} {want : Bool} (hP : P.maxTags ≤ maxTagsToReturn) :
    (∃ x, x ≠ .modelHang ∧
      verifyInternal cfg P C junk me msg aad pay want = .fail x me false) ∨
    (∃ x tags, x ≠ .modelHang ∧ TagPolicy me.flags tags ∧
      verifyInternal cfg P C junk me msg aad pay want =
        .fail x { me with auTags := padTags (restTags tags) } false) ∨
    (∃ v x, IsView P msg v ∧ TagPolicy me.flags v.tags ∧ DecodesTo cfg P v pay x ∧
      CrOk x.crit ∧ UnkOk x.unk ∧
      verifyInternal cfg P C junk me msg aad pay want =
        match checkDecoded cfg C (me.withTags v) aad x with
        | (.error e, me', ub') => .fail e me' ub'
        | (.ok (), me', ub') =>
          { res := .ok (), ctx := me', params := if want then some x.params else none,
            payload := if pay = .inline true then some x.payload else none, ub := ub' }) := by
  unfold verifyInternal
  have h1 := Dec.enterArray_nf (P := P) (init_nf msg)
  simp only
  cases he : ((Dec.init msg).enterArray P).err with
  | some e =>
    left
    have := decodeErr_nh h1
    rw [he] at this
    have hne : decodeErr (some e) ≠ .ok () := by
      intro h; exact absurd (decodeErr_ok.mp h) (by simp)
    generalize decodeErr (some e) = y at this hne ⊢
    cases y with
    | error x => exact ⟨x, by simpa using this, rfl⟩
    | ok u => exact absurd rfl hne
  | none =>
    rw [decodeErr_ok.mpr rfl]
    simp only
    rcases processTags_eq (me := me) he (enterArray_tags he) hP with ⟨hpol, hpt⟩ | ⟨-, hpt⟩
    · rw [hpt]
      simp only
      obtain ⟨⟨k1, k2⟩, k3, k4⟩ := decodeBody_inv (cfg := cfg) (P := P) (pay := pay) (junk := junk) h1
      generalize hb : decodeBody cfg P ((Dec.init msg).enterArray P) pay junk = y at k1 k2 k3 k4
      obtain ⟨r, st⟩ := y
      simp only at k1 k2 k3 k4 ⊢
      cases r with
      | error x =>
        right; left
        refine ⟨x, _, by simpa using k4, hpol, ?_⟩
        simp only [k1.ub, k2.ub]
        rfl
      | ok x =>
        right; right
        obtain ⟨v, hv, htg, hx⟩ := decodeBody_ok he hb
        obtain ⟨c1, c2⟩ := k3 x rfl
        rw [htg] at hpol ⊢
        refine ⟨v, x, hv, hpol, hx, c1, c2, ?_⟩
        simp only [c1.ub, c2.ub, Bool.false_or, VerifyCtx.withTags]
        generalize checkDecoded cfg C _ aad x = z
        obtain ⟨r, m, b⟩ := z
        cases r <;> rfl
    · left
      rw [hpt]
      exact ⟨.incorrectlyTagged, by simp, rfl⟩

/-! ## Uninitialised variables -/

theorem fetch_notCb {P : QParams} {d : Dec} {e : QErr} {c1 : Cur}
    (h : d.fetch P = (.error e, c1)) : e ≠ .callbackFail := by
  unfold Dec.fetch at h
  split at h
  · simp only [Prod.mk.injEq, Except.error.injEq] at h
    rw [← h.1]; simp
  · have hok := entry_ok P false d.cur
    generalize entry P false d.cur = x at h hok
    obtain ⟨r, c'⟩ := x
    cases r with
    | error e' =>
      simp only [Prod.mk.injEq, Except.error.injEq] at h
      have : e'.unrec = true := hok.1
      rw [← h.1]; intro hc; rw [hc] at this; simp [QErr.unrec] at this
    | ok q =>
      obtain ⟨l, it⟩ := q
      simp only at h
      cases he : it.err with
      | none => rw [he] at h; simp at h
      | some e' =>
        rw [he] at h
        simp only [Prod.mk.injEq, Except.error.injEq] at h
        have : e'.ofItem = true := (hok.2.2.2.2 e' he).2
        rw [← h.1]; intro hc; rw [hc] at this; simp [QErr.ofItem] at this

/-- A header parsed when the decoder has already failed. -/
theorem parseHeader_stuck {cfg : Config} {P : QParams} {prot : Bool} {st : Parse} {e : QErr}
    (he : st.d.err = some e) (hc : e ≠ .callbackFail) :
    parseHeader cfg P prot st = (.error (paramErr e), st) := by
  unfold parseHeader
  have h1 : st.d.enterMap P = st.d := by unfold Dec.enterMap; simp [he]
  have h2 : st.d.getItemsInMap P headerQs headerCb ⟨st.unk, .ok ()⟩ =
      (st.d, [], ⟨st.unk, .ok ()⟩) := by
    unfold Dec.getItemsInMap; simp [he]
  simp only [h1, h2, he]

theorem getByteString_none {P : QParams} {d d' : Dec} (h : d.getByteString P = (d', none)) :
    d'.err ≠ none := by
  unfold Dec.getByteString at h
  split at h
  · rename_i he
    simp only [Prod.mk.injEq, and_true] at h
    rw [← h]
    cases hd : d.err with
    | none => rw [hd] at he; simp at he
    | some e => simp
  · generalize d.getNext P = x at h
    obtain ⟨r, d1⟩ := x
    cases r with
    | error e =>
      simp only [Prod.mk.injEq, and_true] at h
      rw [← h]; simp
    | ok it =>
      simp only at h
      split at h
      · simp at h
      · simp only [Prod.mk.injEq, and_true] at h
        rw [← h]; simp

theorem getByteString_sticky {P : QParams} {d : Dec} (h : d.err ≠ none) :
    d.getByteString P = (d, none) := by
  unfold Dec.getByteString
  cases hd : d.err with
  | none => exact absurd hd h
  | some e => simp

theorem exitArray_sticky {P : QParams} {d : Dec} (h : d.err ≠ none) : d.exitArray P = d := by
  unfold Dec.exitArray
  cases hd : d.err with
  | none => exact absurd hd h
  | some e => simp

theorem finish_sticky {d : Dec} (h : d.err ≠ none) : d.finish = d.err := by
  unfold Dec.finish
  cases hd : d.err with
  | none => exact absurd hd h
  | some e => rfl

theorem decodeErr_some {o : Option QErr} (h : o ≠ none) : ∃ x, decodeErr o = .error x := by
  generalize hy : decodeErr o = y
  cases y with
  | error x => exact ⟨x, rfl⟩
  | ok u => exact absurd (decodeErr_ok.mp hy) h

theorem exitBstrWrapped_sticky {d : Dec} (h : d.err ≠ none) : d.exitBstrWrapped = d := by
  unfold Dec.exitBstrWrapped
  cases hd : d.err with
  | none => exact absurd hd h
  | some e => simp

/-- The tail of the decoding does not depend on the uninitialised variables. -/
theorem decodeBody_junk {cfg : Config} {P : QParams} {d : Dec} {pay : VPayload}
    (h : d.err = none) (j j' : Junk) : decodeBody cfg P d pay j = decodeBody cfg P d pay j' := by
  generalize hw : d.enterBstrWrapped P = x
  obtain ⟨d1, out⟩ := x
  cases he : d1.err with
  | some e =>
    have hne : e ≠ .callbackFail := by
      unfold Dec.enterBstrWrapped at hw
      simp only [h, Option.isSome_none, Bool.false_eq_true, if_false] at hw
      generalize hf : d.fetch P = y at hw
      obtain ⟨r, c1⟩ := y
      cases r with
      | error e' =>
        simp only [Prod.mk.injEq] at hw
        rw [← hw.1] at he
        simp only [Option.some.injEq] at he
        rw [← he]
        exact fetch_notCb hf
      | ok it =>
        simp only at hw
        split at hw
        · split at hw
          · simp only [Prod.mk.injEq] at hw
            rw [← hw.1] at he
            simp only [Option.some.injEq] at he
            rw [← he]; simp
          · simp only [Prod.mk.injEq] at hw
            rw [← hw.1] at he
            simp at he
        · simp only [Prod.mk.injEq] at hw
          rw [← hw.1] at he
          simp only [Option.some.injEq] at he
          rw [← he]; simp
    have hst : ∀ prot, parseHeader cfg P prot (Parse.mk d1 Params.clear LabelList.clear
        LabelList.clear) = (.error (paramErr e), Parse.mk d1 Params.clear LabelList.clear
        LabelList.clear) := fun prot => parseHeader_stuck he hne
    have fin : ∀ j : Junk, decodeBody cfg P d pay j =
        (.error (paramErr e), Parse.mk d1 Params.clear LabelList.clear LabelList.clear) := by
      intro j
      unfold decodeBody
      rw [hw]
      unfold parseProtected
      simp only
      by_cases hb : (wrapOut j.prot out).ub.len ≠ 0
      · rw [if_pos hb, hst]
      · rw [if_neg hb]
        simp only
        rw [exitBstrWrapped_sticky (by simp [he]), hst]
    rw [fin j, fin j']
  | none =>
    obtain ⟨-, it, s, c1, -, -, -, -, rfl, -⟩ := Dec.enterBstrWrapped_ok hw he
    unfold decodeBody
    rw [hw]
    simp only [wrapOut]
    generalize parseProtected cfg P (.slice s) (Parse.mk d1 Params.clear LabelList.clear
      LabelList.clear) = y
    obtain ⟨r, st⟩ := y
    cases r with
    | error x => rfl
    | ok u =>
      simp only
      generalize parseHeader cfg P false { st with d := st.d.exitBstrWrapped } = z
      obtain ⟨r, st2⟩ := z
      cases r with
      | error x => rfl
      | ok u =>
        simp only
        have sigpart : ∀ (d5 : Dec) (b b' : Buf), (b = b' ∨ d5.err ≠ none) →
            (match decodeErr ((d5.getByteString P).1.exitArray P).finish with
              | .error x => ((.error x : Except Err Decoded), st2)
              | .ok () =>
                (.ok (Decoded.mk st2.params st2.crit st2.unk (.slice s) b
                  (strOut j.sig (d5.getByteString P).2)), st2)) =
            (match decodeErr ((d5.getByteString P).1.exitArray P).finish with
              | .error x => (.error x, st2)
              | .ok () =>
                (.ok (Decoded.mk st2.params st2.crit st2.unk (.slice s) b'
                  (strOut j'.sig (d5.getByteString P).2)), st2)) := by
          intro d5 b b' hb
          generalize hg : d5.getByteString P = w
          obtain ⟨d6, so⟩ := w
          simp only
          have stuck : d6.err ≠ none →
              ∃ x, decodeErr (d6.exitArray P).finish = .error x := by
            intro h6
            rw [exitArray_sticky h6, finish_sticky h6]
            exact decodeErr_some h6
          cases so with
          | none =>
            obtain ⟨x, hx⟩ := stuck (getByteString_none hg)
            rw [hx]
          | some s =>
            rcases hb with rfl | hb
            · rfl
            · rw [getByteString_sticky hb] at hg
              simp at hg
        cases pay with
        | detached p =>
          unfold takePayload
          simp only
          generalize st2.d.getNext P = w
          obtain ⟨r, d1⟩ := w
          cases r with
          | error e => rfl
          | ok it =>
            simp only
            by_cases hn : it.val = .null
            · simp only [if_pos hn]
              exact sigpart d1 _ _ (.inl rfl)
            · simp only [if_neg hn]
        | inline w =>
          unfold takePayload
          simp only
          apply sigpart
          generalize hg : st2.d.getByteString P = w
          obtain ⟨d5, so⟩ := w
          cases so with
          | none => exact .inr (getByteString_none hg)
          | some s => exact .inl rfl

theorem verify_junk {cfg : Config} {P : QParams} {C : Crypto} {me : VerifyCtx}
    {msg : Bytes} {aad : UB} {pay : VPayload} {want : Bool} (j j' : Junk) :
    verifyInternal cfg P C j me msg aad pay want = verifyInternal cfg P C j' me msg aad pay want := by
  unfold verifyInternal
  simp only
  cases he : ((Dec.init msg).enterArray P).err with
  | some e =>
    obtain ⟨x, hx⟩ := decodeErr_some (o := some e) (by simp)
    rw [hx]
  | none => rw [decodeBody_junk he j j']

end TCose
