import Verif.Lemmas.CutHeader

/-!
# Arrays that are cut off, element by element
-/

namespace TCose
open Spec

variable {P : QParams} {cfg : Config} {left : Option Nat} {c : Cur} {tags : List Nat}
  {pay : VPayload} {junk : Junk}

/-! ### The stages of decoding -/

theorem atEnd_false {d : Dec} (hd : d.lvls = [.arr left]) (h : left ≠ some 0) : d.atEnd = false := by
  unfold Dec.atEnd
  rw [hd]
  rcases left with _ | _ | n
  · rfl
  · exact absurd rfl h
  · rfl

/-- The protected header, read in whole or in part, or not. -/
def protHdr (P : QParams) (pb : Bytes) : Hdr := if pb = [] then Hdr.whole [] else headerIn P 13 pb

theorem protHdr_read {pb : Bytes} {x : Item} {r : Bytes} (h0 : pb ≠ [])
    (h : readItem P.maxTags 13 pb = some (x, r)) : protHdr P pb = .of (x.header? P) := by
  unfold protHdr headerIn
  rw [if_neg h0, h]

theorem prot_stage (hl : P.Local) {c0 : Cur} {s : Str}
    (hf : (Dec.mk c [.arr left] none tags).fetch P = (.ok ⟨.bstr s, [], none⟩, c0)) :
    (∃ y, (protHdr P s.bytes).read P cfg.disableContentType true Known.nothing = .error y ∧
      (decodeBody cfg P ⟨c, [.arr left], none, tags⟩ pay junk).1 = .error y) ∨
    ∃ k p1 crit1 unk1 t,
      (protHdr P s.bytes).read P cfg.disableContentType true Known.nothing = .ok k ∧
      KnownIs k p1 crit1 unk1 ∧
      decodeBody cfg P ⟨c, [.arr left], none, tags⟩ pay junk =
        tailBody cfg P pay junk (.slice s) ⟨⟨(stepLeft left c0).2, [.arr (stepLeft left c0).1], none,
          t⟩, p1, crit1, unk1⟩ := by
  -- octets that are read
  have key : ∀ hp, ProtectedIn P s.bytes hp → protHdr P s.bytes = Hdr.of hp →
    (∃ y, (protHdr P s.bytes).read P cfg.disableContentType true Known.nothing = .error y ∧
      (decodeBody cfg P ⟨c, [.arr left], none, tags⟩ pay junk).1 = .error y) ∨
    ∃ k p1 crit1 unk1 t,
      (protHdr P s.bytes).read P cfg.disableContentType true Known.nothing = .ok k ∧
      KnownIs k p1 crit1 unk1 ∧
      decodeBody cfg P ⟨c, [.arr left], none, tags⟩ pay junk =
        tailBody cfg P pay junk (.slice s) ⟨⟨(stepLeft left c0).2, [.arr (stepLeft left c0).1], none,
          t⟩, p1, crit1, unk1⟩ := by
    intro hp hin he
    rw [he]
    rcases protected_in hl hin with ⟨y, rfl, hne, it, c3, hen3, hnm, hy⟩ | ⟨hd, pe, rfl, hip, hpe⟩
    · subst hy
      exact .inl ⟨_, rfl, fetch_noMap hf hne hen3 hnm⟩
    have k1 := readHeader_exact (cfg := cfg) (prot := true) hpe KnownIs.nothing (fun _ => ⟨rfl, rfl⟩)
    rw [headerFn_relabel] at k1
    have hrd0 : (Hdr.of (.ok hd)).read P cfg.disableContentType true Known.nothing =
      readHeader cfg.disableContentType true (Header.untag P hd) Known.nothing := rfl
    rw [hrd0]
    rcases fetch_prot (cfg := cfg) (pay := pay) (junk := junk) hf hip with
      ⟨y, g1, g2⟩ | ⟨p1, crit1, unk1, us, t, g1, -, -, g2⟩
    · cases hrd : readHeader cfg.disableContentType true (Header.untag P hd) Known.nothing with
      | error y' =>
        rw [hrd] at k1
        simp only at k1
        rw [g1] at k1
        cases k1
        exact .inl ⟨_, rfl, g2⟩
      | ok k =>
        rw [hrd] at k1
        obtain ⟨_, _, _, k1, -⟩ := k1
        rw [g1] at k1
        cases k1
    · cases hrd : readHeader cfg.disableContentType true (Header.untag P hd) Known.nothing with
      | error y' =>
        rw [hrd] at k1
        simp only at k1
        rw [g1] at k1
        cases k1
      | ok k =>
        rw [hrd] at k1
        obtain ⟨_, _, _, k1, hk1⟩ := k1
        rw [g1] at k1
        cases k1
        exact .inr ⟨k, p1, crit1, unk1, t, rfl, hk1, g2⟩
  by_cases h0 : s.bytes = []
  · exact key (.ok []) (.inl ⟨h0, rfl⟩) (if_pos h0)
  cases hr : readItem P.maxTags 13 s.bytes with
  | some y =>
    obtain ⟨x, r⟩ := y
    obtain ⟨b, h1, h2⟩ := readItem_iff.mp hr
    exact key _ (.inr ⟨x, b, r, h1, h2, rfl⟩) (protHdr_read h0 hr)
  | none =>
    left
    obtain ⟨y, h1, h2⟩ := header_unread (P := P) (cfg := cfg) (prot := true) (D := 12) hl
      (st := ⟨⟨⟨s.off, s.bytes⟩, [.wrap c0, .arr left], none, []⟩, Params.clear, LabelList.clear,
        LabelList.clear⟩) rfl rfl rfl rfl hr KnownIs.nothing
    rw [if_neg h0] at h1
    refine ⟨y, by unfold protHdr; rw [if_neg h0]; exact h1, ?_⟩
    rw [decodeBody_tail, fetch_enter hf]
    have hlen0 : (wrapOut junk.prot (some (some s))).ub.len = s.bytes.length := rfl
    unfold parseProtected
    rw [if_pos (by rw [hlen0]; simp [h0])]
    generalize parseHeader cfg P true _ = z at h2 ⊢
    obtain ⟨r, st⟩ := z
    cases h2
    rfl

/-- The unprotected header, if it is read. -/
theorem unprot_stage (hl : P.Local) {prot : Buf} {p1 : Params} {crit1 unk1 : LabelList} {k : Known}
    {x1 : Item} {b1 : Bytes} {e1 : Entry} {es : List Entry} (hr : Reads P.maxTags 14 x1 b1)
    (hv : Vals P 14 x1 e1.itm e1.cur)
    (hf : (Dec.mk c [.arr left] none tags).fetch P = nextOf c (e1 :: es)) (hk : KnownIs k p1 crit1 unk1) :
    (∃ y, (Hdr.of (x1.header? P)).read P cfg.disableContentType false k = .error y ∧
      (tailBody cfg P pay junk prot ⟨⟨c, [.arr left], none, tags⟩, p1, crit1, unk1⟩).1 = .error y) ∨
    ∃ k' cE t, (Hdr.of (x1.header? P)).read P cfg.disableContentType false k = .ok k' ∧
      skipValue P 14 e1.itm.val e1.cur = .ok cE ∧
      ∀ y, restBody P pay junk ⟨(stepLeft left cE).2, [.arr (stepLeft left cE).1], none, t⟩ = .error y →
        (tailBody cfg P pay junk prot ⟨⟨c, [.arr left], none, tags⟩, p1, crit1, unk1⟩).1 = .error y := by
  cases hh : x1.header? P with
  | error y =>
    left
    obtain ⟨hnm, rfl⟩ := hv.noMap hl hr.real hh
    refine ⟨_, rfl, ?_⟩
    have hsr : stopR (nextOf c (e1 :: es)).1 = e1.itm.err.getD .unexpectedType := by
      cases herr : e1.itm.err with
      | none => rw [nextOf_ok herr]; rfl
      | some y => rw [nextOf_err herr]; rfl
    have hem := enterMap_r (P := P) (d := ⟨c, [.arr left], none, tags⟩) rfl
      (r := (nextOf c (e1 :: es)).1) (c1 := (nextOf c (e1 :: es)).2) (by rw [hf]) (by
        intro it hit k hk
        cases herr : e1.itm.err with
        | none =>
          rw [nextOf_ok herr] at hit
          cases hit
          exact hnm.2 herr k hk
        | some y => rw [nextOf_err herr] at hit; cases hit)
    rw [hsr] at hem
    have hs : Stops (e1.itm.err.getD .unexpectedType) := by
      cases herr : e1.itm.err with
      | none => exact ⟨nofun, nofun⟩
      | some y => exact hnm.1 y herr
    have := parseHeader_noEnter (cfg := cfg) (P := P) (prot := false)
      (st := ⟨⟨c, [.arr left], none, tags⟩, p1, crit1, unk1⟩) hem hs
    unfold tailBody
    generalize parseHeader cfg P false _ = z at this ⊢
    obtain ⟨r, st⟩ := z
    cases this
    rfl
  | ok hu =>
    obtain ⟨hie1, cnt1, ue, cE1, hiv1, hel1, hue⟩ := hv.header hl hr hh
    rw [nextOf_ok hie1] at hf
    have k2 := readHeader_exact (cfg := cfg) (prot := false) hue hk (by simp)
    rw [headerFn_relabel] at k2
    obtain ⟨ts, hu1, -, hus⟩ := hk.unk
    have hrd0 : (Hdr.of (.ok hu)).read P cfg.disableContentType false k =
      readHeader cfg.disableContentType false (Header.untag P hu) k := rfl
    rw [hrd0]
    rcases fetch_unprot (cfg := cfg) (pay := pay) (junk := junk) (prot := prot) (p1 := p1) (crit1 := crit1)
      (xs := (k.ints, ts)) hf hiv1 hel1 hus hu1 with ⟨y, g3, g4⟩ | ⟨p2, crit2, unk2, t2, g3, g4⟩
    · cases hrd2 : readHeader cfg.disableContentType false (Header.untag P hu) k with
      | error y' =>
        rw [hrd2] at k2
        simp only at k2
        rw [g3] at k2
        cases k2
        exact .inl ⟨_, rfl, g4⟩
      | ok k' =>
        rw [hrd2] at k2
        obtain ⟨_, _, _, k2, -⟩ := k2
        rw [g3] at k2
        cases k2
    · cases hrd2 : readHeader cfg.disableContentType false (Header.untag P hu) k with
      | error y' =>
        rw [hrd2] at k2
        simp only at k2
        rw [g3] at k2
        cases k2
      | ok k' =>
        refine .inr ⟨k', cE1, t2, rfl, ?_, g4⟩
        rw [hiv1, skipValue_map]
        exact ⟨_, hel1⟩

theorem rest_inline_r {w : Bool} {d : Dec} {r : Except QErr Itm} {c1 : Cur} (h0 : d.err = none)
    (hf : d.fetch P = (r, c1)) (hn : ∀ it, r = .ok it → ∀ s, ¬ (it.val = .bstr s ∧ it.tags = []))
    (hs : Stops (stopR r)) : restBody P (.inline w) junk d = .error (stopErr (stopR r)) := by
  unfold restBody takePayload
  simp only
  rw [sticky_finish (getByteString_r h0 hf hn) hs]

theorem rest_detached_r {p : UB} {d : Dec} {r : Except QErr Itm} {c1 : Cur} (hf : d.fetch P = (r, c1))
    (hn : ∀ it, r = .ok it → it.val ≠ .null) :
    restBody P (.detached p) junk d = .error .cborFormatting := by
  unfold restBody takePayload Dec.getNext
  simp only
  rw [hf]
  cases r with
  | error e => rfl
  | ok it => simp only [if_neg (hn it rfl)]

theorem rest_sig_r {d d' : Dec} {b : Buf} {r : Except QErr Itm} {c1 : Cur}
    (hp : takePayload P d pay junk.payload = .ok (d', b)) (h0 : d'.err = none)
    (hf : d'.fetch P = (r, c1)) (hn : ∀ it, r = .ok it → ∀ s, ¬ (it.val = .bstr s ∧ it.tags = []))
    (hs : Stops (stopR r)) : restBody P pay junk d = .error (stopErr (stopR r)) := by
  unfold restBody
  rw [hp]
  simp only
  have h1 := getByteString_r h0 hf hn
  rw [exitArray_sticky (by rw [h1]; simp), finish_some h1, hs.decode]

/-! ### The array -/

theorem CutRun.fetch {e : Entry} {es : List Entry} {last : Bytes} {d : Nat}
    (h : CutRun P false d left c (e :: es) last) :
    (Dec.mk c [.arr left] none tags).fetch P = nextOf c (e :: es) := by
  cases h with
  | @cons _ pos a r _ _ _ hl h1 h2 h3 h4 =>
    unfold Dec.fetch
    rw [atEnd_false (left := left) rfl hl]
    have hpos := h1.1.length
    simp only [Bool.false_or]
    rw [if_neg (by
      simp only [List.isEmpty_iff]
      intro hc
      have := congrArg List.length hc
      simp only [List.length_append, List.length_nil] at this
      omega), h2]
    simp only [nextOf]
    cases e.itm.err <;> rfl

theorem CutRun.next {e : Entry} {es : List Entry} {last : Bytes} {d : Nat} {c' : Cur}
    (h : CutRun P false d left c (e :: es) last) (hs : skipValue P d e.itm.val e.cur = .ok c') :
    CutRun P false d (stepLeft left c').1 (stepLeft left c').2 es last := by
  cases h with
  | @cons _ pos a r _ _ _ hl h1 h2 h3 h4 =>
    rw [h3] at hs
    cases hs
    exact h4

theorem CutRun.rest {last : Bytes} {d : Nat} (h : CutRun P false d left c [] last) : c.rest = last := by
  cases h
  rfl

theorem nextOf_str {c : Cur} {e : Entry} {es : List Entry} (h : e.itm.str? = none) :
    ∀ it, (nextOf c (e :: es)).1 = .ok it → ∀ s, ¬ (it.val = .bstr s ∧ it.tags = []) := by
  rintro it hit s ⟨h1, h2⟩
  cases herr : e.itm.err with
  | none =>
    rw [nextOf_ok herr] at hit
    cases hit
    unfold Itm.str? at h
    rw [h1, h2, herr] at h
    cases h
  | some y => rw [nextOf_err herr] at hit; cases hit

theorem nextOf_stop {c : Cur} {e : Entry} {es : List Entry} :
    stopR (nextOf c (e :: es)).1 = stopOf (e :: es) := by
  cases herr : e.itm.err with
  | none => rw [nextOf_ok herr, stopOf_ok herr]; rfl
  | some y => rw [nextOf_err herr, stopOf_err herr]; rfl

/-- The error code of a first element that is no byte string. -/
theorem first_code (hl : P.Local) {x0 : Item} {e0 : Entry} {es : List Entry} (he : x0.Real)
    (hv : Vals P 14 x0 e0.itm e0.cur) : headErr (stopOf (e0 :: es)) =
      if x0.bare.isNot then .cborNotWellFormed else .parameterCbor := by
  unfold headErr
  cases herr : e0.itm.err with
  | none =>
    have hlive : x0.bare.live := Classical.byContradiction fun hn => by
      obtain ⟨-, e, -, h2⟩ := hv.dead hn
      rw [herr] at h2
      cases h2
    rw [stopOf_ok herr, hlive.1]
    rfl
  | some y => rw [stopOf_err herr, (hv.mild hl he y herr).2]

theorem stops_of (hl : P.Local) {x : Item} {e : Entry} {es : List Entry} (he : x.Real)
    (hv : Vals P 14 x e.itm e.cur) : Stops (stopOf (e :: es)) := by
  cases herr : e.itm.err with
  | none => rw [stopOf_ok herr]; exact ⟨nofun, nofun⟩
  | some y => rw [stopOf_err herr]; exact (hv.mild hl he y herr).1

theorem box_no_str {r : Except QErr Itm} (h : ∀ it, r = .ok it → ∃ n, it.val = .arr n ∨ it.val = .map n) :
    ∀ it, r = .ok it → ∀ s, ¬ (it.val = .bstr s ∧ it.tags = []) := by
  rintro it hit s ⟨h1, -⟩
  obtain ⟨n, h | h⟩ := h it hit <;> rw [h] at h1 <;> cases h1

/-- An array that is not read to its end. -/
theorem cut_body (hl : P.Local) {f : Nat} {xs : List Item} {es : List Entry} {last : Bytes}
    (hrun : CutRun P false 14 left c es last) (hall : Each (fun x e => Vals P 14 x e.itm e.cur) xs es)
    (hrd : ∀ x ∈ xs, ∃ b, Reads P.maxTags 14 x b) (hlast : readItem P.maxTags 14 last = none)
    (hf : last.length ≤ f) (hlast' : parse P.maxTags f 14 last = none) :
    ∃ y, readAll P cfg.disableContentType pay.octets xs last
        (some (stopOr (stopItem P.maxTags f 14) last).outside) = .error y ∧
      (decodeBody cfg P ⟨c, [.arr left], none, tags⟩ pay junk).1 = .error y := by
  have henc : ∀ x ∈ xs, x.Real := fun x hx => (hrd x hx).elim fun _ h => h.real
  unfold readAll
  cases hall with
  | nil =>
    simp only [List.getElem?_nil]
    refine ⟨_, rfl, ?_⟩
    have hrest := hrun.rest
    obtain ⟨r, c1, g1, g2, g3, g4, g5⟩ := fault_stop (P := P) (D := 14) (d := ⟨c, [.arr left], none, tags⟩)
      (atEnd_false (left := left) rfl hrun.left_ne) (by simp only [hrest]; exact hlast)
    obtain ⟨p1, p2⟩ := g2.param
    rw [decodeBody_stuck (enterBstr_r rfl g1 (box_no_str g5)) p2, p1, g3]
    simp only [hrest]
  | @cons x0 e0 xs es hv0 hall =>
  simp only [List.getElem?_cons_zero, List.getElem?_cons_succ]
  have he0 := henc x0 (by simp)
  rcases hv0.str hl he0 with ⟨s, rfl, hs0⟩ | ⟨hx0, hs0⟩
  case inr =>
    have hrew : ∀ b, (if x0.bare.isNot = true then .error .cborNotWellFormed
        else .error .parameterCbor : Except Err Found4) = b →
        b = .error (headErr (stopOf (e0 :: es))) := by
      rintro b rfl
      rw [first_code hl he0 hv0]
      split <;> rfl
    refine ⟨headErr (stopOf (e0 :: es)), hrew _ ?_, ?_⟩
    · cases x0 <;> first | rfl | exact absurd rfl (hx0 _)
    · obtain ⟨p1, p2⟩ := (stops_of (es := es) hl he0 hv0).param
      have := enterBstr_r (P := P) (d := ⟨c, [.arr left], none, tags⟩) rfl
        (r := (nextOf c (e0 :: es)).1) (c1 := (nextOf c (e0 :: es)).2) (by rw [hrun.fetch]) (nextOf_str hs0)
      rw [nextOf_stop] at this
      rw [decodeBody_stuck this p2, p1]
  have hi0 := Itm.str?_some.mp hs0
  have hfe0 : (Dec.mk c [.arr left] none tags).fetch P = (.ok ⟨.bstr s, [], none⟩, e0.cur) := by
    rw [hrun.fetch, nextOf_ok (by rw [hi0]), hi0]
  simp only
  have hpd : (if s.bytes = [] then Hdr.whole [] else headerIn P 13 s.bytes) = protHdr P s.bytes := rfl
  rw [hpd]
  rcases prot_stage (cfg := cfg) (pay := pay) (junk := junk) hl hfe0 with
    ⟨y, g1, g2⟩ | ⟨k, p1, crit1, unk1, t, g1, hk1, g2⟩
  · rw [g1]
    exact ⟨y, rfl, g2⟩
  rw [g1, g2]
  simp only
  have hrun1 := hrun.next (c' := e0.cur) (by rw [hi0]; exact skipValue_simple P 14 rfl _)
  -- the unprotected header
  cases hall with
  | nil =>
    simp only [List.getElem?_nil]
    have hrest := hrun1.rest
    obtain ⟨y, h1, h2⟩ := header_unread (P := P) (cfg := cfg) (prot := false) (D := 13) (k := k) hl
      (st := ⟨⟨(stepLeft left e0.cur).2, [.arr (stepLeft left e0.cur).1], none, t⟩, p1, crit1, unk1⟩) rfl
      (atEnd_false (left := (stepLeft left e0.cur).1) rfl hrun1.left_ne) hrest rfl hlast hk1
    rw [h1]
    refine ⟨y, rfl, ?_⟩
    unfold tailBody
    generalize parseHeader cfg P false _ = z at h2 ⊢
    obtain ⟨r, st⟩ := z
    cases h2
    rfl
  | @cons x1 e1 xs es hv1 hall =>
  obtain ⟨b1, hr1'⟩ := hrd x1 (by simp)
  simp only [List.getElem?_cons_zero, List.getElem?_cons_succ]
  rcases unprot_stage (cfg := cfg) (pay := pay) (junk := junk) (prot := .slice s) hl hr1' hv1
    (hrun1.fetch (tags := t)) hk1 with ⟨y, g3, g4⟩ | ⟨k', cE, t2, g3, g4, g5⟩
  · rw [g3]
    exact ⟨y, rfl, g4⟩
  rw [g3]
  simp only
  have hrun2 := hrun1.next g4
  generalize (stepLeft (stepLeft left e0.cur).1 cE).1 = left2 at hrun2 g5
  generalize (stepLeft (stepLeft left e0.cur).1 cE).2 = c2 at hrun2 g5
  have henc2 : ∀ x ∈ xs, x.Real := fun x hx =>
    henc x (List.mem_cons_of_mem _ (List.mem_cons_of_mem _ hx))
  -- the payload
  cases hall with
  | nil =>
    simp only [List.getElem?_nil]
    have hrest := hrun2.rest
    obtain ⟨r, c1, k1, k2, k3, k4, k5⟩ := fault_stop (P := P) (D := 14) (d := ⟨c2, [.arr left2], none, t2⟩)
      (atEnd_false (left := left2) rfl hrun2.left_ne) (by simp only [hrest]; exact hlast)
    simp only [hrest] at k4
    cases pay with
    | inline w =>
      refine ⟨_, rfl, g5 _ ?_⟩
      rw [rest_inline_r rfl k1 (box_no_str k5) k2, k4]
      rfl
    | detached q =>
      refine ⟨_, rfl, g5 _ ?_⟩
      rw [rest_detached_r k1 (by
        rintro it hit h
        obtain ⟨n, h' | h'⟩ := k5 it hit <;> rw [h'] at h <;> cases h)]
      rfl
  | @cons x2 e2 xs es hv2 hall =>
  simp only [List.getElem?_cons_zero, List.getElem?_cons_succ]
  have he2 := henc2 x2 (by simp)
  have hfe2 := hrun2.fetch (tags := t2)
  cases hpa : payloadAt P pay.octets (some x2) with
  | error y =>
    refine ⟨y, rfl, g5 y ?_⟩
    cases pay with
    | inline w =>
      have h' : stringAt P (some x2) = .error y := hpa
      rcases hv2.str hl he2 with ⟨s2, rfl, h2⟩ | ⟨h1, h2⟩
      · cases h'
      · rw [stringAt_stop (es := es) hl he2 hv2 h1] at h'
        cases h'
        rw [← nextOf_stop (c := c2)]
        exact rest_inline_r (P := P) rfl (c1 := (nextOf c2 (e2 :: es)).2) (by rw [hfe2]) (nextOf_str h2)
          (by rw [nextOf_stop]; exact stops_of hl he2 hv2)
    | detached q =>
      simp only [VPayload.octets, payloadAt, Option.map_some] at hpa
      split at hpa
      · cases hpa
      · rename_i hn
        cases hpa
        refine rest_detached_r (P := P) (c1 := (nextOf c2 (e2 :: es)).2) (r := (nextOf c2 (e2 :: es)).1)
          (by rw [hfe2]) ?_
        intro it hit h
        cases herr : e2.itm.err with
        | none =>
          rw [nextOf_ok herr] at hit
          cases hit
          have := (hv2.null hl he2).mp ⟨herr, h⟩
          exact hn (by rw [this])
        | some z => rw [nextOf_err herr] at hit; cases hit
  | ok p =>
  simp only
  obtain ⟨hpt, -, -⟩ := payload_there hl he2 hv2 hpa
  have hsim := hpt.simple
  rw [nextOf_ok hsim.2] at hfe2
  obtain ⟨bf, t3, htp⟩ := fetch_payload (junk := junk) hfe2 hpt
  have hrun3 := hrun2.next (skipValue_simple P 14 hsim.1 _)
  generalize (stepLeft left2 e2.cur).1 = left3 at hrun3 htp
  generalize (stepLeft left2 e2.cur).2 = c3 at hrun3 htp
  -- the signature
  cases hall with
  | nil =>
    simp only [List.getElem?_nil]
    have hrest := hrun3.rest
    obtain ⟨r, c1, k1, k2, k3, k4, k5⟩ := fault_stop (P := P) (D := 14) (d := ⟨c3, [.arr left3], none, t3⟩)
      (atEnd_false (left := left3) rfl hrun3.left_ne) (by simp only [hrest]; exact hlast)
    simp only [hrest] at k4
    refine ⟨_, rfl, g5 _ ?_⟩
    rw [rest_sig_r htp rfl k1 (box_no_str k5) k2, k4]
  | @cons x3 e3 xs es hv3 hall =>
  simp only [List.getElem?_cons_zero]
  have he3 := henc2 x3 (by simp)
  have hfe3 := hrun3.fetch (tags := t3)
  rcases hv3.str hl he3 with ⟨s3, rfl, hs3⟩ | ⟨hx3, hs3⟩
  case inr =>
    rw [stringAt_stop (es := es) hl he3 hv3 hx3]
    refine ⟨_, rfl, g5 _ ?_⟩
    rw [← nextOf_stop (c := c3)]
    exact rest_sig_r (P := P) htp rfl (c1 := (nextOf c3 (e3 :: es)).2) (by rw [hfe3]) (nextOf_str hs3)
      (by rw [nextOf_stop]; exact stops_of hl he3 hv3)
  have hi3 := Itm.str?_some.mp hs3
  simp only [stringAt]
  refine ⟨_, rfl, g5 _ ?_⟩
  -- the end
  rw [nextOf_ok (by rw [hi3])] at hfe3
  have hrun4 := hrun3.next (c' := e3.cur) (by rw [hi3]; exact skipValue_simple P 14 rfl _)
  obtain ⟨e, q1, q2⟩ := hrun4.skip (room := 15) (s := stopOr (stopItem P.maxTags f 14) last) (by omega)
    (fun left pos => skip_dead (P := P) fun _ =>
      (parse_stop f 14 15 [⟨false, left⟩] last pos rfl hf hlast').slot)
  unfold restBody
  rw [htp]
  simp only
  rw [Dec.getByteString_intro (s := s3) rfl hfe3 (by rw [hi3]) (by rw [hi3])]
  simp only [done_eq]
  have hx : ((Dec.mk (stepLeft left3 e3.cur).2 [.arr (stepLeft left3 e3.cur).1] none []).exitArray P).err =
      some e := by
    have hne := hrun4.left_ne
    generalize stepLeft left3 e3.cur = o at q1 hne ⊢
    obtain ⟨left4, c4⟩ := o
    simp only at q1 hne ⊢
    unfold Dec.exitArray
    simp only [Option.isSome_none, Bool.false_eq_true, if_false, Dec.room, maxDecNesting, List.length_cons,
      List.length_nil, Nat.reduceAdd, Nat.reduceSub]
    rcases left4 with _ | _ | n
    · simp only [q1]
    · exact absurd rfl hne
    · simp only [q1]
  rw [finish_some hx, q2.1.decode, q2.outside]

end TCose
