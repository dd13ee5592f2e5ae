import Verif.Lemmas.AnyItem
import Verif.Lemmas.Verdict

/-!
# Decoding of any array against `Spec.readArray`
-/

namespace TCose
open Spec

/-- The octets of a payload that the caller passes. -/
def VPayload.octets : VPayload → Option Bytes
  | .inline _ => none
  | .detached p => some p.bytes

/-- The buffer of the payload that is authenticated. -/
def VPayload.buffer (b : Bytes) : VPayload → UB
  | .inline _ => .data b
  | .detached p => p

/-- What is in the byte string with the protected header. -/
theorem protected_in {P : QParams} (hl : P.Local) {s : Str} {hp : Except Err Header}
    (h : ProtectedIn P s.bytes hp) :
    (∃ y, hp = .error y ∧ s.bytes ≠ [] ∧ ∃ it c3, entry P false ⟨s.off, s.bytes⟩ = (.ok (none, it), c3) ∧
      NoMap it ∧ headErr (it.err.getD .unexpectedType) = y) ∨
    ∃ hd pe, hp = .ok hd ∧ IsProtected P s pe ∧
      Each (EntryShows P 12) (Header.untag P hd) (pe.map relabel) := by
  rcases h with ⟨h1, h2⟩ | ⟨y, b, r, h1, h2, h4⟩
  · exact .inr ⟨[], [], h2, .inl ⟨h1, rfl⟩, .nil⟩
  · obtain ⟨it, c1, hen, hv⟩ := Vals.of_item (P := P) (r := r) h2 s.off
    rw [← h1] at hen
    have hne : s.bytes ≠ [] := by
      intro h0
      rw [h0] at hen
      have hx : entry P false ⟨s.off, []⟩ = (.error .hitEnd, ⟨s.off, []⟩) := rfl
      rw [hx] at hen
      cases hen
    cases hh : y.header? P with
    | error e =>
      exact .inl ⟨e, by rw [h4, hh], hne, it, c1, hen, hv.noMap hl h2.real hh⟩
    | ok hd =>
      right
      obtain ⟨g1, cnt, es, cE, g2, g3, g4⟩ := hv.header hl h2 hh
      exact ⟨hd, es, by rw [h4, hh], .inr ⟨hne, it, cnt, c1, cE, hen, g2, g1, g3⟩, g4⟩

/-- The error code for an item of another type. -/
theorem typeFault_stop {P : QParams} (hl : P.Local) {x : Item} {it : Itm} {d : Nat} {c : Cur}
    (he : x.Real) (hv : Vals P d x it c) {q : QErr} (hq : q ≠ .tooManyTags)
    (hq' : q.notWellFormed = false) :
    typeFault P x = stopErr (it.err.getD q) := by
  have ht := hv.tags.1
  have hm := hv.mild hl he
  unfold typeFault stopErr
  cases herr : it.err with
  | none =>
    have hlive : x.bare.live := Classical.byContradiction fun hn => by
      obtain ⟨-, e, -, h2⟩ := hv.dead hn
      rw [herr] at h2
      cases h2
    have hn : ¬ P.maxTags < x.tagList.length := fun h => by
      have := ht.mpr ⟨hlive, h⟩
      rw [herr] at this
      cases this
    rw [Option.getD_none, if_neg hq, hq', hlive.1, if_neg (by simp), if_neg (fun h => hn h.2),
      if_neg (by simp)]
  | some e =>
    rw [Option.getD_some, (hm e herr).2]
    by_cases h1 : x.bare.isNot = true
    · rw [h1, if_pos rfl, if_neg, if_pos rfl]
      rintro rfl
      have := (ht.mp herr).1.1
      rw [h1] at this
      cases this
    · have h1' : x.bare.isNot = false := by simpa using h1
      rw [h1', if_neg (by simp)]
      by_cases h2 : e = .tooManyTags
      · subst h2
        obtain ⟨h3, h4⟩ := ht.mp herr
        rw [if_pos ⟨h3.2, h4⟩, if_pos rfl]
      · rw [if_neg h2, if_neg, if_neg (by simp)]
        rintro ⟨h3, h4⟩
        have := ht.mpr ⟨⟨h1', h3⟩, h4⟩
        rw [herr] at this
        cases this
        exact h2 rfl

theorem stringAt_stop {P : QParams} (hl : P.Local) {x : Item} {e : Entry} {es : List Entry}
    (he : x.Real) (hv : Vals P 14 x e.itm e.cur) (h : ∀ b, x ≠ .bstr b) :
    stringAt P (some x) = .error (stopErr (stopOf (e :: es))) := by
  have : stringAt P (some x) = .error (typeFault P x) := by
    cases x <;> first | rfl | exact absurd rfl (h _)
  rw [this, typeFault_stop hl he hv (q := .unexpectedType) (by simp) rfl]
  cases herr : e.itm.err with
  | none => rw [stopOf_ok herr]; rfl
  | some y => rw [stopOf_err herr]; rfl

theorem payload_there {P : QParams} (hl : P.Local) {x : Item} {e : Entry} {pay : VPayload}
    (he : x.Real) (hv : Vals P 14 x e.itm e.cur) {p : Bytes}
    (h : payloadAt P pay.octets (some x) = .ok p) : PayThere pay e ∧
      (∀ w, pay = .inline w → ∃ s, e.itm = ⟨.bstr s, [], none⟩ ∧ s.bytes = p) ∧
      (∀ q, pay = .detached q → q.bytes = p) := by
  cases pay with
  | inline w =>
    rcases hv.str hl he with ⟨s, rfl, h2⟩ | ⟨h1, -⟩
    · have h3 := Itm.str?_some.mp h2
      cases h
      exact ⟨⟨s, h3⟩, fun _ _ => ⟨s, h3, rfl⟩, nofun⟩
    · have h' : stringAt P (some x) = .ok p := h
      rw [stringAt_stop (es := []) hl he hv h1] at h'
      cases h'
  | detached q =>
    simp only [VPayload.octets, payloadAt, Option.map_some] at h
    split at h
    · rename_i hn
      cases h
      simp only [Option.some.injEq] at hn
      exact ⟨(hv.null hl he).mpr hn, nofun, fun q' hq => by cases hq; rfl⟩
    · cases h

theorem payload_missing {P : QParams} (hl : P.Local) {xs : List Item} {es : List Entry} {pay : VPayload}
    {junk : Junk} {left : Option Nat} {c cEnd : Cur} {tags : List Nat} {y : Err}
    (hr : Rem P false 14 left c es cEnd) (hm : Mild es)
    (hall : Each (fun x e => Vals P 14 x e.itm e.cur) xs es) (henc : ∀ x ∈ xs, x.Real)
    (h : payloadAt P pay.octets xs[0]? = .error y) :
    restBody P pay junk ⟨c, [.arr left], none, tags⟩ = .error y := by
  cases hall with
  | nil =>
    cases pay with
    | inline w => cases h; exact rest_inline hr hm (by simp)
    | detached q => cases h; exact rest_detached hr (by simp)
  | @cons x e xs es hv hall =>
    have he := henc x (by simp)
    cases pay with
    | inline w =>
      have h' : stringAt P (some x) = .error y := h
      rcases hv.str hl he with ⟨s, rfl, h2⟩ | ⟨h1, h2⟩
      · cases h'
      · rw [stringAt_stop (es := es) hl he hv h1] at h'
        cases h'
        exact rest_inline hr hm (by simpa using h2)
    | detached q =>
      simp only [VPayload.octets, payloadAt, List.getElem?_cons_zero, Option.map_some] at h
      split at h
      · cases h
      · rename_i hn
        cases h
        refine rest_detached hr ?_
        simp only [List.head?_cons, Option.mem_def, Option.some.injEq, forall_eq']
        rw [hv.null hl he]
        intro h0
        exact hn (by rw [h0])

theorem array_decode {cfg : Config} {P : QParams} {pay : VPayload} {junk : Junk} {msg : Bytes}
    {tags : List Nat} {cnt : Option Nat} {c1 cEnd : Cur} {xs : List Item} {es : List Entry}
    {hp : Except Err Header} (hl : P.Local) (hlen : msg.length ≤ maxMessage)
    (hen : entry P false ⟨0, msg⟩ = (.ok (none, ⟨.arr cnt, tags, none⟩), c1))
    (hel : elements P false 14 cnt c1 = .ok (es, cEnd))
    (hall : Each (fun x e => Vals P 14 x e.itm e.cur) xs es)
    (hrd : ∀ x ∈ xs, ∃ b, Reads P.maxTags 14 x b)
    (hprot : ∀ pb, xs[0]? = some (.bstr pb) → ProtectedIn P pb hp) :
    match readArray P cfg.disableContentType pay.octets xs hp (!cEnd.rest.isEmpty) with
    | .error y => (decodeBody cfg P ((Dec.init msg).enterArray P) pay junk).1 = .error y
    | .ok f => ∃ v x, IsView P msg v ∧ v.tags = tags ∧ bodyFn cfg P v pay = .ok x ∧
        KnownIs f.known x.params x.crit x.unk ∧ x.prot.ub = .data f.prot ∧
        x.sig.ub = .data f.sig ∧ x.payload.ub = pay.buffer f.payload ∧
        (pay.buffer f.payload).bytes = f.payload := by
  have henc : ∀ x ∈ xs, x.Real := fun x hx => (hrd x hx).elim fun _ h => h.real
  have hmild : Mild es := by
    have : ∀ {xs : List Item} {es : List Entry}, (∀ x ∈ xs, x.Real) →
        Each (fun x e => Vals P 14 x e.itm e.cur) xs es → Mild es := by
      intro xs es henc hall
      induction hall with
      | nil => intro e he; cases he
      | @cons x e xs es hv _ ih =>
        intro e' he'
        rcases List.mem_cons.mp he' with rfl | he'
        · exact fun y hy => (hv.mild hl (henc x (by simp)) y hy).1
        · exact ih (fun x hx => henc x (List.mem_cons_of_mem _ hx)) e' he'
    exact this henc hall
  have hel0 := hel
  have hr := elements_rem.mp hel
  rw [enterArray_intro_msg hlen hen]
  cases hall with
  | nil => exact body_noProt hr hmild (by simp)
  | @cons x0 e0 xs es hv0 hall =>
  have he0 := henc x0 (by simp)
  unfold readArray
  simp only [List.getElem?_cons_zero, List.getElem?_cons_succ] at hprot ⊢
  rcases hv0.str hl he0 with ⟨s, rfl, hs0⟩ | ⟨hx0, hs0⟩
  case inr =>
    have : ∀ r : Except Err Found4, r = .error (headErr (stopOf (e0 :: es))) →
        match (generalizing := false) r with
        | .error y => (decodeBody cfg P ⟨(Dec.openLvl cnt c1).2, [.arr (Dec.openLvl cnt c1).1], none, tags⟩
            pay junk).1 = .error y
        | .ok f => ∃ v x, IsView P msg v ∧ v.tags = tags ∧ bodyFn cfg P v pay = .ok x ∧
            KnownIs f.known x.params x.crit x.unk ∧ x.prot.ub = .data f.prot ∧
            x.sig.ub = .data f.sig ∧ x.payload.ub = pay.buffer f.payload ∧
            (pay.buffer f.payload).bytes = f.payload := by
      rintro r rfl
      exact body_noProt hr hmild (by simpa using hs0)
    refine this _ ?_
    have hcode : headErr (stopOf (e0 :: es)) =
        if x0.bare.isNot then .cborNotWellFormed else .parameterCbor := by
      unfold headErr
      cases herr : e0.itm.err with
      | none =>
        have hlive : x0.bare.live := Classical.byContradiction fun hn => by
          obtain ⟨-, e, -, h2⟩ := hv0.dead hn
          rw [herr] at h2
          cases h2
        rw [stopOf_ok herr, hlive.1]
        rfl
      | some y => rw [stopOf_err herr, (hv0.mild hl he0 y herr).2]
    rw [hcode]
    have hrew : ∀ b, (if x0.bare.isNot = true then .error .cborNotWellFormed
        else .error .parameterCbor : Except Err Found4) = b →
        b = .error (if x0.bare.isNot = true then .cborNotWellFormed else .parameterCbor) := by
      rintro b rfl
      split <;> rfl
    refine hrew _ ?_
    cases x0 <;> first | rfl | exact absurd rfl (hx0 _)
  have hi0 := Itm.str?_some.mp hs0
  rcases protected_in hl (hprot _ rfl) with ⟨y, rfl, hne, it, c3, hen3, hnm, hy⟩ | ⟨hd, pe, rfl, hip, hpe⟩
  · subst hy; exact body_noMap hr hi0 hne hen3 hnm
  simp only
  have k1 := readHeader_exact (cfg := cfg) (prot := true) hpe KnownIs.nothing (fun _ => ⟨rfl, rfl⟩)
  rw [headerFn_relabel] at k1
  have hmild1 : Mild es := fun e he => hmild e (List.mem_cons_of_mem _ he)
  rcases body_prot (cfg := cfg) (tags := tags) (pay := pay) (junk := junk) hr hi0 hip with
    ⟨y, g1, g2⟩ | ⟨p1, crit1, unk1, us, t, c', g1, hus, hu1, hr1, g2⟩
  · cases hrd : readHeader cfg.disableContentType true (Header.untag P hd) Known.nothing with
    | error y' =>
      rw [hrd] at k1
      simp only at k1 ⊢
      rw [g1] at k1
      cases k1
      exact g2
    | ok k =>
      rw [hrd] at k1
      obtain ⟨_, _, _, k1, -⟩ := k1
      rw [g1] at k1
      cases k1
  cases hrd : readHeader cfg.disableContentType true (Header.untag P hd) Known.nothing with
  | error y' =>
    rw [hrd] at k1
    simp only at k1
    rw [g1] at k1
    cases k1
  | ok k =>
  rw [hrd] at k1
  obtain ⟨_, _, _, k1, hk1⟩ := k1
  have hfn1 := g1
  rw [g1] at k1
  cases k1
  simp only
  rw [g2]
  -- the unprotected header
  cases hall with
  | nil => exact tail_noMap hr1 hmild1 (by simp)
  | @cons x1 e1 xs es hv1 hall =>
  obtain ⟨b1, hr1'⟩ := hrd x1 (by simp)
  have he1 := henc x1 (by simp)
  simp only [List.getElem?_cons_zero, List.getElem?_cons_succ, Option.map_some, Option.getD_some]
  cases hh : x1.header? P with
  | error y =>
    simp only
    obtain ⟨hnm, rfl⟩ := hv1.noMap hl he1 hh
    have := tail_noMap (cfg := cfg) (tags := t) (pay := pay) (junk := junk) (prot := .slice s)
      (p1 := p1) (crit1 := crit1) (unk1 := unk1) hr1 hmild1 (by simpa using hnm)
    rw [this]
    cases herr : e1.itm.err with
    | none => rw [stopOf_ok herr]; rfl
    | some y => rw [stopOf_err herr]; rfl
  | ok hu =>
  simp only
  obtain ⟨hie1, cnt1, ue, cE1, hiv1, hel1, hue⟩ := hv1.header hl hr1' hh
  have k2 := readHeader_exact (cfg := cfg) (prot := false) hue hk1 (by simp)
  rw [headerFn_relabel] at k2
  have hmild2 : Mild es := fun e he => hmild1 e (List.mem_cons_of_mem _ he)
  rcases tail_unprot (cfg := cfg) (tags := t) (pay := pay) (junk := junk) (prot := .slice s)
    (p1 := p1) (crit1 := crit1) hr1 hiv1 hie1 hel1 hus hu1 with
    ⟨y, g3, g4⟩ | ⟨p2, crit2, unk2, t2, c2', g3, hr2, g4⟩
  · cases hrd2 : readHeader cfg.disableContentType false (Header.untag P hu) k with
    | error y' =>
      rw [hrd2] at k2
      simp only at k2 ⊢
      rw [g3] at k2
      cases k2
      exact g4
    | ok k' =>
      rw [hrd2] at k2
      obtain ⟨_, _, _, k2, -⟩ := k2
      rw [g3] at k2
      cases k2
  cases hrd2 : readHeader cfg.disableContentType false (Header.untag P hu) k with
  | error y' =>
    rw [hrd2] at k2
    simp only at k2
    rw [g3] at k2
    cases k2
  | ok k' =>
  rw [hrd2] at k2
  obtain ⟨_, _, _, k2, hk2⟩ := k2
  rw [g3] at k2
  cases k2
  simp only
  -- the payload
  have henc2 : ∀ x ∈ xs, x.Real := fun x hx =>
    henc x (List.mem_cons_of_mem _ (List.mem_cons_of_mem _ hx))
  cases hpa : payloadAt P pay.octets xs[0]? with
  | error y => exact g4 y (payload_missing hl hr2 hmild2 hall henc2 hpa)
  | ok p =>
  simp only
  cases hall with
  | nil => cases pay <;> cases hpa
  | @cons x2 e2 xs es hv2 hall =>
  have he2 := henc2 x2 (by simp)
  obtain ⟨hpt, hin, hdt⟩ := payload_there hl he2 hv2 hpa
  have hmild3 : Mild es := fun e he => hmild2 e (List.mem_cons_of_mem _ he)
  simp only [List.getElem?_cons_succ]
  -- the signature
  cases hall with
  | nil => exact g4 _ (rest_noSig hr2 hmild3 hpt (by simp))
  | @cons x3 e3 xs es hv3 hall =>
  have he3 := henc2 x3 (by simp)
  simp only [List.getElem?_cons_zero]
  rcases hv3.str hl he3 with ⟨s3, rfl, hs3⟩ | ⟨hx3, hs3⟩
  case inr =>
    rw [stringAt_stop (es := es) hl he3 hv3 hx3]
    exact g4 _ (rest_noSig hr2 hmild3 hpt (by simpa using hs3))
  have hi3 := Itm.str?_some.mp hs3
  simp only [stringAt]
  by_cases hend : cEnd.rest = []
  rotate_left
  · have : (!cEnd.rest.isEmpty) = true := by simpa using hend
    rw [this, if_pos rfl]
    exact g4 _ (rest_extra hr2 hpt hi3 hend)
  have : (!cEnd.rest.isEmpty) = false := by simp [hend]
  rw [this, if_neg (by simp)]
  simp only
  have herr2 : e2.itm.err = none := by
    cases pay with
    | inline w => obtain ⟨s, h⟩ := hpt; rw [h]
    | detached q => exact hpt.1
  refine ⟨⟨tags, s, pe, ue, e2.itm.val, e2.itm.tags, s3, es⟩, ?_⟩
  have hview : IsView P msg ⟨tags, s, pe, ue, e2.itm.val, e2.itm.tags, s3, es⟩ :=
    ⟨hlen, cnt, c1, e0, e1, e2, e3, cEnd, cnt1, cE1, hen, hel0, hend, hi0, hip, hiv1, hie1, hel1,
      itm_eq rfl rfl herr2, hi3⟩
  unfold bodyFn
  simp only [hfn1, g3]
  cases pay with
  | inline w =>
    obtain ⟨s2, hs2, rfl⟩ := hin w rfl
    exact ⟨_, hview, trivial, by rw [hs2], hk2, rfl, rfl, rfl, rfl⟩
  | detached q =>
    obtain rfl := hdt q rfl
    exact ⟨_, hview, trivial, if_pos hpt.2, hk2, rfl, rfl, rfl, rfl⟩

end TCose
