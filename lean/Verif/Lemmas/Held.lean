import Verif.Lemmas.Between

/-!
# The beginning of the output is kept

Once the protected header is in the output buffer, nothing that is done to the encoder changes it there, whether it
succeeds or not, until the array that it is in is closed.
-/

namespace TCose
open Enc

/-- The first `k` octets of real memory are `b`, and all that is open was opened behind them, except for an outermost
array. -/
structure Held (k : Nat) (b : Bytes) (e : Enc) : Prop where
  mem : ∃ m, e.mem = .buf m ∧ m.take k = b ∧ e.len ≤ m.length
  len : k ≤ e.len
  nest : ∃ l s c, e.nest = l ++ [⟨.arr, s, c⟩] ∧ ∀ n ∈ l, k ≤ n.start

namespace Held

variable {k : Nat} {b : Bytes} {e : Enc}

theorem same {e' : Enc} (h : Held k b e) (h1 : e'.mem = e.mem) (h2 : e'.len = e.len) (h3 : e'.nest = e.nest) :
    Held k b e' := by
  obtain ⟨⟨m, a1, a2, a3⟩, a4, a5⟩ := h
  exact ⟨⟨m, h1.trans a1, a2, by rw [h2]; exact a3⟩, by rw [h2]; exact a4, by rw [h3]; exact a5⟩

theorem insert_take {m s : Bytes} {len pos : Nat} (hk : k ≤ pos) (hp : pos ≤ len) (hl : len ≤ m.length) :
    (insertMem m len pos s).take k = m.take k := by
  unfold insertMem
  rw [List.append_assoc, List.append_assoc, List.take_append_of_le_length (by rw [List.length_take]; omega),
    List.take_take, Nat.min_eq_left hk]

theorem insert (h : Held k b e) (s : UB) {pos : Nat} (hk : k ≤ pos) : Held k b (e.insert s pos) := by
  obtain ⟨⟨m, a1, a2, a3⟩, a4, a5⟩ := h
  unfold Enc.insert
  split
  · exact ⟨⟨m, a1, a2, a3⟩, a4, a5⟩
  · split
    · exact ⟨⟨m, a1, a2, a3⟩, a4, a5⟩
    · rename_i hroom
      split
      · exact ⟨⟨m, a1, a2, a3⟩, a4, a5⟩
      · rename_i hpos
        rw [a1] at hroom ⊢
        simp only [Mem.cap] at hroom
        cases s with
        | data s =>
          simp only [UB.len] at hroom
          refine ⟨⟨_, rfl, ?_, ?_⟩, ?_, a5⟩
          · rw [insert_take hk (by omega) a3]; exact a2
          · rw [insertMem_length (by omega) (by omega)]; simp only; omega
          · simp only; omega
        | null n =>
          simp only [UB.len] at hroom
          simp only
          split
          · exact ⟨⟨m, a1, a2, a3⟩, a4, a5⟩
          · refine ⟨⟨_, rfl, ?_, ?_⟩, ?_, a5⟩
            · rw [insert_take hk (by omega) a3]; exact a2
            · rw [insertMem_length (by omega) (by simp; omega)]; simp only; omega
            · simp only; omega

theorem append (h : Held k b e) (s : UB) : Held k b (e.append s) := h.insert s h.len

theorem bump (h : Held k b e) : Held k b e.bump := by
  unfold Enc.bump
  split
  · exact h
  · rename_i n ns hn
    split
    · exact h.same rfl rfl rfl
    · obtain ⟨a0, a4, l, s, c, a5, a6⟩ := h
      refine ⟨a0, a4, ?_⟩
      rw [hn] at a5
      cases l with
      | nil =>
        simp only [List.nil_append, List.cons.injEq] at a5
        obtain ⟨rfl, rfl⟩ := a5
        exact ⟨[], s, c + 1, rfl, by simp⟩
      | cons x l =>
        simp only [List.cons_append, List.cons.injEq] at a5
        obtain ⟨rfl, rfl⟩ := a5
        refine ⟨{ n with count := n.count + 1 } :: l, s, c, rfl, ?_⟩
        intro y hy
        rcases List.mem_cons.mp hy with rfl | hy
        · exact a6 n (by simp)
        · exact a6 y (by simp [hy])

theorem addItem (h : Held k b e) (hd : Bytes) (s : UB) : Held k b (e.addItem hd s) := by
  unfold Enc.addItem
  split
  · exact h
  · split
    · exact h.same rfl rfl rfl
    · exact ((h.append _).append _).bump

theorem openLevel (h : Held k b e) (kd : NKind) : Held k b (e.openLevel kd) := by
  unfold Enc.openLevel
  split
  · exact h
  · split
    · exact h.same rfl rfl rfl
    · have hb := h.bump
      simp only
      split
      · exact hb
      · split
        · exact hb.same rfl rfl rfl
        · split
          · exact hb.same rfl rfl rfl
          · obtain ⟨a0, a4, l, s, c, a5, a6⟩ := hb
            refine ⟨a0, a4, ⟨kd, e.bump.len, 0⟩ :: l, s, c, by simp [a5], ?_⟩
            intro y hy
            rcases List.mem_cons.mp hy with rfl | hy
            · exact a4
            · exact a6 y hy

/-- Closing anything but an array. -/
theorem closeLevel (h : Held k b e) {kd : NKind} (hk : kd ≠ .arr) (hd : Nest → Bytes) :
    Held k b (e.closeLevel kd hd) := by
  unfold Enc.closeLevel
  split
  · exact h
  · split
    · exact h.same rfl rfl rfl
    · rename_i n ns hn
      split
      · exact h.same rfl rfl rfl
      · rename_i hkind
        obtain ⟨a0, a4, l, s, c, a5, a6⟩ := id h
        rw [hn] at a5
        cases l with
        | nil =>
          simp only [List.nil_append, List.cons.injEq] at a5
          obtain ⟨rfl, rfl⟩ := a5
          exact absurd (Classical.not_not.mp hkind).symm hk
        | cons x l =>
          simp only [List.cons_append, List.cons.injEq] at a5
          obtain ⟨rfl, rfl⟩ := a5
          obtain ⟨b0, b4, -⟩ := h.insert (.data (hd n)) (a6 n (by simp))
          exact ⟨b0, b4, l, s, c, rfl, fun y hy => a6 y (by simp [hy])⟩

/-- Closing an array: if it was the outermost one and everything went well, nothing is left open; otherwise the octets
are kept. -/
theorem closeArray (h : Held k b e) : (∃ m, e.closeArray.mem = .buf m ∧ m.take k = b) ∨
    e.closeArray.small = false ∧ e.closeArray.err = none ∧ e.closeArray.nest = [] := by
  have keep : ∀ {e' : Enc}, Held k b e' → ∃ m, e'.mem = .buf m ∧ m.take k = b := by
    rintro e' ⟨⟨m, a1, a2, -⟩, -, -⟩
    exact ⟨m, a1, a2⟩
  unfold Enc.closeArray Enc.closeLevel
  split
  · exact .inl (keep h)
  · rename_i herr
    split
    · exact .inl (keep (h.same rfl rfl rfl))
    · rename_i n ns hn
      split
      · exact .inl (keep (h.same rfl rfl rfl))
      · obtain ⟨a0, a4, l, s, c, a5, a6⟩ := id h
        rw [hn] at a5
        cases l with
        | nil =>
          simp only [List.nil_append, List.cons.injEq] at a5
          obtain ⟨rfl, rfl⟩ := a5
          have herr : e.err = none := by cases hq : e.err with | none => rfl | some x => rw [hq] at herr; simp at herr
          obtain ⟨m, a1, a2, a3⟩ := a0
          unfold Enc.insert
          split
          · exact .inl ⟨m, a1, a2⟩
          · rename_i hsm
            have hsm : e.small = false := by simpa using hsm
            split
            · exact .inl ⟨m, a1, a2⟩
            · split
              · exact .inl ⟨m, a1, a2⟩
              · right
                rw [a1]
                exact ⟨hsm, herr, rfl⟩
        | cons x l =>
          simp only [List.cons_append, List.cons.injEq] at a5
          obtain ⟨rfl, rfl⟩ := a5
          obtain ⟨⟨m, a1, a2, -⟩, -, -⟩ := h.insert (.data (encodeHead 4 n.count)) (a6 n (by simp))
          exact .inl ⟨m, a1, a2⟩

theorem closePayload (h : Held k b e) (dp : UB) : Held k b (closePayload dp e).1 := by
  unfold TCose.closePayload
  split
  · exact h.closeLevel (by decide) _
  · exact h

theorem writePlace (h : Held k b e) (s : Bytes) : Held k b (e.writePlace s) := by
  obtain ⟨⟨m, a1, a2, a3⟩, a4, a5⟩ := h
  unfold Enc.writePlace
  rw [a1]
  simp only
  split
  · exact ⟨⟨m, rfl, a2, a3⟩, a4, a5⟩
  · refine ⟨⟨_, rfl, ?_, ?_⟩, a4, a5⟩
    · rw [List.append_assoc, List.take_append_of_le_length (by rw [List.length_take]; omega), List.take_take,
        Nat.min_eq_left a4]
      exact a2
    · simp only [List.length_append, List.length_take, List.length_drop]
      omega

theorem closeBytes (h : Held k b e) (n : Nat) : Held k b (e.closeBytes n) := by
  have ha : Held k b (e.advance n) := by
    obtain ⟨⟨m, a1, a2, a3⟩, a4, a5⟩ := h
    unfold Enc.advance
    split
    · exact ⟨⟨m, a1, a2, a3⟩, a4, a5⟩
    · split
      · exact ⟨⟨m, a1, a2, a3⟩, a4, a5⟩
      · rename_i hr
        rw [a1] at hr
        simp only [Mem.cap] at hr
        exact ⟨⟨m, a1, a2, by simp only; omega⟩, by simp only; omega, a5⟩
  unfold Enc.closeBytes
  simp only
  split
  · exact ha
  · exact ha.closeLevel (by decide) _

theorem addUnprotected (h : Held k b e) (cfg : Config) (me : SignCtx) (kid : UB) :
    Held k b (addUnprotected cfg me kid e).2 := by
  unfold TCose.addUnprotected
  have h1 : Held k b (if kid.isNullOrEmpty then e.openMap else (e.openMap.addInt 4).addBytes kid) := by
    split
    · exact h.openLevel _
    · exact ((h.openLevel _).addItem _ _).addItem _ _
  simp only
  generalize (if kid.isNullOrEmpty then e.openMap else (e.openMap.addInt 4).addBytes kid) = e1 at h1
  split
  · exact h1.closeLevel (by decide) _
  · split
    · exact h1
    · have h2 : Held k b (if me.contentTypeUint ≠ emptyContentType then
          (e1.addInt 3).addUInt me.contentTypeUint else e1) := by
        split
        · exact (h1.addItem _ _).addItem _ _
        · exact h1
      simp only
      generalize (if me.contentTypeUint ≠ emptyContentType then
          (e1.addInt 3).addUInt me.contentTypeUint else e1) = e2 at h2
      cases me.contentTypeTstr with
      | none => exact h2.closeLevel (by decide) _
      | some t => exact ((h2.addItem _ _).addItem _ _).closeLevel (by decide) _

end Held

/-- A failed second part of signing keeps the octets. -/
theorem signTail_held {k : Nat} {b : Bytes} {cfg : Config} {C : Crypto} {me me' : SignCtx} {aad dp : UB} {e e' : Enc}
    {x : Err} (h : Held k b e) (hs : signTail cfg C me aad dp e = (.error x, me', e')) :
    (∃ m, e'.mem = .buf m ∧ m.take k = b) ∧ me'.protectedParams = me.protectedParams := by
  have keep : ∀ {e' : Enc}, Held k b e' → ∃ m, e'.mem = .buf m ∧ m.take k = b := by
    rintro e' ⟨⟨m, a1, a2, -⟩, -, -⟩
    exact ⟨m, a1, a2⟩
  obtain ⟨n, hctx⟩ := encSig_ctx (cfg := cfg) (C := C) (m := me) (aad := aad) (pl := dp) (e2 := e)
  unfold signTail at hs
  have hpp : (encodeSignatureInternal cfg C me aad dp e).2.1.protectedParams = me.protectedParams := by rw [hctx]
  clear hctx
  unfold encodeSignatureInternal at hs hpp
  have h1 := h.closePayload dp
  generalize closePayload dp e = q at h1 hs hpp
  obtain ⟨e1, pay⟩ := q
  simp only at h1 hs hpp
  cases he : e1.errState with
  | tooSmall =>
    rw [he] at hs
    cases hs
    exact ⟨keep h1, rfl⟩
  | other y =>
    rw [he] at hs
    cases hs
    exact ⟨keep h1, rfl⟩
  | ok =>
    rw [he] at hs hpp
    simp only [Enc.openBytes] at hs hpp
    have h2 := h1.openLevel .openB
    generalize e1.openLevel .openB = e2 at h2 hs hpp
    generalize signDispatch cfg C me (e2.deref me.protectedParams) aad pay e1.outPlace = d at hs hpp
    obtain ⟨r, m2, ub⟩ := d
    cases r with
    | error y =>
      simp only at hs hpp
      cases hs
      exact ⟨keep (h2.same (e' := { e2 with ub := e2.ub || ub }) rfl rfl rfl), hpp⟩
    | ok sig =>
      simp only at hs hpp
      have h3 : Held k b { e2 with ub := e2.ub || ub } := h2.same rfl rfl rfl
      generalize ({ e2 with ub := e2.ub || ub } : Enc) = e3 at h3 hs
      have fin : ∀ e5 : Enc, ((∃ m, e5.mem = .buf m ∧ m.take k = b) ∨
            e5.small = false ∧ e5.err = none ∧ e5.nest = []) →
          (match e5.errState with
            | .tooSmall => ((.error .tooSmall, m2, e5) : Except Err UB × SignCtx × Enc)
            | .other _ => (.error .cborFormatting, m2, e5)
            | .ok =>
              match e5.finish with
              | .ok r => (.ok r, m2, e5)
              | .error _ => (.error .cborNotWellFormed, m2, e5)) = (.error x, me', e') →
          (∃ m, e'.mem = .buf m ∧ m.take k = b) ∧ me'.protectedParams = me.protectedParams := by
        intro e5 h5 hs
        rcases h5 with h5 | ⟨s1, s2, s3⟩
        · split at hs
          · cases hs; exact ⟨h5, hpp⟩
          · cases hs; exact ⟨h5, hpp⟩
          · split at hs <;> cases hs
            exact ⟨h5, hpp⟩
        · have hok : e5.errState = .ok := by simp [Enc.errState, s1, s2]
          rw [hok] at hs
          unfold Enc.finish at hs
          rw [hok, s3] at hs
          cases hm : e5.mem <;> rw [hm] at hs <;> cases hs
      cases sig with
      | data s => exact fin _ ((h3.writePlace s).closeBytes _).closeArray hs
      | null n => exact fin _ (h3.closeBytes _).closeArray hs

/-- Encoding the protected header at the beginning of the output. -/
theorem prot_rel (me : SignCtx) (out : Mem) :
    let q := encodeProtected me.alg
      ((if hasFlag me.flags optOmitTag then Enc.init out else (Enc.init out).addTag 18).openArray)
    Rel out.cap out.isNull q.1
      ⟨tagPart me ++ bstrBytes (protMap me.alg), none, [⟨.arr, (tagPart me).length, 1⟩]⟩ ∧
    (q.1.small = false → q.2 = if out.isNull then .null (protMap me.alg).length
      else .at ((tagPart me).length + 1) (protMap me.alg).length) ∧
    (q.1.small = true → q.2 = .null 0) := by
  have h : Rel out.cap out.isNull (Enc.init out) ⟨[], none, []⟩ := Rel.init_rel out
  have hl : LvlOk [] := by trivial
  have ho1 : (tagPart me).length ≤ 1 := by
    have := tagBytes_length_le (!hasFlag me.flags optOmitTag)
    rw [← o1_nil]; simp only [o1, List.length_append, List.length_nil]; omega
  have htag : Rel out.cap out.isNull
      (if hasFlag me.flags optOmitTag then Enc.init out else (Enc.init out).addTag 18)
      ⟨tagPart me, none, []⟩ := by
    rw [← o1_nil]
    unfold o1
    cases hasFlag me.flags optOmitTag with
    | true => simpa [tagBytes] using h
    | false =>
      have := h.addTag_rel 18
      rw [Ideal.addTag_ok hl] at this
      simpa [tagBytes] using this
  generalize (if hasFlag me.flags optOmitTag then Enc.init out else (Enc.init out).addTag 18) = e0 at htag ⊢
  have hms : maxStart = 4294967287 := rfl
  have hmn : maxNesting = 15 := rfl
  have harr := htag.openArray_rel
  rw [Ideal.openArray, Ideal.openLevel_ok _ hl (by simp) (by omega)] at harr
  simp only []
  generalize e0.openArray = e1 at harr ⊢
  have hm1 := harr.bstrWrap_rel
  rw [Ideal.bstrWrap, Ideal.openLevel_cons _ (by decide) (by decide) (by simp) (by omega)] at hm1
  have hm2 := hm1.openMap_rel
  rw [Ideal.openMap, Ideal.openLevel_cons _ (by decide) (by decide) (by simp) (by omega)] at hm2
  have hm3 := hm2.addInt_rel 1
  rw [Ideal.addInt, Ideal.addItem_cons (by decide) (by decide)] at hm3
  have hm4 := hm3.addInt_rel me.alg
  rw [Ideal.addInt, Ideal.addItem_cons (by decide) (by decide)] at hm4
  have hm5 := hm4.closeMap_rel
  simp only [List.append_nil] at hm5
  rw [Ideal.closeMap, List.append_assoc, Ideal.closeLevel_ok] at hm5
  have hpm : tagPart me ++ encodeHead 5 ((0 + 1 + 1) / 2) ++ (Enc.intHead 1 ++ Enc.intHead me.alg)
      = tagPart me ++ protMap me.alg := by simp [protMap]
  rw [hpm] at hm5
  have hm6 := hm5.closeBstr_rel
  have hcl : Ideal.closeBstr ⟨tagPart me ++ protMap me.alg, none,
        ⟨.bstr, (tagPart me).length, 0 + 1⟩ :: ⟨.arr, (tagPart me).length, 0 + 1⟩ :: bumpN []⟩
      = ⟨tagPart me ++ bstrBytes (protMap me.alg), none, ⟨.arr, (tagPart me).length, 1⟩ :: bumpN []⟩ := by
    simp only [Ideal.closeBstr]
    rw [Ideal.closeLevel_ok]
    simp [bstrBytes]
  rw [hcl] at hm6
  have href := fun hs => Rel.closeBstr_ref hm5 hs
  have henc : encodeProtected me.alg e1
      = ((((e1.bstrWrap.openMap).addInt 1).addInt me.alg).closeMap).closeBstrWrap2 := rfl
  rw [henc]
  have hnull : ((((e1.bstrWrap.openMap).addInt 1).addInt me.alg).closeMap).closeBstrWrap2.1.small = true →
      ((((e1.bstrWrap.openMap).addInt 1).addInt me.alg).closeMap).closeBstrWrap2.2 = .null 0 := by
    intro hs
    unfold Enc.closeBstrWrap2 at hs ⊢
    simp only at hs ⊢
    unfold Enc.outTail
    rw [if_pos hs]
  generalize ((((e1.bstrWrap.openMap).addInt 1).addInt me.alg).closeMap).closeBstrWrap2 = q at hm6 href hnull ⊢
  obtain ⟨e2, pp⟩ := q
  simp only [] at hm6 href hnull ⊢
  have hhl : (encodeHead 2 (protMap me.alg).length).length = 1 := by
    have := Ideal.protMap_length_le me.alg
    unfold encodeHead; rw [if_pos (by omega)]; rfl
  refine ⟨hm6, fun hs => ?_, hnull⟩
  have := href hs
  rw [hhl] at this
  exact this

/-- Encoding the protected header into an empty buffer: there is room for it and it is there, or there is not, and the
pointer is NULL. -/
theorem prot_held (me : SignCtx) (m : Bytes) :
    let q := encodeProtected me.alg
      ((if hasFlag me.flags optOmitTag then Enc.init (.buf m) else (Enc.init (.buf m)).addTag 18).openArray)
    ((tagPart me ++ bstrBytes (protMap me.alg)).length ≤ m.length →
      Held (tagPart me ++ bstrBytes (protMap me.alg)).length (tagPart me ++ bstrBytes (protMap me.alg)) q.1 ∧
      q.2 = .at ((tagPart me).length + 1) (protMap me.alg).length) ∧
    (m.length < (tagPart me ++ bstrBytes (protMap me.alg)).length → q.2 = .null 0) := by
  obtain ⟨hm6, href, hnull⟩ := prot_rel me (.buf m)
  simp only
  generalize encodeProtected me.alg
    (if hasFlag me.flags optOmitTag then Enc.init (.buf m) else (Enc.init (.buf m)).addTag 18).openArray = q
    at hm6 href hnull ⊢
  obtain ⟨e2, pp⟩ := q
  simp only [] at hm6 href hnull ⊢
  cases hs : e2.small with
  | true =>
    have := hm6.small hs
    simp only [Mem.cap] at this
    exact ⟨fun hle => absurd hle (by omega), fun _ => hnull hs⟩
  | false =>
    obtain ⟨g1, g2, g3, g4⟩ := hm6.good hs
    have hle := hm6.le
    simp only at g1 g3 g4
    simp only [Mem.cap] at hle
    refine ⟨fun _ => ⟨?_, ?_⟩, fun hlt => absurd hlt (by omega)⟩
    · cases hm : e2.mem with
      | null c => have := hm6.nul_eq; rw [hm] at this; cases this
      | buf mm =>
        have hc := hm6.cap_eq
        rw [hm] at hc
        simp only [Mem.cap] at hc
        refine ⟨⟨mm, hm, ?_, by omega⟩, by omega, [], _, _, g3, by simp⟩
        rw [← g1]
        exact g4 mm hm
    · exact href hs

/-- The same with a NULL buffer. -/
theorem prot_null (me : SignCtx) (n : Nat) :
    (encodeProtected me.alg ((if hasFlag me.flags optOmitTag then Enc.init (.null n)
        else (Enc.init (.null n)).addTag 18).openArray)).2 =
      if (tagPart me ++ bstrBytes (protMap me.alg)).length ≤ n then .null (protMap me.alg).length else .null 0 := by
  obtain ⟨hm6, href, hnull⟩ := prot_rel me (.null n)
  generalize encodeProtected me.alg
    (if hasFlag me.flags optOmitTag then Enc.init (.null n) else (Enc.init (.null n)).addTag 18).openArray = q
    at hm6 href hnull ⊢
  obtain ⟨e2, pp⟩ := q
  simp only [] at hm6 href hnull ⊢
  cases hs : e2.small with
  | true =>
    have := hm6.small hs
    simp only [Mem.cap] at this
    rw [if_neg (by omega)]
    exact hnull hs
  | false =>
    have h1 := (hm6.good hs).1
    have hle := hm6.le
    simp only [Mem.cap] at h1 hle
    rw [if_pos (by omega)]
    exact href hs

/-- What an attempt at another message, in one call or the first step, leaves behind when it fails or stops after the
first step. -/
theorem params_held {cfg : Config} {me : SignCtx} (det : Bool) (m : Bytes) (halg : sigAlgSupported cfg me.alg = true) :
    ∃ r pp e, encodeParametersInternal cfg me det (Enc.init (.buf m)) = (r, { me with protectedParams := pp }, e) ∧
    ((tagPart me ++ bstrBytes (protMap me.alg)).length ≤ m.length →
      Held (tagPart me ++ bstrBytes (protMap me.alg)).length (tagPart me ++ bstrBytes (protMap me.alg)) e ∧
      pp = .at ((tagPart me).length + 1) (protMap me.alg).length) ∧
    (m.length < (tagPart me ++ bstrBytes (protMap me.alg)).length → pp = .null 0) := by
  unfold encodeParametersInternal
  rw [if_neg (by simp [halg])]
  obtain ⟨h1, h2⟩ := prot_held me m
  simp only
  generalize encodeProtected me.alg
    (if hasFlag me.flags optOmitTag then Enc.init (.buf m) else (Enc.init (.buf m)).addTag 18).openArray = q at h1 h2
  obtain ⟨e, pp⟩ := q
  simp only at h1 h2 ⊢
  split
  · exact ⟨_, _, _, rfl, h1, h2⟩
  · generalize (if hasFlag me.flags optShortCircuit = true ∧ me.kid.isNullOrEmpty = true then
      UB.data shortCircuitKid else me.kid) = kid
    have h3 := fun hle => (h1 hle).1.addUnprotected cfg { me with protectedParams := pp } kid
    generalize addUnprotected cfg { me with protectedParams := pp } kid e = u at h3
    obtain ⟨r, e3⟩ := u
    cases r with
    | error x => exact ⟨_, _, _, rfl, fun hle => ⟨h3 hle, (h1 hle).2⟩, h2⟩
    | ok a =>
      refine ⟨_, _, _, rfl, fun hle => ⟨?_, (h1 hle).2⟩, h2⟩
      cases det with
      | true => exact h3 hle
      | false => exact (h3 hle).openLevel _

theorem held_deref {me : SignCtx} {e : Enc}
    (h : ∃ m, e.mem = .buf m ∧
      m.take (tagPart me ++ bstrBytes (protMap me.alg)).length = tagPart me ++ bstrBytes (protMap me.alg)) :
    e.deref (.at ((tagPart me).length + 1) (protMap me.alg).length) = .data (protMap me.alg) := by
  obtain ⟨m, h1, h2⟩ := h
  have hhl : (encodeHead 2 (protMap me.alg).length).length = 1 := by
    have := Ideal.protMap_length_le me.alg
    unfold encodeHead; rw [if_pos (by omega)]; rfl
  unfold Enc.deref
  rw [h1]
  simp only [UB.data.injEq]
  have hlen : (tagPart me ++ bstrBytes (protMap me.alg)).length = (tagPart me).length + 1 + (protMap me.alg).length := by
    simp only [List.length_append, bstrBytes, hhl]; omega
  have h3 := congrArg (List.drop ((tagPart me).length + 1)) h2
  rw [List.drop_take, hlen, Nat.add_sub_cancel_left] at h3
  rw [h3]
  have : tagPart me ++ bstrBytes (protMap me.alg) = (tagPart me ++ encodeHead 2 (protMap me.alg).length) ++
      protMap me.alg := by simp [bstrBytes]
  rw [this, List.drop_append, List.drop_of_length_le (by simp [hhl])]
  simp [hhl]

/-- What a failed attempt at another message leaves behind. -/
theorem sign_left_error {cfg : Config} {C : Crypto} {me me' : SignCtx} {det : Bool} {payload aad : UB} {m : Bytes}
    {x : Err} {e' : Enc} (halg : sigAlgSupported cfg me.alg = true)
    (h : signAadInternal cfg C me det payload aad (.buf m) = (.error x, me', e')) :
    e'.deref me'.protectedParams =
      if (tagPart me ++ bstrBytes (protMap me.alg)).length ≤ m.length then .data (protMap me.alg) else .nil := by
  obtain ⟨r, pp, e, heq, h1, h2⟩ := params_held (cfg := cfg) (me := me) det m halg
  unfold signAadInternal at h
  rw [heq] at h
  have fin : ∀ {m2 : SignCtx} {e2 : Enc}, ((tagPart me ++ bstrBytes (protMap me.alg)).length ≤ m.length →
      ∃ mm, e2.mem = .buf mm ∧
      mm.take (tagPart me ++ bstrBytes (protMap me.alg)).length = tagPart me ++ bstrBytes (protMap me.alg)) →
      m2.protectedParams = pp → e2.deref m2.protectedParams =
      if (tagPart me ++ bstrBytes (protMap me.alg)).length ≤ m.length then .data (protMap me.alg) else .nil := by
    intro m2 e2 g1 g2
    rw [g2]
    split
    · rename_i hle
      rw [(h1 hle).2]
      exact held_deref (g1 hle)
    · rename_i hle
      rw [h2 (by omega)]
      rfl
  have keep : ∀ {k b} {e' : Enc}, Held k b e' → ∃ m, e'.mem = .buf m ∧ m.take k = b := by
    rintro k b e' ⟨⟨m, a1, a2, -⟩, -, -⟩
    exact ⟨m, a1, a2⟩
  cases r with
  | error y =>
    cases h
    exact fin (fun hle => keep (h1 hle).1) rfl
  | ok u =>
    simp only at h
    have ht : signTail cfg C { me with protectedParams := pp } aad (if det then payload else .nil)
        (if det then e.addNull else e.addEncoded payload) = (.error x, me', e') := h
    refine fin (fun hle => ?_) ?_
    · refine (signTail_held ?_ ht).1
      split
      · exact (h1 hle).1.addItem _ _
      · exact (h1 hle).1.addItem _ _
    · obtain ⟨n, hctx⟩ := encSig_ctx (cfg := cfg) (C := C) (m := { me with protectedParams := pp })
        (aad := aad) (pl := if det then payload else .nil) (e2 := if det then e.addNull else e.addEncoded payload)
      unfold signTail at ht
      generalize encodeSignatureInternal cfg C { me with protectedParams := pp } aad
        (if det then payload else .nil) (if det then e.addNull else e.addEncoded payload) = q at ht hctx
      obtain ⟨q1, q2, q3⟩ := q
      simp only at hctx
      have : me' = q2 := by
        cases q1 with
        | error y => cases ht; rfl
        | ok u =>
          simp only at ht
          split at ht
          · cases ht; rfl
          · cases ht; rfl
          · split at ht <;> cases ht
            rfl
      rw [this, hctx]

/-- What the first step of another message leaves behind, whether it fails or not. -/
theorem start_left_any {cfg : Config} {me me' : SignCtx} {m : Bytes} {r : Except Err Unit} {e' : Enc}
    (halg : sigAlgSupported cfg me.alg = true)
    (h : sign1EncodeParameters cfg me (Enc.init (.buf m)) = (r, me', e')) :
    e'.deref me'.protectedParams =
      if (tagPart me ++ bstrBytes (protMap me.alg)).length ≤ m.length then .data (protMap me.alg) else .nil := by
  obtain ⟨r, pp, e, heq, h1, h2⟩ := params_held (cfg := cfg) (me := me) false m halg
  unfold sign1EncodeParameters at h
  rw [heq] at h
  cases h
  split
  · rename_i hle
    obtain ⟨⟨⟨mm, a1, a2, -⟩, -, -⟩, g2⟩ := h1 hle
    simp only [g2]
    exact held_deref ⟨mm, a1, a2⟩
  · rename_i hle
    simp only [h2 (by omega)]
    rfl

theorem params_pointer {cfg : Config} {me : SignCtx} (det : Bool) (out : Mem) (halg : sigAlgSupported cfg me.alg = true) :
    (encodeParametersInternal cfg me det (Enc.init out)).2.1.protectedParams =
      (encodeProtected me.alg
        ((if hasFlag me.flags optOmitTag then Enc.init out else (Enc.init out).addTag 18).openArray)).2 := by
  unfold encodeParametersInternal
  rw [if_neg (by simp [halg])]
  simp only
  split
  · rfl
  · split <;> rfl

theorem sign_pointer {cfg : Config} {C : Crypto} {me : SignCtx} (det : Bool) (payload aad : UB) (out : Mem)
    (halg : sigAlgSupported cfg me.alg = true) :
    (signAadInternal cfg C me det payload aad out).2.1.protectedParams =
      (encodeProtected me.alg
        ((if hasFlag me.flags optOmitTag then Enc.init out else (Enc.init out).addTag 18).openArray)).2 := by
  rw [← params_pointer (cfg := cfg) det out halg]
  unfold signAadInternal
  generalize encodeParametersInternal cfg me det (Enc.init out) = q
  obtain ⟨r, m1, e⟩ := q
  cases r with
  | error x => rfl
  | ok u =>
    simp only
    obtain ⟨n, hctx⟩ := encSig_ctx (cfg := cfg) (C := C) (m := m1) (aad := aad)
      (pl := if det then payload else .nil) (e2 := if det then e.addNull else e.addEncoded payload)
    generalize encodeSignatureInternal cfg C m1 aad (if det then payload else .nil)
      (if det then e.addNull else e.addEncoded payload) = q at hctx
    obtain ⟨q1, q2, q3⟩ := q
    simp only at hctx
    have : ∀ q2 : SignCtx, q2.protectedParams = m1.protectedParams →
        (match ((q1, q2, q3) : Except Err Unit × SignCtx × Enc) with
          | (.error x, me, e) => ((.error x, me, e) : Except Err UB × SignCtx × Enc)
          | (.ok (), me, e) =>
            match e.errState with
            | .tooSmall => (.error .tooSmall, me, e)
            | .other _ => (.error .cborFormatting, me, e)
            | .ok =>
              match e.finish with
              | .ok r => (.ok r, me, e)
              | .error _ => (.error .cborNotWellFormed, me, e)).2.1.protectedParams = m1.protectedParams := by
      intro q2 h
      cases q1 with
      | error x => exact h
      | ok u =>
        simp only
        split
        · exact h
        · exact h
        · split <;> exact h
    exact this q2 (by rw [hctx])

theorem deref_null (e : Enc) (n : Nat) : e.deref (.null n) = .null n := rfl

end TCose
