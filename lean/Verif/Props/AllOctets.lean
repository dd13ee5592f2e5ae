import Verif.Lemmas.CutBody
import Verif.Props.Reference

/-!
# C94: the outcome of verification for every octet string

C91 has a reference program with a result for the octets that can be read; all
others are refused, and nothing is said of the error code.  Here the program has a result for
every octet string: `Spec.messageAt` says how far the octets can be read and why not further,
and `Spec.readAll` what is found wrong first.
-/

namespace TCose.Props
open TCose Spec

variable (cfg : Config) (P : QParams) (C : Crypto) (junk junk' : Junk)
  (me : VerifyCtx) (msg : Bytes) (aad : UB) (pay : VPayload) (want want' : Bool)

/-- What becomes of any octets, with `digest` for the hash. -/
def verifyAll (digest : Found4 → Int → Except Err Bytes) : Except Err Unit :=
  if maxMessage < msg.length then .error .sign1Format
  else
    match messageAt P msg with
    | .error e => .error e
    | .ok (ts, xs, last, fin) =>
      if ¬ TagPolicy me.flags ts.reverse then .error .incorrectlyTagged
      else match readAll P cfg.disableContentType pay.octets xs last fin with
        | .error e => .error e
        | .ok f => settle cfg C me f.known (digest f) (sigStructure f.prot aad.bytes f.payload) f.sig

variable {P} in
/-- An array that is read, with a protected header that is read. -/
theorem readAll_whole {noCt : Bool} {det : Option Bytes} {xs : List Item} {hp : Except Err Header}
    {r : Bytes} (hh : ∀ pb, (xs[0]? : Option Item) = some (.bstr pb) → ProtectedIn P pb hp) :
    readAll P noCt det xs [] (if r = [] then none else some .cborNotWellFormed) =
      readArray P noCt det xs hp (!r.isEmpty) := by
  have hf : (faultAt []).header = .parameterCbor ∧ (faultAt []).string P = .sign1Format := ⟨rfl, rfl⟩
  have hpr : ∀ pb, (xs[0]? : Option Item) = some (.bstr pb) →
      (if pb = [] then Hdr.whole [] else headerIn P 13 pb) = Hdr.of hp := by
    intro pb h0
    rcases hh pb h0 with ⟨rfl, rfl⟩ | ⟨y, b, r, rfl, h2, rfl⟩
    · rfl
    · obtain ⟨a, l, rfl, -⟩ := h2.first
      rw [if_neg (by simp)]
      unfold headerIn
      rw [readItem_iff.mpr ⟨_, rfl, h2⟩]
  unfold readAll readArray
  cases e0 : (xs[0]? : Option Item) with
  | none => simp only [hf.1]
  | some x0 =>
    have key : ∀ pb, x0 = .bstr pb → readAll P noCt det xs [] (if r = [] then none else
        some .cborNotWellFormed) = readArray P noCt det xs hp (!r.isEmpty) := by
      rintro pb rfl
      unfold readAll readArray
      rw [e0]
      simp only
      rw [hpr pb e0]
      cases hp with
      | error e => rfl
      | ok hd =>
        simp only [Hdr.of, Hdr.read]
        cases readHeader noCt true (Header.untag P hd) Known.nothing with
        | error e => rfl
        | ok k =>
          simp only
          cases e1 : (xs[1]? : Option Item) with
          | none => rfl
          | some x1 =>
            simp only [Option.map_some, Option.getD_some]
            cases x1.header? P with
            | error e => rfl
            | ok u =>
              simp only [Hdr.read]
              cases readHeader noCt false (Header.untag P u) k with
              | error e => rfl
              | ok k =>
                simp only
                cases e2 : (xs[2]? : Option Item) with
                | none =>
                  cases det with
                  | none => rfl
                  | some p => rfl
                | some x2 =>
                  simp only
                  cases payloadAt P det (some x2) with
                  | error e => rfl
                  | ok p =>
                    simp only
                    cases e3 : (xs[3]? : Option Item) with
                    | none => rfl
                    | some x3 =>
                      simp only
                      cases stringAt P (some x3) with
                      | error e => rfl
                      | ok s => cases r <;> rfl
    cases x0 with
    | bstr pb =>
      have := key pb rfl
      unfold readAll readArray at this
      rw [e0] at this
      exact this
    | _ => rfl

variable {P} in
/-- Nothing is known after a header that is not read. -/
theorem protHdr_unread {noCt : Bool} {pb : Bytes} (h0 : pb ≠ []) (h : readItem P.maxTags 13 pb = none) (k : Known) :
    (protHdr P pb).read P noCt true Known.nothing ≠ .ok k := by
  unfold protHdr headerIn
  rw [if_neg h0, h]
  simp only
  cases itemStop pb.length pb with
  | some s => nofun
  | none =>
    simp only
    cases (emptyAt pb.length pb).header? P with
    | error e => nofun
    | ok _ =>
      simp only [Hdr.read]
      split <;> nofun

variable {P} in
theorem parse_fuel {f d : Nat} {b : Bytes} (hf : b.length ≤ f) (h : parse P.maxTags f d b = none) :
    readItem P.maxTags d b = none := by
  cases e : readItem P.maxTags d b with
  | none => rfl
  | some y =>
    obtain ⟨x, r⟩ := y
    obtain ⟨a, rfl, h1⟩ := readItem_iff.mp e
    rw [parse_complete h1 f (by simp at hf; omega) r] at h
    cases h

theorem front_reads {t f d g : Nat} : ∀ b, ∀ x ∈ (front (parse t f d) g b).1, ∃ a, Reads t d x a := by
  induction g with
  | zero => intro b x h; cases h
  | succ g ih =>
    intro b x h
    rw [front] at h
    split at h
    · cases h
    · rename_i y r hy
      rcases List.mem_cons.mp h with rfl | h
      · obtain ⟨a, -, h2⟩ := parse_sound _ _ _ _ _ hy
        exact ⟨a, h2⟩
      · exact ih r x h

/-- What the decoder makes of any octets that are not too long: it enters no array, or it has the tags and what is
in the array. -/
theorem octets_decode {cfg : Config} {P : QParams} {junk : Junk} {msg : Bytes} {pay : VPayload}
    (hl : P.Local) (hlen : msg.length ≤ maxMessage) :
    match messageAt P msg with
    | .error e => decodeErr ((Dec.init msg).enterArray P).err = .error e
    | .ok (ts, xs, last, fin) =>
      ((Dec.init msg).enterArray P).err = none ∧ ((Dec.init msg).enterArray P).tags = ts.reverse ∧
      ts.length ≤ P.maxTags ∧
      match readAll P cfg.disableContentType pay.octets xs last fin with
      | .error y => (decodeBody cfg P ((Dec.init msg).enterArray P) pay junk).1 = .error y
      | .ok f => ∃ v x', IsView P msg v ∧ v.tags = ts.reverse ∧ bodyFn cfg P v pay = .ok x' ∧
          KnownIs f.known x'.params x'.crit x'.unk ∧ x'.prot.ub = .data f.prot ∧
          x'.sig.ub = .data f.sig ∧ x'.payload.ub = pay.buffer f.payload ∧
          (pay.buffer f.payload).bytes = f.payload := by
  unfold messageAt
  cases hri : readItem P.maxTags 15 msg with
  | some q =>
    obtain ⟨x, r⟩ := q
    obtain ⟨b, rfl, hr⟩ := readItem_iff.mp hri
    simp only
    cases hx : arrayOf P x with
    | error e => exact item_not_array hl hr hlen hx
    | ok xs =>
    simp only
    cases eh : headerAt P x with
    | some hp =>
      have hin := headerAt_in eh
      obtain ⟨g1, g2, g3, g4⟩ := item_array (cfg := cfg) (junk := junk) (pay := pay) hl hr hlen hin hx
      rw [readAll_whole (fun pb h0 => hin xs pb hx h0)]
      exact ⟨g1, g2, by rw [g2] at g3; simpa using g3, g4⟩
    | none =>
      unfold headerAt at eh
      rw [hx] at eh
      simp only at eh
      have hu : x.untag P = .arr xs := by
        unfold arrayOf at hx
        split at hx
        · rename_i h; cases hx; exact h
        · cases hx
      obtain ⟨cnt, c1, es, hen, hel, hall⟩ := array_elements (P := P) (r := r) hr hu hl
      obtain ⟨hbare, hfew⟩ := untag_container.2 _ hu
      have henter := enterArray_intro_msg hlen hen
      obtain ⟨bb, heb⟩ := reads_bare hr
      rw [hbare] at heb
      have henc : ∀ x ∈ xs, x.Real := fun x hx => (heb.elements x hx).elim fun _ h => h.real
      cases hall with
      | nil => cases eh
      | @cons x0 e0 xs es hv0 hall =>
      rcases hv0.str hl (henc x0 (by simp)) with ⟨s, rfl, hs0⟩ | ⟨hx0, -⟩
      rotate_left
      · exfalso
        cases x0 <;> first | (cases eh; done) | exact absurd rfl (hx0 _)
      have hi0 := Itm.str?_some.mp hs0
      have hf := rem_fetch (tags := x.tagList.reverse) (elements_rem.mp hel) hi0 rfl
      have hpa : protectedAt P s.bytes = none := eh
      unfold protectedAt at hpa
      split at hpa
      · cases hpa
      rename_i hne
      have hpn : readItem P.maxTags 13 s.bytes = none := by
        cases e : readItem P.maxTags 13 s.bytes with
        | none => rfl
        | some y => rw [e] at hpa; cases hpa
      have hpd : (if s.bytes = [] then Hdr.whole [] else headerIn P 13 s.bytes) = protHdr P s.bytes := rfl
      rcases prot_stage (cfg := cfg) (pay := pay) (junk := junk) hl hf with
        ⟨y, g1, g2⟩ | ⟨k, p1, crit1, unk1, t, g1, -⟩
      rotate_left
      · exact absurd g1 (protHdr_unread hne hpn k)
      refine ⟨by rw [henter], by rw [henter], few_tags hfew, ?_⟩
      have : readAll P cfg.disableContentType pay.octets (.bstr s.bytes :: xs) []
          (if r = [] then none else some .cborNotWellFormed) = .error y := by
        unfold readAll
        simp only [List.getElem?_cons_zero]
        rw [hpd, g1]
      rw [this, henter]
      exact g2
  | none =>
    simp only
    have h0 : (Dec.init msg).err = none := by
      unfold Dec.init
      simp only
      exact if_neg (Nat.not_lt.mpr hlen)
    rcases fault_fetch (P := P) (d := Dec.init msg) (D := 15) rfl hri with
      ⟨s, e, c1, h1, h2, h3⟩ | ⟨h, p, hb, h1, h2⟩
    · have h1 : faultAt msg = .stop s := h1
      rw [h1]
      simp only
      rw [enterArray_r h0 h2 nofun]
      exact h3.1.decode.trans (by rw [← h3.outside])
    · have hb : BoxAt msg.length msg h := hb
      have h1 : faultAt msg = .open_ (tagged (tagNums msg.length msg) h.empty) := h1
      have h2 : (Dec.init msg).fetch P = (boxFetch P msg.length msg h, ⟨p, h.rest⟩) := h2
      rw [h1]
      simp only
      obtain ⟨g1, g2, g3⟩ := untag_empty (P := P) (ts := tagNums msg.length msg) hb.empty
      have g4 : h.empty.isNot = false ∧ h.empty.tooLow = false := by
        rcases hb.empty with h | h <;> rw [h] <;> exact ⟨rfl, rfl⟩
      by_cases hm : P.maxTags < (tagNums msg.length msg).length
      · have harr : arrayOf P (tagged (tagNums msg.length msg) h.empty) = .error .tooManyTags := by
          unfold arrayOf
          rw [g3, if_pos hm]
          simp [unread, typeFault, g1, g2, g4, hm]
        rw [harr]
        have h2' : (Dec.init msg).fetch P = (.error .tooManyTags, ⟨p, h.rest⟩) := by
          rw [h2]; unfold boxFetch; rw [if_pos hm]
        rw [enterArray_r h0 h2' nofun]
        rfl
      have h2' : (Dec.init msg).fetch P = (.ok (boxItm P msg.length msg h), ⟨p, h.rest⟩) := by
        rw [h2]; unfold boxFetch; rw [if_neg hm]
      rcases hb.box with hmaj | hmaj
      rotate_left
      · have hemp : h.empty = .map [] := if_neg (by omega)
        have harr : arrayOf P (tagged (tagNums msg.length msg) h.empty) = .error .sign1Format := by
          unfold arrayOf
          rw [g3, if_neg hm, hemp]
          simp [typeFault, ← hemp, g1, g2, g4, hm]
        rw [harr]
        have hval : (boxItm P msg.length msg h).val = .map h.count := if_neg (by omega)
        rw [enterArray_r h0 h2' (by
          intro it hit k hk
          cases hit
          rw [hval] at hk
          cases hk)]
        rfl
      have hemp : h.empty = .arr [] := if_pos hmaj
      have harr : arrayOf P (tagged (tagNums msg.length msg) h.empty) = .ok [] := by
        unfold arrayOf
        rw [g3, if_neg hm, hemp]
      rw [harr]
      simp only
      rw [hb.contentAt, g2]
      obtain ⟨p', hen⟩ := hb.entry (P := P) 0
      have hitm : boxItm P msg.length msg h =
          ⟨.arr h.count, (tagNums msg.length msg).reverse, none⟩ := by
        unfold boxItm Hd.open
        rw [if_pos hmaj, if_neg hm, List.take_of_length_le (by omega)]
      rw [hitm] at hen
      have henter := enterArray_intro_msg hlen hen
      obtain ⟨⟨es, hrun, hall⟩, hpl, hll⟩ := hb.array (P := P) (d := 14) (Nat.le_refl _) hmaj hri p'
      obtain ⟨y, k1, k2⟩ := cut_body (cfg := cfg) (pay := pay) (junk := junk)
        (tags := (tagNums msg.length msg).reverse) hl hrun hall (front_reads _) (parse_fuel hll hpl) hll hpl
      refine ⟨by rw [henter], by rw [henter], by omega, ?_⟩
      rw [k1, henter]
      exact k2

/-- Octets that are too long are not looked at. -/
theorem octets_too_long {P : QParams} {msg : Bytes} (hlen : maxMessage < msg.length) :
    decodeErr ((Dec.init msg).enterArray P).err = .error .sign1Format := by
  have h0 : (Dec.init msg).err = some .inputTooLarge := by
    unfold Dec.init
    simp only
    exact if_pos hlen
  have : ((Dec.init msg).enterArray P).err = some .inputTooLarge := by
    unfold Dec.enterArray
    rw [h0]
    exact h0
  rw [this]
  rfl

/-- The reading of a message that is found, as the decoder has it. -/
theorem found_decodes {cfg : Config} {P : QParams} {junk : Junk} {msg : Bytes} {aad : UB} {pay : VPayload}
    {v : MsgView} {dx : Decoded} {f : Found4} (hargs : ArgsOk aad pay) (hview : IsView P msg v)
    (hx' : bodyFn cfg P v pay = .ok dx) (hxp : dx.prot.ub = .data f.prot)
    (hxb : dx.payload.ub = pay.buffer f.payload) (hpb : (pay.buffer f.payload).bytes = f.payload) :
    DecodesTo cfg P v pay dx ∧ dx.Wf aad ∧ dx.tbs aad = sigStructure f.prot aad.bytes f.payload := by
  rcases bodyFn_exact (cfg := cfg) (pay := pay) junk hview with ⟨x', hx'', hdec⟩ | ⟨y', st, hy', -⟩
  rotate_left
  · rw [hy'] at hx'; cases hx'
  rw [hx''] at hx'
  cases hx'
  refine ⟨hdec, ⟨by rw [hxp]; rfl, hargs.1, ?_⟩, ?_⟩
  · rw [hxb]
    cases pay with
    | inline w => rfl
    | detached p => exact hargs.2 p rfl
  · unfold Decoded.tbs
    rw [hxp, hxb, hpb]; rfl

/-- **C94.** Whatever the octets, options, keys and adapter: the result of verification, with its
error code, is what the reference program computes. -/
theorem C94_all_octets (hP : P.maxTags ≤ 4) (hl : P.Local) (hargs : ArgsOk aad pay) :
    (verifyInternal cfg P C junk me msg aad pay want).res =
      verifyAll cfg P C me msg aad pay fun f alg =>
        createTbsHash cfg C alg (.data f.prot) aad (pay.buffer f.payload) (maxHashSize cfg) := by
  unfold verifyAll
  by_cases hlen : maxMessage < msg.length
  · rw [if_pos hlen]
    exact verify_of_decode_error (.inl (octets_too_long hlen))
  rw [if_neg hlen]
  have key := octets_decode (cfg := cfg) (P := P) (junk := junk) (pay := pay) hl (Nat.le_of_not_lt hlen)
  cases hm : messageAt P msg with
  | error e =>
    rw [hm] at key
    exact verify_of_decode_error (.inl key)
  | ok q =>
    obtain ⟨ts, xs, last, fin⟩ := q
    rw [hm] at key
    obtain ⟨herr, hvt, htl, key⟩ := key
    have htl' : ((Dec.init msg).enterArray P).tags.length ≤ P.maxTags := by
      rw [hvt, List.length_reverse]; exact htl
    simp only
    rcases processTags_eq (me := me) herr htl' hP with ⟨hpol, hq⟩ | ⟨hpol, hq⟩
    rotate_left
    · rw [hvt] at hpol
      rw [if_pos hpol]
      exact verify_of_decode_error (.inr ⟨herr, .inl (by rw [hq])⟩)
    rw [hvt] at hpol
    rw [if_neg (by simpa using hpol)]
    cases hra : readAll P cfg.disableContentType pay.octets xs last fin with
    | error y =>
      rw [hra] at key
      exact verify_of_decode_error (.inr ⟨herr, .inr ⟨by rw [hq], key⟩⟩)
    | ok f =>
      rw [hra] at key
      obtain ⟨v, dx, hview, hvtags, hx', hk, hxp, hxs, hxb, hpb⟩ := key
      obtain ⟨hdec, hw, htbs⟩ := found_decodes (junk := junk) hargs hview hx' hxp hxb hpb
      have hset := checkDecoded_settle (cfg := cfg) (C := C) (me := me.withTags v) hk hdec.crOk
        hdec.unkOk hw
      simp only
      rw [verify_run_res hP hview (by rw [hvtags]; exact hpol) hdec, hset, htbs, hxp, hxs, hxb]
      rfl

/-- **C94 (alone).** What is in uninitialised memory and whether the caller wants the parameters does
not matter. -/
theorem C94_alone (hP : P.maxTags ≤ 4) (hl : P.Local) (hargs : ArgsOk aad pay) :
    (verifyInternal cfg P C junk me msg aad pay want).res =
      (verifyInternal cfg P C junk' me msg aad pay want').res := by
  rw [C94_all_octets cfg P C junk me msg aad pay want hP hl hargs,
    C94_all_octets cfg P C junk' me msg aad pay want' hP hl hargs]

variable {P msg} in
/-- What is found comes from an item that is read to the end of the octets. -/
theorem readAll_found {noCt : Bool} {det : Option Bytes} {ts : List Nat} {xs : List Item} {last : Bytes}
    {fin : Option Err} {f : Found4} (hm : messageAt P msg = .ok (ts, xs, last, fin))
    (h : readAll P noCt det xs last fin = .ok f) :
    (∃ x, Reads P.maxTags 15 x msg ∧ arrayOf P x = .ok xs ∧ ts = x.tagList) ∧
    xs[0]? = some (.bstr f.prot) ∧ payloadAt P det xs[2]? = .ok f.payload ∧ stringAt P xs[3]? = .ok f.sig := by
  have h1 : fin = none ∧ xs[0]? = some (.bstr f.prot) ∧ payloadAt P det xs[2]? = .ok f.payload ∧
      stringAt P xs[3]? = .ok f.sig := by
    unfold readAll at h
    split at h
    · cases h
    · rename_i pb h0
      split at h
      · cases h
      split at h
      · cases h
      split at h
      · cases h
      rename_i p hp
      split at h
      · cases h
      rename_i s hs
      cases fin with
      | some e => cases h
      | none =>
        cases h
        refine ⟨rfl, h0, ?_, ?_⟩
        · split at hp
          · rename_i x e; rw [e]; exact hp
          · cases hp
        · split at hs
          · rename_i x e; rw [e]; exact hs
          · cases hs
    · split at h <;> cases h
  obtain ⟨rfl, h1⟩ := h1
  refine ⟨?_, h1⟩
  unfold messageAt at hm
  cases e : readItem P.maxTags 15 msg with
  | none =>
    rw [e] at hm
    simp only at hm
    split at hm
    · cases hm
    · split at hm
      · cases hm
      · simp at hm
  | some q =>
    obtain ⟨x, r⟩ := q
    rw [e] at hm
    simp only at hm
    obtain ⟨b, rfl, hr⟩ := readItem_iff.mp e
    cases hx : arrayOf P x with
    | error e => rw [hx] at hm; cases hm
    | ok ys =>
      rw [hx] at hm
      simp only [Except.ok.injEq, Prod.mk.injEq] at hm
      obtain ⟨rfl, rfl, -, h4⟩ := hm
      split at h4
      · rename_i hr0
        subst hr0
        exact ⟨x, by simpa using hr, hx, rfl⟩
      · cases h4

variable {cfg P msg aad pay} in
/-- With the test adapter the hash of what is signed in a message that is read is SHA-256. -/
theorem test_found_digest (mode : Nat) (fresh : Bytes) (hfr : fresh.length = 64) (hargs : ArgsOk aad pay)
    (ha : aad.bytes.length < 2 ^ 32) (hd : ∀ p, pay.octets = some p → p.length < 2 ^ 32)
    (hlen : ¬ maxMessage < msg.length) {ts : List Nat} {xs : List Item} {last : Bytes} {fin : Option Err}
    {f : Found4} (hm : messageAt P msg = .ok (ts, xs, last, fin))
    (hra : readAll P cfg.disableContentType pay.octets xs last fin = .ok f) :
    createTbsHash cfg (testCrypto cfg mode fresh) f.known.alg (.data f.prot) aad (pay.buffer f.payload)
      (maxHashSize cfg) = testDigest cfg mode (sigStructure f.prot aad.bytes f.payload) f.known.alg := by
  obtain ⟨⟨x, hr, hx, -⟩, h0, h2, -⟩ := readAll_found hm hra
  have hml : maxMessage < 2 ^ 32 := by decide
  have hl0 := string_small hr hx h0
  have hlp : f.payload.length < 2 ^ 32 := by
    unfold payloadAt at h2
    cases hpo : pay.octets with
    | some p =>
      have := hd p hpo
      rw [hpo] at h2
      simp only at h2
      split at h2
      · cases h2; exact this
      · cases h2
    | none =>
      rw [hpo] at h2
      simp only at h2
      unfold stringAt at h2
      split at h2
      · rename_i s hs
        cases h2
        have := string_small hr hx hs
        omega
      · cases h2
      · cases h2
  have hpb := payloadAt_buffer h2
  rw [test_tbs_hash cfg mode fresh hfr f.known.alg (p := .data f.prot) rfl hargs.1 (by
    cases pay with
    | inline w => rfl
    | detached p => exact hargs.2 p rfl)
    (by rw [hpb]; exact ⟨by decide, by simp only [UB.bytes]; omega, by omega, by omega⟩), hpb]
  rfl

/-- **C94 (test adapter).** With the test adapter the program can be run on every octet string: the hash is
SHA-256.  Nothing is left to suppose but that the external data and a detached payload are shorter than
4 GiB. -/
theorem C94_test (mode : Nat) (fresh : Bytes) (hfr : fresh.length = 64) (hP : P.maxTags ≤ 4)
    (hl : P.Local) (hargs : ArgsOk aad pay) (ha : aad.bytes.length < 2 ^ 32)
    (hd : ∀ p, pay.octets = some p → p.length < 2 ^ 32) :
    (verifyInternal cfg P (testCrypto cfg mode fresh) junk me msg aad pay want).res =
      verifyAll cfg P (testCrypto cfg mode fresh) me msg aad pay
        (fun f => testDigest cfg mode (sigStructure f.prot aad.bytes f.payload)) := by
  rw [C94_all_octets cfg P (testCrypto cfg mode fresh) junk me msg aad pay want hP hl hargs]
  unfold verifyAll
  split
  · rfl
  rename_i hlen
  cases hm : messageAt P msg with
  | error e => rfl
  | ok q =>
    obtain ⟨ts, xs, last, fin⟩ := q
    simp only
    split
    · rfl
    cases hra : readAll P cfg.disableContentType pay.octets xs last fin with
    | error y => rfl
    | ok f =>
      exact settle_digest cfg (testCrypto cfg mode fresh) me
        (test_found_digest mode fresh hfr hargs ha hd hlen hm hra) _ _

/-- The reference program with the test adapter, options, octets and detached payload. -/
def runAll (flags : Nat) (b : Bytes) (det : Option Bytes) : Except Err Unit :=
  verifyAll Config.full QParams.std (testCrypto Config.full 0 (List.replicate 64 7)) (VerifyCtx.init flags) b .nil
    (match det with | none => .inline true | some p => .detached (.data p))
    (fun f => testDigest Config.full 0 (sigStructure f.prot [] f.payload))

/-- A message cut off everywhere.  First come no octets and the head of the array alone. Without the unprotected
header, or with a part of it, the code is of headers; without the payload or the signature it is not;
in the middle of a string the octets are no CBOR. -/
example : (List.range 11).map (fun n => runAll 8 (brokenEnc.take n) none) =
    [.error .sign1Format, .error .parameterCbor, .error .parameterCbor, .error .parameterCbor,
      .error .cborNotWellFormed, .error .cborNotWellFormed, .error .sign1Format, .error .cborNotWellFormed,
      .error .sign1Format, .error .cborNotWellFormed, .ok ()] := by
  decide +kernel

/-- Protected headers that are cut off behind an entry, and in the middle of one; an array of five that is cut off in and
before the last element; a detached payload that is expected where the octets end; and the tag policy, which comes
first. -/
example :
    runAll 8 [0x84, 0x43, 0xa2, 0x01, 0x40, 0xa0, 0x40, 0x40] none = .error .parameterCbor ∧
    runAll 8 [0x84, 0x45, 0xa2, 0x02, 0x81, 0x18, 0x46, 0xa0, 0x40, 0x40] none = .error .parameterCbor ∧
    runAll 8 [0x84, 0x44, 0xa2, 0x01, 0x26, 0x41, 0xa0, 0x40, 0x40] none = .error .cborNotWellFormed ∧
    runAll 8 [0x85, 0x40, 0xa0, 0x40, 0x40, 0x41] none = .error .cborNotWellFormed ∧
    runAll 8 [0x85, 0x40, 0xa0, 0x40, 0x40] none = .error .sign1Format ∧
    runAll 8 [0x84, 0x40, 0xa0] (some [1]) = .error .cborFormatting ∧
    runAll 4 [0xd1, 0x84, 0x40, 0xa0] none = .error .incorrectlyTagged := by
  decide +kernel

end TCose.Props
