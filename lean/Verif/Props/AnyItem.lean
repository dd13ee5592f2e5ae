import Verif.Lemmas.AnyArray
import Verif.Lemmas.Seen
import Verif.Props.Untag

/-!
# C89: the outcome of verification for every CBOR item

C65 and C88 say how COSE_Sign1 messages are verified.  Here the message is anything that
QCBOR reads as an item (`Spec.Reads`), with any octets behind it.  Every CBOR item within the
limits of QCBOR is read as that (`C89_cbor`).
-/

namespace TCose.Props
open TCose Spec

variable (cfg : Config) (P : QParams) (C : Crypto) (D : Int → Bytes → Bytes) (junk junk' : Junk)
  (me : VerifyCtx) (x : Item) (b b' r r' : Bytes) (aad : UB) (pay : VPayload) (hp : Except Err Header)
  (want want' : Bool)

instance (flags : Nat) (tags : List Nat) : Decidable (TagPolicy flags tags) := by
  unfold TagPolicy; infer_instance

/-- The outcome of verification of any item: it has to be an array, then come the tag policy, the
elements of the array in order, what follows, and then `settle`.  `hp` is the header in the first
element and `more` if something follows.  -/
def itemOutcome (more : Bool) (digest : Found4 → Int → Except Err Bytes) :
    Except Err Unit :=
  match arrayOf P x with
  | .error e => .error e
  | .ok xs =>
    if ¬ TagPolicy me.flags x.tagList.reverse then .error .incorrectlyTagged
    else match readArray P cfg.disableContentType pay.octets xs hp more with
      | .error e => .error e
      | .ok f => settle cfg C me f.known (digest f) (sigStructure f.prot aad.bytes f.payload) f.sig

/-- What the first element of an array has in it, if it is a byte string. -/
def HeaderIn (P : QParams) (x : Item) (hp : Except Err Header) : Prop :=
  ∀ xs pb, arrayOf P x = .ok xs → xs[0]? = some (.bstr pb) → ProtectedIn P pb hp

theorem enterArray_not {P : QParams} {msg : Bytes} (hlen : msg.length ≤ maxDecodeInput)
    {it : Itm} {c1 : Cur} (h : entry P false ⟨0, msg⟩ = (.ok (none, it), c1))
    (hn : it.err = none → ∀ n, it.val ≠ .arr n) :
    ((Dec.init msg).enterArray P).err = some (it.err.getD .unexpectedType) := by
  have h0 : (Dec.init msg).err = none := by
    unfold Dec.init
    simp only
    rw [if_neg (by omega)]
  have hne : msg ≠ [] := by
    rintro rfl
    have hx : entry P false ⟨0, []⟩ = (.error .hitEnd, ⟨0, []⟩) := rfl
    rw [hx] at h
    cases h
  unfold Dec.enterArray
  rw [h0]
  simp only [Option.isSome_none, Bool.false_eq_true, if_false]
  have hf : (Dec.init msg).fetch P = (match it.err with | some e => .error e | none => .ok it, c1) := by
    unfold Dec.fetch Dec.init
    simp only [Dec.atEnd, Bool.false_or]
    rw [if_neg (by simpa using hne), h]
    simp only
    cases h : it.err <;> rfl
  rw [hf]
  cases he : it.err with
  | some e => rfl
  | none =>
    simp only [Option.getD_none]
    have hn := hn he
    split
    · rename_i h1; exact absurd h1 (hn _)
    · rfl

theorem few_tags {P : QParams} {x : Item} (h : ¬ (x.isTag = true ∧ P.maxTags < x.tagList.length)) :
    x.tagList.length ≤ P.maxTags := by
  refine Nat.le_of_not_lt fun hlt => h ⟨?_, hlt⟩
  cases x <;> first | rfl | (simp [Item.tagList] at hlt)

/-- What is done with an array. -/
theorem item_array {cfg : Config} {P : QParams} {junk : Junk} {x : Item} {b r : Bytes} {pay : VPayload}
    {hp : Except Err Header} {xs : List Item} (hl : P.Local) (he : Reads P.maxTags 15 x b)
    (hlen : (b ++ r).length ≤ maxMessage) (hh : HeaderIn P x hp) (hx : arrayOf P x = .ok xs) :
    ((Dec.init (b ++ r)).enterArray P).err = none ∧
    ((Dec.init (b ++ r)).enterArray P).tags = x.tagList.reverse ∧
    ((Dec.init (b ++ r)).enterArray P).tags.length ≤ P.maxTags ∧
    match readArray P cfg.disableContentType pay.octets xs hp (!r.isEmpty) with
    | .error y => (decodeBody cfg P ((Dec.init (b ++ r)).enterArray P) pay junk).1 = .error y
    | .ok f => ∃ v x', IsView P (b ++ r) v ∧ v.tags = x.tagList.reverse ∧ bodyFn cfg P v pay = .ok x' ∧
        KnownIs f.known x'.params x'.crit x'.unk ∧ x'.prot.ub = .data f.prot ∧
        x'.sig.ub = .data f.sig ∧ x'.payload.ub = pay.buffer f.payload ∧
        (pay.buffer f.payload).bytes = f.payload := by
  have hu : x.untag P = .arr xs := by
    unfold arrayOf at hx
    split at hx
    · rename_i h; cases hx; exact h
    · cases hx
  obtain ⟨cnt, c1, es, hen, hel, hall⟩ := array_elements (P := P) (r := r) he hu hl
  obtain ⟨hbare, hfew⟩ := untag_container.2 _ hu
  obtain ⟨bb, heb⟩ := reads_bare he
  rw [hbare] at heb
  have key := array_decode (cfg := cfg) (pay := pay) (junk := junk) hl hlen hen hel hall heb.elements
    (fun pb h0 => hh xs pb hx h0)
  have henter := enterArray_intro_msg hlen hen
  have herr : ((Dec.init (b ++ r)).enterArray P).err = none := by rw [henter]
  have hvt : ((Dec.init (b ++ r)).enterArray P).tags = x.tagList.reverse := by rw [henter]
  have htl : ((Dec.init (b ++ r)).enterArray P).tags.length ≤ P.maxTags := by
    rw [hvt, List.length_reverse]
    exact few_tags hfew
  exact ⟨herr, hvt, htl, key⟩

/-- What is no array is not entered. -/
theorem item_not_array {P : QParams} {x : Item} {b r : Bytes} {e : Err} (hl : P.Local)
    (he : Reads P.maxTags 15 x b) (hlen : (b ++ r).length ≤ maxMessage) (hx : arrayOf P x = .error e) :
    decodeErr ((Dec.init (b ++ r)).enterArray P).err = .error e := by
  obtain ⟨it, c1, hen, hv⟩ := Vals.of_item (P := P) (r := r) he 0
  have hsh := hv.shown hl he.real
  have hna : it.err = none → ∀ n, it.val ≠ .arr n := by
    intro h0 n hn
    rcases hsh with ⟨-, -, hvo⟩ | ⟨-, e, h1, -⟩
    · rw [hn] at hvo
      unfold arrayOf at hx
      cases hu : x.untag P with
      | arr xs => rw [hu] at hx; cases hx
      | uint n =>
        rw [hu] at hvo
        have h' : Val.arr _ = if n ≤ int64Max then .int n else .uint n := hvo
        split at h' <;> cases h'
      | nint n => rw [hu] at hvo; cases hvo
      | bstr b => rw [hu] at hvo; obtain ⟨o, h⟩ := hvo; cases h
      | tstr b => rw [hu] at hvo; obtain ⟨o, h⟩ := hvo; cases h
      | map xs => rw [hu] at hvo; obtain ⟨o, h⟩ := hvo; cases h
      | tag n x => rw [hu] at hvo; cases hvo
      | null => rw [hu] at hvo; cases hvo
      | simple n => rw [hu] at hvo; cases hvo
      | float n => rw [hu] at hvo; cases hvo
    · rw [h0] at h1; cases h1
  have herr := enterArray_not hlen hen hna
  rw [herr]
  have hs : Stops (it.err.getD .unexpectedType) := by
    cases herr : it.err with
    | none => exact ⟨by simp, by simp⟩
    | some y => exact (hv.mild hl he.real y herr).1
  rw [hs.decode, ← typeFault_stop hl he.real hv (by simp) rfl]
  unfold arrayOf at hx
  split at hx
  · cases hx
  · cases hx; rfl

/-- Verification of any item, with the hashing left as it is. -/
theorem item_run (hP : P.maxTags ≤ 4) (hl : P.Local) (he : Reads P.maxTags 15 x b)
    (hlen : (b ++ r).length ≤ maxMessage) (hh : HeaderIn P x hp) (hargs : ArgsOk aad pay) :
    (verifyInternal cfg P C junk me (b ++ r) aad pay want).res =
      itemOutcome cfg P C me x aad pay hp (!r.isEmpty) fun f alg =>
        createTbsHash cfg C alg (.data f.prot) aad (pay.buffer f.payload) (maxHashSize cfg) := by
  unfold itemOutcome
  cases hx : arrayOf P x with
  | error e =>
    exact verify_of_decode_error (.inl (item_not_array hl he hlen hx))
  | ok xs =>
    obtain ⟨herr, hvt, htl, key⟩ := item_array (cfg := cfg) (junk := junk) (pay := pay) hl he hlen hh hx
    simp only
    by_cases hpol : TagPolicy me.flags x.tagList.reverse
    rotate_left
    · rw [if_pos hpol]
      refine verify_of_decode_error (.inr ⟨herr, .inl ?_⟩)
      rcases processTags_eq (me := me) herr htl hP with ⟨hnp, -⟩ | ⟨-, hptg⟩
      · rw [hvt] at hnp; exact absurd hnp hpol
      · rw [hptg]
    rw [if_neg (by simpa using hpol)]
    have hptg : (processTags P me ((Dec.init (b ++ r)).enterArray P)).1 = .ok () := by
      rcases processTags_eq (me := me) herr htl hP with ⟨-, hptg⟩ | ⟨hnp, -⟩
      · rw [hptg]
      · rw [hvt] at hnp; exact absurd hpol hnp
    cases hra : readArray P cfg.disableContentType pay.octets xs hp (!r.isEmpty) with
    | error y =>
      rw [hra] at key
      exact verify_of_decode_error (.inr ⟨herr, .inr ⟨hptg, key⟩⟩)
    | ok f =>
      rw [hra] at key
      obtain ⟨v, dx, hview, hvtags, hx', hk, hxp, hxs, hxb, hpb⟩ := key
      simp only
      rcases bodyFn_exact (cfg := cfg) (pay := pay) junk hview with ⟨x', hx'', hdec⟩ | ⟨y', st, hy', -⟩
      rotate_left
      · rw [hy'] at hx'; cases hx'
      rw [hx''] at hx'
      cases hx'
      have hw : dx.Wf aad := ⟨by rw [hxp]; rfl, hargs.1, by
        rw [hxb]
        cases pay with
        | inline w => rfl
        | detached p => exact hargs.2 p rfl⟩
      have htbs : dx.tbs aad = sigStructure f.prot aad.bytes f.payload := by
        unfold Decoded.tbs
        rw [hxp, hxb, hpb]; rfl
      have hset := checkDecoded_settle (cfg := cfg) (C := C) (me := me.withTags v) hk hdec.crOk
        hdec.unkOk hw
      rw [verify_run_res hP hview (by rw [hvtags]; exact hpol) hdec, hset, htbs, hxp, hxs, hxb]
      rfl

theorem readArray_ok {noCt : Bool} {det : Option Bytes} {xs : List Item} {h : Except Err Header}
    {more : Bool} {f : Found4} : readArray P noCt det xs h more = .ok f ↔
    xs[0]? = some (.bstr f.prot) ∧ payloadAt P det xs[2]? = .ok f.payload ∧
    stringAt P xs[3]? = .ok f.sig ∧ more = false ∧
    ∃ hd k y u, h = .ok hd ∧ readHeader noCt true (Header.untag P hd) Known.nothing = .ok k ∧
      xs[1]? = some y ∧ y.header? P = .ok u ∧
      readHeader noCt false (Header.untag P u) k = .ok f.known := by
  unfold readArray
  constructor
  · intro h
    split at h
    · cases h
    · rename_i pb hd h0
      split at h
      · cases h
      rename_i k h1
      split at h
      · cases h
      rename_i u h2
      split at h
      · cases h
      rename_i k' h3
      split at h
      · cases h
      rename_i p h4
      split at h
      · cases h
      rename_i s h5
      split at h
      · cases h
      rename_i h6
      cases h
      cases hy : (xs[1]? : Option Item) with
      | none => rw [hy] at h2; cases h2
      | some y =>
        rw [hy] at h2
        exact ⟨h0, h4, h5, by simpa using h6, hd, k, y, u, rfl, h1, rfl, h2, h3⟩
    · split at h <;> cases h
    · cases h
  · rintro ⟨h0, h4, h5, rfl, hd, k, y, u, rfl, h1, hy, h2, h3⟩
    rw [h0]
    simp only [h1, hy, Option.map_some, Option.getD_some, h2, h3, h4, h5]
    rfl

variable {P} in
theorem payloadAt_buffer {pay : VPayload} {y : Option Item} {p : Bytes}
    (h : payloadAt P pay.octets y = .ok p) : (pay.buffer p).bytes = p := by
  cases pay with
  | inline w => rfl
  | detached q =>
    unfold payloadAt VPayload.octets at h
    simp only at h
    split at h
    · cases h; rfl
    · cases h

/-- **C89 (CBOR).** Every CBOR item within the limits of QCBOR, in every encoding, is read as what
it is. -/
theorem C89_cbor (he : Encodes x b) (hf : x.fits 15 = true) : Reads P.maxTags 15 x b := he.reads hf

/-- **C89.** What is read as an item, in every encoding and with any
octets behind it, is verified as `itemOutcome` says: what is no array, has tags against the policy,
lacks elements, has elements of other types, bad headers or something behind it is refused with
the error code given there. -/
theorem C89_outcome (hP : P.maxTags ≤ 4) (hl : P.Local) (he : Reads P.maxTags 15 x b)
    (hlen : (b ++ r).length ≤ maxMessage) (hh : HeaderIn P x hp) (hargs : ArgsOk aad pay) {N : Nat}
    (hN : ∀ xs f more, arrayOf P x = .ok xs →
      readArray P cfg.disableContentType pay.octets xs hp more = .ok f →
      PiecesUpTo N f.prot aad.bytes f.payload ∧ ∀ ha, hashFor cfg f.known.alg = some ha →
        HashesUpTo N C ha (digestRoom cfg) (D ha)) :
    (verifyInternal cfg P C junk me (b ++ r) aad pay want).res =
      itemOutcome cfg P C me x aad pay hp (!r.isEmpty) fun f =>
        digestOf cfg D (sigStructure f.prot aad.bytes f.payload) := by
  rw [item_run cfg P C junk me x b r aad pay hp want hP hl he hlen hh hargs]
  unfold itemOutcome
  cases hx : arrayOf P x with
  | error e => rfl
  | ok xs =>
    simp only
    split
    · rfl
    cases hra : readArray P cfg.disableContentType pay.octets xs hp (!r.isEmpty) with
    | error y => rfl
    | ok f =>
      simp only
      refine settle_digest cfg C me ?_ _ _
      obtain ⟨hN, hD⟩ := hN xs f _ hx hra
      have hpb : (pay.buffer f.payload).bytes = f.payload := by
        exact payloadAt_buffer ((readArray_ok P).mp hra).2.1
      have hpw : (pay.buffer f.payload).wf := by
        cases pay with
        | inline w => rfl
        | detached p => exact hargs.2 p rfl
      unfold digestOf
      cases hh' : hashFor cfg f.known.alg with
      | none => rw [createTbsHash_eq, if_pos (hashFor_none.mp hh')]
      | some h =>
        obtain ⟨g1, g2⟩ := hashFor_some hh'
        have hd : HashesUpTo N C (hashAlgOfSigAlg cfg f.known.alg) (maxHashSize cfg) (D h) := by
          rw [g1, maxHashSize_eq]; exact hD h hh'
        rw [createTbsHash_works (p := .data f.prot) g2 hd rfl hargs.1 hpw (by rw [hpb]; exact hN), hpb]
        rfl

/-- **C89 (alike).** What the octets are does not matter: all encodings of an item, with or without
something behind them, are verified alike, whatever the adapters do. -/
theorem C89_alike (hP : P.maxTags ≤ 4) (hl : P.Local) (he : Reads P.maxTags 15 x b)
    (he' : Reads P.maxTags 15 x b') (hlen : (b ++ r).length ≤ maxMessage)
    (hlen' : (b' ++ r').length ≤ maxMessage) (hh : HeaderIn P x hp) (hargs : ArgsOk aad pay)
    (hr : r = [] ↔ r' = []) :
    (verifyInternal cfg P C junk me (b ++ r) aad pay want).res =
      (verifyInternal cfg P C junk' me (b' ++ r') aad pay want').res := by
  rw [item_run cfg P C junk me x b r aad pay hp want hP hl he hlen hh hargs,
    item_run cfg P C junk' me x b' r' aad pay hp want' hP hl he' hlen' hh hargs]
  have : r.isEmpty = r'.isEmpty := by
    cases r <;> cases r' <;> simp_all
  rw [this]

/-- **C89 (accepted).** What is accepted is an array, with tags as the policy wants them and maybe
more tags, of a byte string without tags with a map in it or nothing, a map, a byte string
or null, and a byte string, without any octets behind it.  It may have more elements. -/
theorem C89_accepted (hP : P.maxTags ≤ 4) (hl : P.Local) (he : Reads P.maxTags 15 x b)
    (hlen : (b ++ r).length ≤ maxMessage) (hh : HeaderIn P x hp) (hargs : ArgsOk aad pay)
    (h : (verifyInternal cfg P C junk me (b ++ r) aad pay want).res = .ok ()) :
    r = [] ∧ TagPolicy me.flags x.tagList.reverse ∧ x.tagList.length ≤ P.maxTags ∧
    ∃ pb y z s more hd u, x.bare = .arr (.bstr pb :: y :: z :: .bstr s :: more) ∧
      hp = .ok hd ∧ y.header? P = .ok u ∧
      (match pay with | .inline _ => ∃ p, z = .bstr p | .detached _ => z.untag P = .null) := by
  rw [item_run cfg P C junk me x b r aad pay hp want hP hl he hlen hh hargs] at h
  unfold itemOutcome at h
  cases hx : arrayOf P x with
  | error e => rw [hx] at h; cases h
  | ok xs =>
    rw [hx] at h
    simp only at h
    split at h
    · cases h
    rename_i hpol
    split at h
    · cases h
    rename_i f hra
    obtain ⟨h0, h2, h3, hmore, hd, k, y, u, hhp, h4, h1, hu, h5⟩ := (readArray_ok P).mp hra
    have hun : x.untag P = .arr xs := by
      unfold arrayOf at hx
      split at hx
      · rename_i h; cases hx; exact h
      · cases hx
    obtain ⟨hbare, hfew⟩ := untag_container.2 _ hun
    have htl : x.tagList.length ≤ P.maxTags := few_tags hfew
    refine ⟨by simpa using hmore, by simpa using hpol, htl, ?_⟩
    match xs, h0, h1, h2, h3 with
    | [], h0, _, _, _ => cases h0
    | [_], _, h1, _, _ => cases h1
    | [_, _], _, _, _, h3 => cases h3
    | [_, _, _], _, _, _, h3 => cases h3
    | a :: y' :: z :: t :: more, h0, h1, h2, h3 =>
      cases h0
      cases h1
      have ht : t = .bstr f.sig := by
        have h3' : stringAt P (some t) = .ok f.sig := h3
        cases t <;> first | (cases h3'; rfl) | (simp only [stringAt] at h3'; cases h3')
      subst ht
      refine ⟨_, _, z, _, more, hd, u, hbare, hhp, hu, ?_⟩
      have h2' : payloadAt P pay.octets (some z) = .ok f.payload := h2
      cases pay with
      | inline w =>
        have h2'' : stringAt P (some z) = .ok f.payload := h2'
        cases z <;> first | (cases h2''; exact ⟨_, rfl⟩) |
          (simp only [stringAt] at h2''; cases h2'')
      | detached q =>
        simp only [VPayload.octets, payloadAt, Option.map_some] at h2'
        split at h2'
        · rename_i h0; exact Option.some.inj h0
        · cases h2'

/-- **C89 (returned).** When an item is accepted, its elements could be read, and the parameters and
the payload returned are those. -/
theorem C89_returned (hP : P.maxTags ≤ 4) (hl : P.Local) (he : Reads P.maxTags 15 x b)
    (hlen : (b ++ r).length ≤ maxMessage) (hh : HeaderIn P x hp) (hargs : ArgsOk aad pay)
    (h : (verifyInternal cfg P C junk me (b ++ r) aad pay want).res = .ok ()) :
    ∃ xs f, arrayOf P x = .ok xs ∧
      readArray P cfg.disableContentType pay.octets xs hp false = .ok f ∧
      (want = true → ∃ p, (verifyInternal cfg P C junk me (b ++ r) aad pay want).params = some p ∧
        p.alg = f.known.alg ∧ p.kid.map (·.bytes) = f.known.kid ∧ p.iv.map (·.bytes) = f.known.iv ∧
        p.partialIv.map (·.bytes) = f.known.partialIv ∧ p.ctTstr.map (·.bytes) = f.known.ctText ∧
        p.ctUint = f.known.ctNum.getD 65536) ∧
      (pay = .inline true → ∃ q, (verifyInternal cfg P C junk me (b ++ r) aad pay want).payload =
        some q ∧ q.ub.bytes = f.payload) := by
  have h' := h
  rw [item_run cfg P C junk me x b r aad pay hp want hP hl he hlen hh hargs] at h'
  unfold itemOutcome at h'
  cases hx : arrayOf P x with
  | error e => rw [hx] at h'; cases h'
  | ok xs =>
    rw [hx] at h'
    simp only at h'
    split at h'
    · cases h'
    rename_i hpol
    split at h'
    · cases h'
    rename_i f hra
    clear h'
    obtain ⟨-, -, -, key⟩ := item_array (cfg := cfg) (junk := junk) (pay := pay) hl he hlen hh hx
    rw [hra] at key
    obtain ⟨v, dx, hview, hvtags, hx', hk, hxp, hxs, hxb, hpb⟩ := key
    rcases bodyFn_exact (cfg := cfg) (pay := pay) junk hview with ⟨x', hx'', hdec⟩ | ⟨y', st, hy', -⟩
    rotate_left
    · rw [hy'] at hx'; cases hx'
    rw [hx''] at hx'
    cases hx'
    have hm := ((readArray_ok P).mp hra).2.2.2.1
    rw [hm] at hra
    refine ⟨xs, f, rfl, hra, ?_⟩
    rw [verify_run hP hview (by rw [hvtags]; simpa using hpol) hdec] at h ⊢
    generalize checkDecoded cfg C (me.withTags v) aad dx = z at h ⊢
    obtain ⟨e, b, c⟩ := z
    cases e with
    | error e => cases h
    | ok u =>
      refine ⟨?_, ?_⟩
      · rintro rfl
        exact ⟨dx.params, rfl, hk.alg, hk.kid, hk.iv, hk.partialIv, hk.ctText, hk.ctNum⟩
      · rintro rfl
        exact ⟨dx.payload, rfl, by rw [hxb, hpb]⟩

theorem readArray_take (noCt : Bool) (det : Option Bytes) (xs : List Item) (h : Except Err Header)
    (more : Bool) : readArray P noCt det (xs.take 4) h more = readArray P noCt det xs h more := by
  unfold readArray
  simp only [List.getElem?_take, show (0:Nat) < 4 by decide, show (1:Nat) < 4 by decide,
    show (2:Nat) < 4 by decide, show (3:Nat) < 4 by decide, if_true]

theorem tagList_tagged_arr (ts : List Nat) (xs : List Item) : (tagged ts (.arr xs)).tagList = ts := by
  induction ts with
  | nil => rfl
  | cons t ts ih =>
    have : (tagged (t :: ts) (.arr xs)).tagList = t :: (tagged ts (.arr xs)).tagList := rfl
    rw [this, ih]

theorem arrayOf_tagged (ts : List Nat) (xs : List Item) : arrayOf P (tagged ts (.arr xs)) =
    if P.maxTags < ts.length then .error .tooManyTags else .ok xs := by
  have hb : (tagged ts (.arr xs)).bare = .arr xs := bare_tagged rfl ts
  have hlive : (tagged ts (.arr xs)).bare.live := by rw [hb]; exact ⟨rfl, rfl⟩
  unfold arrayOf typeFault
  rw [untag_live hlive, tagList_tagged_arr, hb]
  cases ts with
  | nil => rfl
  | cons t ts =>
    rw [if_neg (by simp)]
    by_cases h : P.maxTags < (t :: ts).length
    · rw [if_pos h, if_pos h]
      rw [List.length_cons] at h
      simp [h, unread, Item.isNot, Item.tooLow]
    · rw [if_neg h, if_neg h]

/-- **C89 (first four).** Elements after the fourth do not matter: an array is verified like
the one that ends there, whatever the adapters do. -/
theorem C89_first_four (ts : List Nat) (xs ys : List Item) (hP : P.maxTags ≤ 4) (hl : P.Local)
    (h4 : xs.take 4 = ys.take 4)
    (he : Reads P.maxTags 15 (tagged ts (.arr xs)) b)
    (he' : Reads P.maxTags 15 (tagged ts (.arr ys)) b')
    (hlen : b.length ≤ maxMessage) (hlen' : b'.length ≤ maxMessage)
    (hh : ∀ pb, xs[0]? = some (.bstr pb) → ProtectedIn P pb hp) (hargs : ArgsOk aad pay) :
    (verifyInternal cfg P C junk me b aad pay want).res =
      (verifyInternal cfg P C junk' me b' aad pay want').res := by
  have hx0 : xs[0]? = ys[0]? := by
    have := congrArg (fun l : List Item => l[0]?) h4
    simpa [List.getElem?_take] using this
  have hhx : HeaderIn P (tagged ts (.arr xs)) hp := by
    intro zs pb h
    rw [arrayOf_tagged] at h
    split at h
    · cases h
    · cases h; exact hh pb
  have hhy : HeaderIn P (tagged ts (.arr ys)) hp := by
    intro zs pb h
    rw [arrayOf_tagged] at h
    split at h
    · cases h
    · cases h; rw [← hx0]; exact hh pb
  have e1 := item_run cfg P C junk me _ b [] aad pay hp want hP hl he (by simpa using hlen) hhx hargs
  have e2 := item_run cfg P C junk' me _ b' [] aad pay hp want' hP hl he' (by simpa using hlen') hhy hargs
  rw [List.append_nil] at e1 e2
  rw [e1, e2]
  unfold itemOutcome
  rw [arrayOf_tagged, arrayOf_tagged]
  by_cases hlt : P.maxTags < ts.length
  · rw [if_pos hlt, if_pos hlt]
  rw [if_neg hlt, if_neg hlt, tagList_tagged_arr, tagList_tagged_arr]
  simp only
  rw [← readArray_take P _ _ xs, ← readArray_take P _ _ ys, h4]

/-- **C89 (nothing).** A message without octets is refused with SIGN1_FORMAT. -/
theorem C89_nothing : (verifyInternal cfg P C junk me [] aad pay want).res = .error .sign1Format := by
  rfl

/-- An array with tag 18, with a tag on its unprotected header and a fifth element. -/
def oddItem : Item := .tag 18 (.arr [.bstr [], .tag 100 (.map []), .bstr [1], .bstr [2], .uint 7])

/-- Its octets. -/
def oddEnc : Bytes := [0xd2, 0x85, 0x40, 0xd8, 0x64, 0xa0, 0x41, 1, 0x41, 2, 7]

theorem odd_encodes : Encodes oddItem oddEnc := by
  refine .tag (h := [0xd2]) (.direct (by decide)) (.arr (h := [0x85])
    (bss := [[0x40], [0xd8, 0x64, 0xa0], [0x41, 1], [0x41, 2], [7]]) (.direct (by decide)) ?_)
  exact .cons (.bstr (h := [0x40]) (.direct (by decide)))
    (.cons (.tag (h := [0xd8, 0x64]) (.wide 0 (by decide) (by decide))
      (.map (h := [0xa0]) (bss := []) (.direct (by decide)) .nil))
    (.cons (.bstr (h := [0x41]) (.direct (by decide)))
    (.cons (.bstr (h := [0x41]) (.direct (by decide)))
    (.cons (.uint (.direct (by decide))) .nil))))

/-- The hypotheses of C89.  The item is accepted with all its oddities if only decoded, but not with an
octet behind it. -/
example : Reads 4 15 oddItem oddEnc ∧ HeaderIn QParams.std oddItem (.ok []) ∧
    (∃ f, readArray QParams.std false none [.bstr [], .tag 100 (.map []), .bstr [1], .bstr [2], .uint 7]
      (.ok []) false = .ok f ∧ f.payload = [1] ∧ f.sig = [2]) ∧
    (toyVerify 8 oddEnc).res = .ok () ∧
    (toyVerify 8 (oddEnc ++ [0])).res = .error .cborNotWellFormed := by
  refine ⟨odd_encodes.reads (by decide), ?_, ⟨⟨Known.nothing, [], [1], [2]⟩, rfl, rfl, rfl⟩, by decide +kernel,
    by decide +kernel⟩
  intro xs pb h h0
  have : arrayOf QParams.std oddItem =
    .ok [.bstr [], .tag 100 (.map []), .bstr [1], .bstr [2], .uint 7] := rfl
  rw [this] at h
  cases h
  cases h0
  exact .inl ⟨rfl, rfl⟩

/-- Items that are refused, as C89 says: a text string, a map with five tags, arrays without elements,
with a tag on the first, a label that is a byte string, a payload with one tag and with five, and
without a signature. -/
example : arrayOf QParams.std (.tstr [0x61]) = .error .sign1Format ∧
    (toyVerify 8 [0x61, 0x61]).res = .error .sign1Format ∧
    arrayOf QParams.std (tagged [1, 2, 3, 4, 5] (.map [])) = .error .tooManyTags ∧
    (toyVerify 8 [0xc1, 0xc2, 0xc3, 0xc4, 0xc5, 0xa0]).res = .error .tooManyTags ∧
    readArray QParams.std false none [] (.ok []) false = .error .parameterCbor ∧
    (toyVerify 8 [0x80]).res = .error .parameterCbor ∧
    (toyVerify 8 [0x84, 0xc9, 0x40, 0xa0, 0x40, 0x40]).res = .error .parameterCbor ∧
    readArray QParams.std false none [.bstr [], .map [(.bstr [1], .null)], .bstr [], .bstr []]
      (.ok []) false = .error .parameterCbor ∧
    (toyVerify 8 [0x84, 0x40, 0xa1, 0x41, 1, 0xf6, 0x40, 0x40]).res = .error .parameterCbor ∧
    readArray QParams.std false none [.bstr [], .map [], .tag 9 (.bstr []), .bstr []] (.ok []) false =
      .error .sign1Format ∧
    (toyVerify 8 [0x84, 0x40, 0xa0, 0xc9, 0x40, 0x40]).res = .error .sign1Format ∧
    readArray QParams.std false none [.bstr [], .map [], tagged [9, 9, 9, 9, 9] (.bstr []), .bstr []]
      (.ok []) false = .error .tooManyTags ∧
    (toyVerify 8 [0x84, 0x40, 0xa0, 0xc9, 0xc9, 0xc9, 0xc9, 0xc9, 0x40, 0x40]).res =
      .error .tooManyTags ∧
    readArray QParams.std false none [.bstr [], .map [], .bstr []] (.ok []) false = .error .sign1Format ∧
    (toyVerify 8 [0x83, 0x40, 0xa0, 0x40]).res = .error .sign1Format := by
  refine ⟨rfl, ?_, rfl, ?_, rfl, ?_, ?_, rfl, ?_, rfl, ?_, rfl, ?_, rfl, ?_⟩ <;> decide +kernel

end TCose.Props
