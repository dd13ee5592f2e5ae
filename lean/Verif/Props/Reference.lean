import Verif.Lemmas.Parse
import Verif.Props.Accepts

/-!
# C91: verification computes what a short reference program computes

C89 and C90 speak of what is read as an item by rules.  Here the rules are replaced by a
program, `Spec.readItem`, and what the verifier does is said by another, `verifyAt`,
which has a result for every octet string that has a readable item at its front (and one in
its first element).  All others are refused.
-/

namespace TCose.Props
open TCose Spec

variable (cfg : Config) (P : QParams) (C : Crypto) (D : Int → Bytes → Bytes) (junk : Junk)
  (me : VerifyCtx) (msg : Bytes) (aad : UB) (pay : VPayload) (want : Bool)

variable {P} in
theorem protectedAt_iff {pb : Bytes} {h : Except Err Header} :
    protectedAt P pb = some h ↔ ProtectedIn P pb h := by
  unfold protectedAt ProtectedIn
  constructor
  · intro e
    split at e
    · rename_i hb
      cases e
      exact .inl ⟨hb, rfl⟩
    · rw [Option.map_eq_some_iff] at e
      obtain ⟨⟨y, r⟩, e, rfl⟩ := e
      obtain ⟨b, h1, h2⟩ := readItem_iff.mp e
      exact .inr ⟨y, b, r, h1, h2, rfl⟩
  · rintro (⟨rfl, rfl⟩ | ⟨y, b, r, rfl, h2, rfl⟩)
    · rfl
    · obtain ⟨a, l, rfl, -⟩ := h2.first
      rw [if_neg (by simp), readItem_iff.mpr ⟨_, rfl, h2⟩]
      rfl

/-- All that a verifier looks at in a message, if it has the form of one. -/
def sign1At (noCt : Bool) (flags : Nat) (det : Option Bytes) (msg : Bytes) : Option Found4 :=
  if maxMessage < msg.length then none
  else
    match readItem P.maxTags 15 msg with
    | some (x, []) =>
      match arrayOf P x with
      | .error _ => none
      | .ok xs =>
        if TagPolicy flags x.tagList.reverse then
          match (xs[0]? : Option Item) with
          | some (.bstr pb) =>
            match protectedAt P pb with
            | none => none
            | some hp =>
              match readArray P noCt det xs hp false with
              | .error _ => none
              | .ok f => some f
          | _ => none
        else none
    | _ => none

variable {P msg} in
theorem sign1At_iff {noCt : Bool} {flags : Nat} {det : Option Bytes} {f : Found4} :
    sign1At P noCt flags det msg = some f ↔ IsSign1 P noCt flags det msg f := by
  constructor
  · intro h
    unfold sign1At at h
    split at h
    · cases h
    rename_i hlen
    split at h
    · rename_i x e
      split at h
      · cases h
      rename_i xs hx
      split at h
      · rename_i hpol
        split at h
        · rename_i pb h0
          split at h
          · cases h
          rename_i hp hpa
          split at h
          · cases h
          rename_i f' hf
          cases h
          obtain ⟨a, ha, hr⟩ := readItem_iff.mp e
          rw [List.append_nil] at ha
          subst ha
          have hb := ((readArray_ok P).mp hf).1
          rw [h0] at hb
          cases hb
          exact ⟨by omega, x, xs, hp, hr, hx, hpol, protectedAt_iff.mp hpa, hf⟩
        · cases h
      · cases h
    · cases h
  · rintro ⟨hlen, x, xs, hp, hr, hx, hpol, hpa, hf⟩
    have e := readItem_iff.mpr ⟨msg, (List.append_nil msg).symm, hr⟩
    have h0 := ((readArray_ok P).mp hf).1
    unfold sign1At
    rw [if_neg (by omega), e]
    simp only [hx, if_pos hpol, h0, protectedAt_iff.mpr hpa, hf]

/-- **C91 (unique).** There is one way only to take an octet string for a message: what is found in
it is settled by its octets. -/
theorem C91_unique {noCt : Bool} {flags flags' : Nat} {det : Option Bytes} {f g : Found4}
    (hf : IsSign1 P noCt flags det msg f) (hg : IsSign1 P noCt flags' det msg g) : f = g := by
  obtain ⟨-, x, xs, hp, h1, h2, -, h3, h4⟩ := hf
  obtain ⟨-, y, ys, hq, k1, k2, -, k3, k4⟩ := hg
  obtain ⟨rfl, -, -⟩ := h1.unique k1 (r := []) (s := []) rfl
  rw [h2] at k2
  cases k2
  have e := ((readArray_ok P).mp h4).1
  rw [((readArray_ok P).mp k4).1] at e
  simp only [Option.some.injEq, Item.bstr.injEq] at e
  rw [← e] at h3
  rw [← protectedAt_iff] at h3 k3
  rw [h3] at k3
  cases k3
  rw [h4] at k4
  cases k4
  rfl

/-- **C91 (accepts).** An octet string is accepted exactly if the reference program finds a message in
it, and what is found settles so. -/
theorem C91_accepts (hP : P.maxTags ≤ 4) (hl : P.Local) (hargs : ArgsOk aad pay) :
    (verifyInternal cfg P C junk me msg aad pay want).res = .ok () ↔
      ∃ f, sign1At P cfg.disableContentType me.flags pay.octets msg = some f ∧
        settle cfg C me f.known (fun alg => createTbsHash cfg C alg (.data f.prot) aad
          (pay.buffer f.payload) (maxHashSize cfg)) (sigStructure f.prot aad.bytes f.payload) f.sig =
            .ok () := by
  rw [accepts_run cfg P C junk me msg aad pay want hP hl hargs]
  exact exists_congr fun f => and_congr_left fun _ => sign1At_iff.symm

/-- What is in the first element of the array that an item is; nothing if there is no such byte
string, and no result if it cannot be read. -/
def headerAt (x : Item) : Option (Except Err Header) :=
  match arrayOf P x with
  | .error _ => some (.ok [])
  | .ok xs =>
    match (xs[0]? : Option Item) with
    | some (.bstr pb) => protectedAt P pb
    | _ => some (.ok [])

variable {P} in
theorem headerAt_in {x : Item} {hp : Except Err Header} (h : headerAt P x = some hp) : HeaderIn P x hp := by
  intro xs pb hx h0
  unfold headerAt at h
  rw [hx] at h
  simp only [h0] at h
  exact protectedAt_iff.mp h

variable {P} in
theorem headerAt_some {x : Item} {hp : Except Err Header} (h : HeaderIn P x hp) :
    ∃ hq, headerAt P x = some hq := by
  unfold headerAt
  split
  · exact ⟨_, rfl⟩
  · rename_i xs hx
    split
    · rename_i pb h0
      exact ⟨hp, protectedAt_iff.mpr (h xs pb hx h0)⟩
    · exact ⟨_, rfl⟩

/-- The reference program: what becomes of a message, with `digest` for the hash.  No result if the
message is too long, or the item at its front or that in the protected header cannot be read. -/
def verifyAt (digest : Found4 → Int → Except Err Bytes) : Option (Except Err Unit) :=
  if maxMessage < msg.length then none
  else
    match readItem P.maxTags 15 msg with
    | none => none
    | some (x, r) =>
      match headerAt P x with
      | none => none
      | some hp => some (itemOutcome cfg P C me x aad pay hp (!r.isEmpty) digest)

/-- **C91.** Whatever the octets, options, keys and adapter: if the reference program has a result, it
is that of the verification, with the same error code; if it has none, the octets are refused. -/
theorem C91_reference (hP : P.maxTags ≤ 4) (hl : P.Local) (hargs : ArgsOk aad pay) :
    match verifyAt cfg P C me msg aad pay (fun f alg => createTbsHash cfg C alg (.data f.prot) aad
        (pay.buffer f.payload) (maxHashSize cfg)) with
    | some res => (verifyInternal cfg P C junk me msg aad pay want).res = res
    | none => ∃ e, (verifyInternal cfg P C junk me msg aad pay want).res = .error e := by
  have bad : (verifyInternal cfg P C junk me msg aad pay want).res ≠ .ok () →
      ∃ e, (verifyInternal cfg P C junk me msg aad pay want).res = .error e := by
    intro h
    cases e : (verifyInternal cfg P C junk me msg aad pay want).res with
    | ok u => exact absurd e h
    | error x => exact ⟨x, rfl⟩
  unfold verifyAt
  by_cases hlen : maxMessage < msg.length
  · rw [if_pos hlen]
    refine bad fun h => ?_
    have := (accepted_reads hP h).1
    omega
  rw [if_neg hlen]
  cases e : readItem P.maxTags 15 msg with
  | none =>
    refine bad fun h => ?_
    obtain ⟨-, x, hp, hr, -⟩ := accepted_reads hP h
    rw [readItem_iff.mpr ⟨msg, (List.append_nil msg).symm, hr⟩] at e
    cases e
  | some p =>
    obtain ⟨x, r⟩ := p
    obtain ⟨b, rfl, hr⟩ := readItem_iff.mp e
    cases eh : headerAt P x with
    | none =>
      simp only [eh]
      refine bad fun h => ?_
      obtain ⟨-, y, hp, hr', hh⟩ := accepted_reads hP h
      obtain ⟨rfl, -, -⟩ := hr.unique hr' (r := r) (s := []) (by simp)
      obtain ⟨hq, h⟩ := headerAt_some hh
      rw [eh] at h
      cases h
    | some hp =>
      simp only [eh]
      exact item_run cfg P C junk me x b r aad pay hp want hP hl hr (by omega) (headerAt_in eh) hargs

variable {P msg} in
theorem view_reads {v : MsgView} (h : IsView P msg v) (hv : v.tags.length ≤ P.maxTags) :
    msg.length ≤ maxMessage ∧ ∃ x xs hp, Reads P.maxTags 15 x msg ∧ arrayOf P x = .ok xs ∧ HeaderIn P x hp ∧
      x.tagList.reverse = v.tags := by
  obtain ⟨S, hS, hs⟩ := seen_of_view h
  obtain ⟨us, hw⟩ := hS.whole
  have hts : S.tags.length ≤ P.maxTags := by
    rw [hs.tags, List.length_reverse] at hv
    exact hv
  have harr := arrayOf_tagged P S.tags (.bstr S.pb :: tagged us (.map S.unprot) :: S.payload ::
    .bstr S.sig :: S.extra)
  rw [if_neg (by omega)] at harr
  have hin : ∀ hp, ProtectedIn P S.pb hp → HeaderIn P (tagged S.tags (.arr (.bstr S.pb ::
      tagged us (.map S.unprot) :: S.payload :: .bstr S.sig :: S.extra))) hp := by
    intro hp hp' xs pb hx h0
    rw [harr] at hx
    cases hx
    cases h0
    exact hp'
  have htl : (tagged S.tags (.arr (.bstr S.pb :: tagged us (.map S.unprot) :: S.payload ::
      .bstr S.sig :: S.extra))).tagList.reverse = v.tags := by
    rw [tagList_tagged, hs.tags]
    simp [Item.tagList]
  refine ⟨h.1, ?_⟩
  rcases hS.prot with ⟨h1, -⟩ | ⟨vs, b, rest, h1, h2⟩
  · exact ⟨_, _, .ok [], hw, harr, hin _ (.inl ⟨h1, rfl⟩), htl⟩
  · exact ⟨_, _, _, hw, harr, hin _ (.inr ⟨_, b, rest, h1, h2, rfl⟩), htl⟩

/-- **C91 (no form).** What the reference program finds no message in is refused before anything is
hashed or verified: the result, down to what is left in the context, is the same with every adapter and
every external data. -/
theorem C91_no_form (hP : P.maxTags ≤ 4) (hl : P.Local)
    (h : sign1At P cfg.disableContentType me.flags pay.octets msg = none) (C' : Crypto) (aad' : UB) :
    verifyInternal cfg P C junk me msg aad pay want = verifyInternal cfg P C' junk me msg aad' pay want ∧
    (verifyInternal cfg P C junk me msg aad pay want).res ≠ .ok () := by
  unfold verifyInternal
  simp only
  cases hd : decodeErr ((Dec.init msg).enterArray P).err with
  | error e => exact ⟨rfl, nofun⟩
  | ok u =>
    have he := decodeErr_ok.mp hd
    obtain ⟨hlen, n, c1, tags, hen, hda⟩ := enterArray_msg rfl he
    have htl : ((Dec.init msg).enterArray P).tags.length ≤ P.maxTags := by
      rw [hda]; exact entry_tags_le hen
    rcases processTags_eq (me := me) he htl hP with ⟨hpol, hpt⟩ | ⟨-, hpt⟩
    · rw [hpt]
      simp only
      cases hb : decodeBody cfg P ((Dec.init msg).enterArray P) pay junk with
      | mk r st =>
        cases r with
        | error e => exact ⟨rfl, nofun⟩
        | ok x =>
          obtain ⟨v, hv, hvt, -⟩ := decodeBody_ok he hb
          rw [hvt] at htl hpol
          obtain ⟨hml, y, ys, hp, hr, hy, hh, htags⟩ := view_reads hv htl
          obtain ⟨-, -, -, key⟩ := item_array (cfg := cfg) (junk := junk) (pay := pay) (r := []) hl hr
            (by simpa using hml) hh hy
          rw [List.append_nil] at key
          cases hra : readArray P cfg.disableContentType pay.octets ys hp (!([] : Bytes).isEmpty) with
          | error e =>
            rw [hra] at key
            simp only [hb] at key
            cases key
          | ok f =>
            have h0 := ((readArray_ok P).mp hra).1
            rw [sign1At_iff.mpr ⟨hml, y, ys, hp, hr, hy, by rw [htags]; exact hpol, hh ys _ hy h0, hra⟩] at h
            cases h
    · rw [hpt]
      exact ⟨rfl, nofun⟩

/-! ## With the test adapter -/

variable {P} in
theorem arrayOf_is {x : Item} {xs : List Item} (h : arrayOf P x = .ok xs) : x.bare = .arr xs := by
  unfold arrayOf at h
  split at h
  · rename_i ys e
    cases h
    unfold Item.untag at e
    split at e
    · cases e
    split at e
    · cases e
    split at e
    · rw [e]; rfl
    split at e
    · cases e
    split at e
    · rename_i hb; rw [hb]; exact e
    · cases e
    · rename_i h1 h2
      split at e
      · exact e
      · cases e
      · cases e
  · cases h

theorem readsAll_small {t d : Nat} {xs : List Item} {bss : List Bytes} (h : ReadsAll t d xs bss) :
    ∀ x ∈ xs, ∃ b, Reads t d x b ∧ b.length ≤ bss.flatten.length := by
  induction xs generalizing bss with
  | nil => intro x hx; cases hx
  | cons y xs ih =>
    cases h with
    | cons h1 h2 =>
      intro x hx
      rw [List.flatten_cons, List.length_append]
      rcases List.mem_cons.mp hx with rfl | hx
      · exact ⟨_, h1, by omega⟩
      · obtain ⟨b, g1, g2⟩ := ih h2 x hx
        exact ⟨b, g1, by omega⟩

variable {P} in
/-- A string in the array of a message is no longer than the message. -/
theorem string_small {x : Item} {xs : List Item} {b s : Bytes} {d i : Nat} (h : Reads P.maxTags d x b)
    (hx : arrayOf P x = .ok xs) (hi : xs[i]? = some (.bstr s)) : s.length ≤ b.length := by
  have hb := arrayOf_is hx
  rw [← Item.tagged_bare x, hb] at h
  obtain ⟨tb, b0, rfl, -, h0⟩ := reads_tagged _ h
  have hm : Item.bstr s ∈ xs := List.mem_of_getElem? hi
  have key : ∃ d c, Reads P.maxTags d (.bstr s) c ∧ c.length ≤ b0.length := by
    cases h0 with
    | arr0 _ => cases hm
    | arr _ _ hall =>
      obtain ⟨c, g1, g2⟩ := readsAll_small hall _ hm
      exact ⟨_, c, g1, by rw [List.length_append]; omega⟩
    | arrIndef hall =>
      obtain ⟨c, g1, g2⟩ := readsAll_small hall _ hm
      exact ⟨_, c, g1, by rw [List.length_cons, List.length_append]; omega⟩
  obtain ⟨d, c, g1, g2⟩ := key
  rw [List.length_append]
  cases g1 with
  | bstr hh => rw [List.length_append] at g2; omega

/-- **C91 (test adapter).** With the test adapter the reference program can be run: the hash is
SHA-256.  Nothing is left to suppose but that the external data and a detached payload are shorter than
4 GiB. -/
theorem C91_test (mode : Nat) (fresh : Bytes) (hfr : fresh.length = 64) (hP : P.maxTags ≤ 4)
    (hl : P.Local) (hargs : ArgsOk aad pay) (ha : aad.bytes.length < 2 ^ 32)
    (hd : ∀ p, pay.octets = some p → p.length < 2 ^ 32) :
    match verifyAt cfg P (testCrypto cfg mode fresh) me msg aad pay
        (fun f => testDigest cfg mode (sigStructure f.prot aad.bytes f.payload)) with
    | some res => (verifyInternal cfg P (testCrypto cfg mode fresh) junk me msg aad pay want).res = res
    | none => ∃ e, (verifyInternal cfg P (testCrypto cfg mode fresh) junk me msg aad pay want).res =
        .error e := by
  have key := C91_reference cfg P (testCrypto cfg mode fresh) junk me msg aad pay want hP hl hargs
  suffices e : verifyAt cfg P (testCrypto cfg mode fresh) me msg aad pay
      (fun f => testDigest cfg mode (sigStructure f.prot aad.bytes f.payload)) =
      verifyAt cfg P (testCrypto cfg mode fresh) me msg aad pay (fun f alg =>
        createTbsHash cfg (testCrypto cfg mode fresh) alg (.data f.prot) aad
          (pay.buffer f.payload) (maxHashSize cfg)) by
    rw [e]; exact key
  unfold verifyAt
  split
  · rfl
  rename_i hlen
  cases e : readItem P.maxTags 15 msg with
  | none => rfl
  | some p =>
    obtain ⟨x, r⟩ := p
    obtain ⟨b, rfl, hr⟩ := readItem_iff.mp e
    simp only
    cases headerAt P x with
    | none => rfl
    | some hp =>
      simp only
      congr 1
      unfold itemOutcome
      cases hx : arrayOf P x with
      | error e => rfl
      | ok xs =>
        simp only
        split
        · rfl
        cases hra : readArray P cfg.disableContentType pay.octets xs hp (!r.isEmpty) with
        | error y => rfl
        | ok f =>
          simp only
          obtain ⟨h0, h2, -⟩ := (readArray_ok P).mp hra
          have hml : maxMessage < 2 ^ 32 := by decide
          have hl0 := string_small hr hx h0
          rw [List.length_append] at hlen
          have hlp : f.payload.length < 2 ^ 32 := by
            unfold payloadAt at h2
            cases hpo : pay.octets with
            | some p =>
              have := hd p hpo
              rw [hpo] at h2
              simp only at h2
              split at h2
              · cases h2; exact this
              · cases h2
            | none =>
              rw [hpo] at h2
              simp only at h2
              unfold stringAt at h2
              split at h2
              · rename_i s hs
                cases h2
                have := string_small hr hx hs
                omega
              · cases h2
              · cases h2
          have hpb := payloadAt_buffer h2
          refine (settle_digest cfg (testCrypto cfg mode fresh) me ?_ _ _).symm
          rw [test_tbs_hash cfg mode fresh hfr f.known.alg (p := .data f.prot) rfl hargs.1 (by
            cases pay with
            | inline w => rfl
            | detached p => exact hargs.2 p rfl)
            (by rw [hpb]; exact ⟨by decide, by simp only [UB.bytes]; omega, by omega, by omega⟩), hpb]
          rfl

/-- The reference program at work: octets that are no CBOR, accepted if only decoding is asked for;
the same with something behind them; and an item that is cut off, for which it has no result. -/
example :
    verifyAt Config.full QParams.std (testCrypto Config.full 0 (List.replicate 64 7)) (VerifyCtx.init 8)
      brokenEnc .nil (.inline true) (fun f => testDigest Config.full 0 (sigStructure f.prot [] f.payload)) =
      some (.ok ()) ∧
    verifyAt Config.full QParams.std (testCrypto Config.full 0 (List.replicate 64 7)) (VerifyCtx.init 8)
      (brokenEnc ++ [0]) .nil (.inline true)
      (fun f => testDigest Config.full 0 (sigStructure f.prot [] f.payload)) =
      some (.error .cborNotWellFormed) ∧
    verifyAt Config.full QParams.std (testCrypto Config.full 0 (List.replicate 64 7)) (VerifyCtx.init 8)
      (brokenEnc.take 9) .nil (.inline true)
      (fun f => testDigest Config.full 0 (sigStructure f.prot [] f.payload)) = none := by
  refine ⟨by decide +kernel, by decide +kernel, by decide +kernel⟩

/-- What the reference program finds in them. -/
example : (sign1At QParams.std false 8 none brokenEnc).map (fun f => (f.prot, f.payload, f.sig, f.known.ints)) =
    some ([], [1], [2], [70]) := by
  decide +kernel

end TCose.Props
