import Verif.Lemmas.VerifySafe
import Verif.Lemmas.ViewOf
import Verif.Crypto.ToyMsg
import Verif.Props.Verify

/-!
# C16, C17, C19, C20, C24 (safety), C29 (verification), C41: every outcome
-/

namespace TCose.Props
open TCose Spec

variable (cfg : Config) (P : QParams) (C : Crypto) (junk : Junk) (me : VerifyCtx)
  (msg : Bytes) (aad : UB) (pay : VPayload) (want : Bool)

/-- The tags around a message that are left for the caller, from the inside out:
all but a COSE_Sign1 tag that is the innermost. -/
def enclosing : List Nat → List Nat
  | 18 :: ts => ts
  | ts => ts

theorem restTags_enclosing {ts : List Nat} (h : noTag ∉ ts) : restTags ts = enclosing ts := by
  cases ts with
  | nil => rfl
  | cons t ts =>
    have h2 : ts.takeWhile (· != tagInvalid) = ts := by
      have h3 : ∀ x ∈ ts, (x != tagInvalid) = true := by
        intro x hx
        simp only [bne_iff_ne, ne_eq]
        intro hxe
        exact h (by rw [show noTag = x from hxe.symm]; exact List.mem_cons_of_mem _ hx)
      clear h
      induction ts with
      | nil => rfl
      | cons y ys ih =>
        rw [List.takeWhile_cons, if_pos (h3 y (List.mem_cons_self ..)),
          ih fun x hx => h3 x (List.mem_cons_of_mem _ hx)]
    show (if t = 18 then _ else _) = _
    rw [h2]
    by_cases h18 : t = 18
    · subst h18; rfl
    · rw [if_neg h18]
      unfold enclosing
      split
      · rename_i h'; simp only [List.cons.injEq] at h'; exact absurd h'.1 h18
      · rfl

/-- **C16, partial.** After a success the n-th tag query gives the n-th enclosing
tag from the inside out, or the invalid tag if there are fewer.  Missing from the
full claim: index 4 (see `C16_violated_index_four`) and tags equal to 2^64-1, the
number that stands for "no tag". -/
theorem C16_nth_tag_partial (hP : P.maxTags ≤ 4) (hargs : ArgsOk aad pay)
    (h : (verifyInternal cfg P C junk me msg aad pay want).res = .ok ())
    (n : Nat) (hn : n ≠ 4) :
    ∃ v, IsView P msg v ∧ (noTag ∉ v.tags →
      (verifyInternal cfg P C junk me msg aad pay want).ctx.getNthTag n =
        some ((enclosing v.tags)[n]?.getD noTag)) := by
  obtain ⟨v, x, me', ub, hacc, heq⟩ := verify_ok hP h
  refine ⟨v, hacc.view, fun hinv => ?_⟩
  rw [heq]
  have hle : (enclosing v.tags).length ≤ 4 := by
    have h1 := hacc.view.tags_le
    have h2 : (enclosing v.tags).length ≤ v.tags.length := by
      generalize v.tags = ts
      unfold enclosing
      split <;> simp
    omega
  have htags : me'.auTags = padTags (enclosing v.tags) := by
    rw [← restTags_enclosing hinv]
    obtain ⟨-, -, hsig⟩ := checkDecoded_ok hacc.check
    rcases hsig with ⟨-, rfl, -⟩ | ⟨-, -, ub', hv⟩ | ⟨-, -, rfl, -⟩
    · rfl
    · rw [(verifyEddsa_ok (hacc.decodes.wf hargs.1 hargs.2) hv).2.1]; rfl
    · rfl
  unfold VerifyCtx.getNthTag
  split
  · rename_i hgt
    simp only [maxTagsToReturn] at hgt
    rw [List.getElem?_eq_none (by omega)]
    rfl
  · rename_i hgt
    simp only [maxTagsToReturn] at hgt
    simp only [htags, padTags, maxTagsToReturn]
    rw [List.getElem?_append]
    split
    · rename_i hlt
      rw [List.getElem?_eq_getElem hlt]
      rfl
    · rename_i hlt
      rw [List.getElem?_replicate, if_pos (by omega), List.getElem?_eq_none (by omega)]
      rfl

/-- A message with tags 900, 901 around the COSE_Sign1 tag. -/
def taggedMsg : Bytes := encodeHead 6 901 ++ encodeHead 6 900 ++ toyMsg true es256Hdr [] [1]

example : ArgsOk .nil (.inline true) := ⟨rfl, by intro p h; cases h⟩

example : (toyVerify 0 taggedMsg).res = .ok () ∧
    (toyVerify 0 taggedMsg).ctx.getNthTag 0 = some 900 ∧
    (toyVerify 0 taggedMsg).ctx.getNthTag 1 = some 901 ∧
    (toyVerify 0 taggedMsg).ctx.getNthTag 2 = some noTag ∧
    (toyVerify 0 taggedMsg).ctx.getNthTag 5 = some noTag ∧
    ((viewOf QParams.std taggedMsg).map (·.tags)) = some [18, 900, 901] := by decide +kernel

/-- **C16 is violated at index 4.** For every context (the array has four
elements) the query for index 4 reads behind the array. -/
theorem C16_violated_index_four (ctx : VerifyCtx) (h : ctx.auTags.length = 4) :
    ctx.getNthTag 4 = none := by
  unfold VerifyCtx.getNthTag
  rw [if_neg (by decide), List.getElem?_eq_none (by omega)]

example : (toyVerify 0 taggedMsg).ctx.auTags.length = 4 := by decide +kernel

/-- **C16, the full claim is false**: "the query never reads outside the context
after a successful verification". -/
theorem C16_claim_false :
    ¬ ∀ (cfg : Config) (C : Crypto) (junk : Junk) (me : VerifyCtx) (msg : Bytes) (n : Nat),
      me.auTags.length = 4 →
      (sign1Verify cfg QParams.std C junk me msg true true).res = .ok () →
      (sign1Verify cfg QParams.std C junk me msg true true).ctx.getNthTag n ≠ none := by
  intro h
  exact h Config.full toyCrypto noJunk (VerifyCtx.init 0) taggedMsg 4 (by decide)
    (by decide +kernel) (by decide +kernel)

/-- **C17.** Whatever the message, tag processing writes only inside the four
elements of the array (no write outside is ever flagged), and the array keeps its
four elements. -/
theorem C17_tag_storage (hP : P.maxTags ≤ 4) (hme : me.auTags.length = 4)
    (d : Dec) (hd : d = (Dec.init msg).enterArray P) (he : d.err = none) :
    (processTags P me d).2.2 = false ∧ (processTags P me d).2.1.auTags.length = 4 := by
  subst hd
  have htl := enterArray_tags he
  rcases processTags_eq (me := me) he htl hP with ⟨-, h⟩ | ⟨-, h⟩
  · rw [h]
    refine ⟨rfl, ?_⟩
    have : (restTags ((Dec.init msg).enterArray P).tags).length ≤ 4 := by
      have h2 : ∀ ts : List Nat, (restTags ts).length ≤ ts.length := by
        intro ts
        cases ts with
        | nil => simp [restTags]
        | cons t ts =>
          have : (ts.takeWhile (· != tagInvalid)).length ≤ ts.length :=
            (List.takeWhile_sublist _).length_le
          show (if t = 18 then _ else _ : List Nat).length ≤ _
          by_cases h18 : t = 18
          · rw [if_pos h18]; simp only [List.length_cons]; omega
          · rw [if_neg h18]; simp only [List.length_cons]; omega
      have := h2 ((Dec.init msg).enterArray P).tags
      omega
    simp only [padTags, maxTagsToReturn, List.length_append, List.length_replicate]
    omega
  · rw [h]; exact ⟨rfl, hme⟩

example : ((Dec.init taggedMsg).enterArray QParams.std).err = none ∧
    (VerifyCtx.init 0).auTags.length = 4 := by decide +kernel

/-- A message with five tags, for a decoder that would return five. -/
def fiveTags : Bytes :=
  encodeHead 6 905 ++ encodeHead 6 904 ++ encodeHead 6 903 ++ encodeHead 6 902 ++
    encodeHead 6 901 ++ toyMsg false es256Hdr [] [1]

/-- **C17, what it rests on.** The guard in `process_tags` is one too weak: with a
decoder returning five tags the array would be overrun.  It is QCBOR's limit of
four (`hP` above) that prevents it. -/
theorem C17_guard_off_by_one :
    (processTags ⟨5, fun _ _ => .keep⟩ (VerifyCtx.init 0)
      ((Dec.init fiveTags).enterArray ⟨5, fun _ _ => .keep⟩)).2.2 = true := by
  decide +kernel

example : (toyVerify 0 fiveTags).res = .error .tooManyTags := by decide +kernel

/-- **C19.** A failed verification stores nothing through the caller's payload and
parameter pointers, and no verification changes the key, the options or the
registration of the auxiliary buffer in the context. -/
theorem C19_outputs (hP : P.maxTags ≤ 4) (hargs : ArgsOk aad pay) :
    ((verifyInternal cfg P C junk me msg aad pay want).res ≠ .ok () →
      (verifyInternal cfg P C junk me msg aad pay want).params = none ∧
      (verifyInternal cfg P C junk me msg aad pay want).payload = none) ∧
    (verifyInternal cfg P C junk me msg aad pay want).ctx.key = me.key ∧
    (verifyInternal cfg P C junk me msg aad pay want).ctx.flags = me.flags ∧
    (verifyInternal cfg P C junk me msg aad pay want).ctx.aux = me.aux := by
  rcases verify_cases (cfg := cfg) (C := C) (junk := junk) (me := me) (msg := msg) (aad := aad)
    (pay := pay) (want := want) hP with ⟨x, -, h⟩ | ⟨x, tags, -, -, h⟩ |
      ⟨v, x, hv, -, hx, hc, hu, h⟩
  · rw [h]; exact ⟨fun _ => ⟨rfl, rfl⟩, rfl, rfl, rfl⟩
  · rw [h]; exact ⟨fun _ => ⟨rfl, rfl⟩, rfl, rfl, rfl⟩
  · rw [h]
    obtain ⟨-, -, hctx⟩ := checkDecoded_inv (cfg := cfg) (C := C) (me := me.withTags v)
      (hx.wf hargs.1 hargs.2) hc hu
    generalize checkDecoded cfg C (me.withTags v) aad x = y at hctx ⊢
    obtain ⟨r, m, b⟩ := y
    simp only at hctx
    have : m.key = me.key ∧ m.flags = me.flags ∧ m.aux = me.aux := by
      rcases hctx with rfl | ⟨-, -, rfl⟩ <;> exact ⟨rfl, rfl, rfl⟩
    cases r with
    | error e => exact ⟨fun _ => ⟨rfl, rfl⟩, this⟩
    | ok u => exact ⟨fun hne => absurd rfl hne, this⟩

example : (toyVerify 0 ((toyMsg true es256Hdr [] [0x68, 0x69]).set 8 0x6a)).res ≠ .ok () ∧
    ArgsOk .nil (.inline true) := ⟨by decide +kernel, rfl, by intro p h; cases h⟩

/-- **C20.** The whole outcome (result code, outputs, context) is the same for
every content of the uninitialised local variables. -/
theorem C20_no_uninitialised (j j' : Junk) :
    verifyInternal cfg P C j me msg aad pay want = verifyInternal cfg P C j' me msg aad pay want :=
  verify_junk j j'

/-- The path that reads an uninitialised variable: an empty array. -/
example : verifyInternal Config.full QParams.std toyCrypto ⟨.data [1], .data [2], .data [3]⟩
      (VerifyCtx.init 0) [0x80] .nil (.inline true) true =
    verifyInternal Config.full QParams.std toyCrypto noJunk
      (VerifyCtx.init 0) [0x80] .nil (.inline true) true :=
  C20_no_uninitialised _ _ _ _ _ _ _ _ _ _

/-- **C24 (safety).** No message makes verification access memory outside the
label lists or the tag array, or misuse a NULL buffer: the undefined-behaviour
flag is never set, whatever the outcome. -/
theorem C24_no_overrun (hP : P.maxTags ≤ 4) (hargs : ArgsOk aad pay) :
    (verifyInternal cfg P C junk me msg aad pay want).ub = false := by
  rcases verify_cases (cfg := cfg) (C := C) (junk := junk) (me := me) (msg := msg) (aad := aad)
    (pay := pay) (want := want) hP with ⟨x, -, h⟩ | ⟨x, tags, -, -, h⟩ |
      ⟨v, x, hv, -, hx, hc, hu, h⟩
  · rw [h]; rfl
  · rw [h]; rfl
  · rw [h]
    obtain ⟨hub, -, -⟩ := checkDecoded_inv (cfg := cfg) (C := C) (me := me.withTags v)
      (hx.wf hargs.1 hargs.2) hc hu
    generalize checkDecoded cfg C (me.withTags v) aad x = y at hub ⊢
    obtain ⟨r, m, b⟩ := y
    simp only at hub
    subst hub
    cases r <;> rfl

/-- Eleven unknown parameters: the list is full and its end is what stops the
search. -/
def elevenUnknown : List (Item × Item) := (List.range 11).map fun i => (.uint (100 + i), .uint i)

example : (toyVerify 0 (toyMsg true es256Hdr elevenUnknown [1])).res = .error .tooManyParameters ∧
    (toyVerify 0 (toyMsg true es256Hdr (elevenUnknown.take 10) [1])).res = .ok () := by
  decide +kernel

/-- **C41.** For every input the call ends with a result of the API (the model's
mark for an endless loop is never the outcome), as long as the adapter functions
return.  Every loop of the model runs on fuel given by the length of the input (or
the number of tags), so this also bounds the steps. -/
theorem C41_terminates (hP : P.maxTags ≤ 4) (hargs : ArgsOk aad pay) (hC : C.Returns) :
    (verifyInternal cfg P C junk me msg aad pay want).res ≠ .error .modelHang := by
  rcases verify_cases (cfg := cfg) (C := C) (junk := junk) (me := me) (msg := msg) (aad := aad)
    (pay := pay) (want := want) hP with ⟨x, hx, h⟩ | ⟨x, tags, hx, -, h⟩ |
      ⟨v, x, hv, -, hx, hc, hu, h⟩
  · rw [h]; simpa [VRes.fail] using hx
  · rw [h]; simpa [VRes.fail] using hx
  · rw [h]
    obtain ⟨-, hnh, -⟩ := checkDecoded_inv (cfg := cfg) (C := C) (me := me.withTags v)
      (hx.wf hargs.1 hargs.2) hc hu
    have := hnh hC
    generalize checkDecoded cfg C (me.withTags v) aad x = y at this ⊢
    obtain ⟨r, m, b⟩ := y
    cases r with
    | error e => simpa [VRes.fail] using this
    | ok u => simp

theorem toy_returns : toyCrypto.Returns where
  start a := by
    simp only [toyCrypto]
    split <;> simp
  finish h n := by
    simp only [toyCrypto]
    split <;> simp
  verify a k i h s := by
    simp only [toyCrypto]
    split <;> simp
  verifyEddsa k i t s := by
    simp only [toyCrypto]
    split <;> simp

example : toyCrypto.Returns ∧ ArgsOk .nil (.inline true) ∧
    (toyVerify 0 [0x9f, 0x9f, 0x9f]).res ≠ .ok () :=
  ⟨toy_returns, ⟨rfl, by intro p h; cases h⟩, by decide +kernel⟩

/-- Two contexts with the same key, options and auxiliary buffer. -/
structure SameSetup (me me' : VerifyCtx) : Prop where
  key : me'.key = me.key
  flags : me'.flags = me.flags
  aux : me'.aux = me.aux

theorem processTags_same {P : QParams} {me me' : VerifyCtx} (h : SameSetup me me') (d : Dec) :
    (processTags P me' d).1 = (processTags P me d).1 ∧
    (processTags P me' d).2.2 = (processTags P me d).2.2 ∧
    SameSetup (processTags P me d).2.1 (processTags P me' d).2.1 ∧
    ((processTags P me d).1 = .ok () →
      (processTags P me' d).2.1.auTags = (processTags P me d).2.1.auTags) := by
  unfold processTags
  simp only [h.flags]
  split
  · exact ⟨rfl, rfl, h, by simp⟩
  · split
    · exact ⟨rfl, rfl, h, by simp⟩
    · generalize tagLoop P d (P.maxTags + 1) 1 _ _ = x
      obtain ⟨r, tags, ub⟩ := x
      exact ⟨rfl, rfl, ⟨h.key, rfl, h.aux⟩, fun _ => rfl⟩

theorem checkDecoded_same {cfg : Config} {C : Crypto} {me me' : VerifyCtx} (h : SameSetup me me')
    (aad : UB) (x : Decoded) :
    (checkDecoded cfg C me' aad x).1 = (checkDecoded cfg C me aad x).1 ∧
    (checkDecoded cfg C me' aad x).2.2 = (checkDecoded cfg C me aad x).2.2 ∧
    SameSetup (checkDecoded cfg C me aad x).2.1 (checkDecoded cfg C me' aad x).2.1 ∧
    (me'.auTags = me.auTags → (checkDecoded cfg C me' aad x).2.1.auTags =
      (checkDecoded cfg C me aad x).2.1.auTags) := by
  obtain ⟨k, f, t, a, s⟩ := me
  obtain ⟨k', f', t', a', s'⟩ := me'
  obtain ⟨h1, h2, h3⟩ := h
  simp only at h1 h2 h3
  subst h1 h2 h3
  unfold checkDecoded
  simp only
  split
  · exact ⟨rfl, rfl, ⟨rfl, rfl, rfl⟩, id⟩
  · generalize (if hasFlag f' optUnknownCritAllowed then ((.ok () : Except Err Unit), false)
        else checkCritical x.crit x.unk) = y
    obtain ⟨cr, ub⟩ := y
    cases cr with
    | error e => exact ⟨rfl, rfl, ⟨rfl, rfl, rfl⟩, id⟩
    | ok u =>
      simp only
      split
      · exact ⟨rfl, rfl, ⟨rfl, rfl, rfl⟩, id⟩
      · split
        · unfold verifyEddsa
          simp only
          generalize createTbs x.prot.ub aad x.payload.ub a' = z
          obtain ⟨r, b⟩ := z
          cases r with
          | error e => cases e <;> exact ⟨rfl, rfl, ⟨rfl, rfl, rfl⟩, id⟩
          | ok tbs =>
            simp only
            split
            · exact ⟨rfl, rfl, ⟨rfl, rfl, rfl⟩, id⟩
            · split
              · exact ⟨rfl, rfl, ⟨rfl, rfl, rfl⟩, id⟩
              · exact ⟨rfl, rfl, ⟨rfl, rfl, rfl⟩, id⟩
        · exact ⟨rfl, rfl, ⟨rfl, rfl, rfl⟩, id⟩

/-- **C29 (verification).** What a verification returns depends on the context only
through key, options and auxiliary buffer: nothing left in it by an earlier call
(tags, reported size) matters.  The tags reported after a success do not depend on
it either. -/
theorem C29_verify_no_hidden_state (me' : VerifyCtx) (h : SameSetup me me') :
    (verifyInternal cfg P C junk me' msg aad pay want).res =
      (verifyInternal cfg P C junk me msg aad pay want).res ∧
    (verifyInternal cfg P C junk me' msg aad pay want).params =
      (verifyInternal cfg P C junk me msg aad pay want).params ∧
    (verifyInternal cfg P C junk me' msg aad pay want).payload =
      (verifyInternal cfg P C junk me msg aad pay want).payload ∧
    ((verifyInternal cfg P C junk me msg aad pay want).res = .ok () →
      (verifyInternal cfg P C junk me' msg aad pay want).ctx.auTags =
        (verifyInternal cfg P C junk me msg aad pay want).ctx.auTags) := by
  unfold verifyInternal
  simp only
  cases decodeErr ((Dec.init msg).enterArray P).err with
  | error e => exact ⟨rfl, rfl, rfl, by simp [VRes.fail]⟩
  | ok u =>
    simp only
    obtain ⟨h1, -, h3, h4⟩ := processTags_same (P := P) h ((Dec.init msg).enterArray P)
    generalize processTags P me ((Dec.init msg).enterArray P) = x at h1 h3 h4 ⊢
    generalize processTags P me' ((Dec.init msg).enterArray P) = x' at h1 h3 h4 ⊢
    obtain ⟨r, m, ub⟩ := x
    obtain ⟨r', m', ub'⟩ := x'
    simp only at h1 h3 h4
    subst h1
    cases r' with
    | error e => exact ⟨rfl, rfl, rfl, by simp [VRes.fail]⟩
    | ok u =>
      simp only
      generalize decodeBody cfg P ((Dec.init msg).enterArray P) pay junk = y
      obtain ⟨r, st⟩ := y
      cases r with
      | error e => exact ⟨rfl, rfl, rfl, by simp [VRes.fail]⟩
      | ok x =>
        simp only
        obtain ⟨k1, -, -, k4⟩ := checkDecoded_same (cfg := cfg) (C := C) h3 aad x
        generalize checkDecoded cfg C m aad x = z at k1 k4 ⊢
        generalize checkDecoded cfg C m' aad x = z' at k1 k4 ⊢
        obtain ⟨r, m2, b⟩ := z
        obtain ⟨r', m2', b'⟩ := z'
        simp only at k1 k4
        subst k1
        cases r' with
        | error e => exact ⟨rfl, rfl, rfl, by simp [VRes.fail]⟩
        | ok u => exact ⟨rfl, rfl, rfl, fun _ => k4 (h4 rfl)⟩

/-- In particular the context left by any other verification will do. -/
theorem C29_verify_reuse (hP : P.maxTags ≤ 4) (msg2 : Bytes)
    (aad2 : UB) (pay2 : VPayload) (want2 : Bool) (hargs2 : ArgsOk aad2 pay2) :
    (verifyInternal cfg P C junk (verifyInternal cfg P C junk me msg2 aad2 pay2 want2).ctx
        msg aad pay want).res =
      (verifyInternal cfg P C junk me msg aad pay want).res := by
  obtain ⟨-, h1, h2, h3⟩ := C19_outputs cfg P C junk me msg2 aad2 pay2 want2 hP hargs2
  exact (C29_verify_no_hidden_state cfg P C junk me msg aad pay want _ ⟨h1, h2, h3⟩).1

example : SameSetup (VerifyCtx.init 0) (toyVerify 0 taggedMsg).ctx ∧
    (toyVerify 0 taggedMsg).ctx ≠ VerifyCtx.init 0 := ⟨⟨by decide +kernel, by decide +kernel,
      by decide +kernel⟩, by decide +kernel⟩

end TCose.Props
