import Verif.Props.AnyAdapters
import Verif.Props.WellFormed

/-!
# C90: exactly which octet strings are accepted

C62 and C63 say what an accepted string is, C89 how what QCBOR reads as an item
is verified.  Together: a condition for acceptance that is necessary and sufficient, for
every octet string.
-/

namespace TCose.Props
open TCose Spec

variable (cfg : Config) (P : QParams) (C : Crypto) (D : Int → Bytes → Bytes) (junk : Junk)
  (me : VerifyCtx) (msg msg' : Bytes) (aad : UB) (pay : VPayload) (want : Bool)

/-- The octets are read as one item, which is an array, in spite of tags.  The tags are as the policy
wants them, the four elements are as they have to be, and `f` is what is in them. -/
def IsSign1 (noCt : Bool) (flags : Nat) (det : Option Bytes) (msg : Bytes) (f : Found4) : Prop :=
  msg.length ≤ maxMessage ∧ ∃ x xs hp, Reads P.maxTags 15 x msg ∧ arrayOf P x = .ok xs ∧
    TagPolicy flags x.tagList.reverse ∧ ProtectedIn P f.prot hp ∧
    readArray P noCt det xs hp false = .ok f

variable {P} in
/-- An accepted string is read as an item, with something in its first element. -/
theorem accepted_reads {cfg : Config} {C : Crypto} {junk : Junk} {me : VerifyCtx} {msg : Bytes} {aad : UB}
    {pay : VPayload} {want : Bool} (hP : P.maxTags ≤ 4)
    (h : (verifyInternal cfg P C junk me msg aad pay want).res = .ok ()) :
    msg.length ≤ maxMessage ∧ ∃ x hp, Reads P.maxTags 15 x msg ∧ HeaderIn P x hp := by
  obtain ⟨v, x, me', ub, hacc, heq⟩ := verify_ok hP h
  obtain ⟨S, hS, -⟩ := seen_of_view hacc.view
  obtain ⟨us, hw⟩ := hS.whole
  have hin : ∀ hp, ProtectedIn P S.pb hp → HeaderIn P (tagged S.tags (.arr (.bstr S.pb ::
      tagged us (.map S.unprot) :: S.payload :: .bstr S.sig :: S.extra))) hp := by
    intro hp hp' xs pb hx h0
    rw [arrayOf_tagged] at hx
    split at hx
    · cases hx
    · cases hx
      cases h0
      exact hp'
  refine ⟨hacc.view.1, ?_⟩
  rcases hS.prot with ⟨h1, -⟩ | ⟨vs, b, rest, h1, h2⟩
  · exact ⟨_, .ok [], hw, hin _ (.inl ⟨h1, rfl⟩)⟩
  · exact ⟨_, _, hw, hin _ (.inr ⟨_, b, rest, h1, h2, rfl⟩)⟩

theorem itemOutcome_ok {cfg : Config} {C : Crypto} {me : VerifyCtx} {x : Item} {aad : UB} {pay : VPayload}
    {hp : Except Err Header} {more : Bool} {digest : Found4 → Int → Except Err Bytes} :
    itemOutcome cfg P C me x aad pay hp more digest = .ok () ↔
      ∃ xs f, arrayOf P x = .ok xs ∧ TagPolicy me.flags x.tagList.reverse ∧
        readArray P cfg.disableContentType pay.octets xs hp more = .ok f ∧
        settle cfg C me f.known (digest f) (sigStructure f.prot aad.bytes f.payload) f.sig = .ok () := by
  unfold itemOutcome
  constructor
  · intro h
    split at h
    · cases h
    rename_i xs hx
    split at h
    · cases h
    rename_i hpol
    split at h
    · cases h
    rename_i f hf
    exact ⟨xs, f, hx, by simpa using hpol, hf, h⟩
  · rintro ⟨xs, f, hx, hpol, hf, h⟩
    rw [hx]
    simp only
    rw [if_neg (by simpa using hpol), hf]
    exact h

theorem accepts_run (hP : P.maxTags ≤ 4) (hl : P.Local) (hargs : ArgsOk aad pay) :
    (verifyInternal cfg P C junk me msg aad pay want).res = .ok () ↔
      ∃ f, IsSign1 P cfg.disableContentType me.flags pay.octets msg f ∧
        settle cfg C me f.known (fun alg => createTbsHash cfg C alg (.data f.prot) aad
          (pay.buffer f.payload) (maxHashSize cfg)) (sigStructure f.prot aad.bytes f.payload) f.sig =
            .ok () := by
  constructor
  · intro h
    obtain ⟨hlen, x, hp, hr, hh⟩ := accepted_reads hP h
    have e := item_run cfg P C junk me x msg [] aad pay hp want hP hl hr (by simpa using hlen) hh hargs
    rw [List.append_nil, h] at e
    obtain ⟨xs, f, h1, h2, h3, h4⟩ := (itemOutcome_ok P).mp e.symm
    have h0 := ((readArray_ok P).mp h3).1
    exact ⟨f, ⟨hlen, x, xs, hp, hr, h1, h2, hh xs _ h1 h0, h3⟩, h4⟩
  · rintro ⟨f, ⟨hlen, x, xs, hp, hr, h1, h2, h0, h3⟩, h4⟩
    have hh : HeaderIn P x hp := by
      intro ys pb hy hy0
      rw [h1] at hy
      cases hy
      rw [((readArray_ok P).mp h3).1] at hy0
      cases hy0
      exact h0
    have e := item_run cfg P C junk me x msg [] aad pay hp want hP hl hr (by simpa using hlen) hh hargs
    rw [List.append_nil] at e
    rw [e]
    exact (itemOutcome_ok P).mpr ⟨xs, f, h1, h2, h3, h4⟩

/-- What is settled depends on what is hashed only. -/
theorem sign1_settle {f : Found4} {digest : Int → Except Err Bytes}
    (hf : IsSign1 P cfg.disableContentType me.flags pay.octets msg f) (hargs : ArgsOk aad pay)
    (hd : (pay.buffer f.payload).bytes = f.payload → (pay.buffer f.payload).wf →
      createTbsHash cfg C f.known.alg (.data f.prot) aad (pay.buffer f.payload) (maxHashSize cfg) =
        digest f.known.alg) :
    settle cfg C me f.known (fun alg => createTbsHash cfg C alg (.data f.prot) aad
          (pay.buffer f.payload) (maxHashSize cfg)) (sigStructure f.prot aad.bytes f.payload) f.sig =
      settle cfg C me f.known digest (sigStructure f.prot aad.bytes f.payload) f.sig := by
  obtain ⟨-, x, xs, hp, -, -, -, -, h3⟩ := hf
  refine settle_digest cfg C me (hd (payloadAt_buffer ((readArray_ok P).mp h3).2.1) ?_) _ _
  cases pay with
  | inline w => rfl
  | detached p => exact hargs.2 p rfl

/-- **C90.** An octet string is accepted exactly if it is read as one item with an array of the
right kind, and what is in it settles so: the key id is there if it is required, no critical parameter
is unknown, and the signature is the right one for the octets of the first element, the external data
and the payload. -/
theorem C90_accepts (hP : P.maxTags ≤ 4) (hl : P.Local) (hargs : ArgsOk aad pay) {N : Nat}
    (hN : ∀ f, IsSign1 P cfg.disableContentType me.flags pay.octets msg f →
      PiecesUpTo N f.prot aad.bytes f.payload ∧ ∀ ha, hashFor cfg f.known.alg = some ha →
        HashesUpTo N C ha (digestRoom cfg) (D ha)) :
    (verifyInternal cfg P C junk me msg aad pay want).res = .ok () ↔
      ∃ f, IsSign1 P cfg.disableContentType me.flags pay.octets msg f ∧
        settle cfg C me f.known (digestOf cfg D (sigStructure f.prot aad.bytes f.payload))
          (sigStructure f.prot aad.bytes f.payload) f.sig = .ok () := by
  rw [accepts_run cfg P C junk me msg aad pay want hP hl hargs]
  refine exists_congr fun f => and_congr_right fun hf => ?_
  rw [sign1_settle cfg P C me msg aad pay hf hargs]
  intro hpb hpw
  obtain ⟨hN, hD⟩ := hN f hf
  unfold digestOf
  cases hh' : hashFor cfg f.known.alg with
  | none => rw [createTbsHash_eq, if_pos (hashFor_none.mp hh')]
  | some h =>
    obtain ⟨g1, g2⟩ := hashFor_some hh'
    have hd : HashesUpTo N C (hashAlgOfSigAlg cfg f.known.alg) (maxHashSize cfg) (D h) := by
      rw [g1, maxHashSize_eq]; exact hD h hh'
    rw [createTbsHash_works (p := .data f.prot) g2 hd rfl hargs.1 hpw (by rw [hpb]; exact hN), hpb]
    rfl

/-- **C90 (decode only).** When only decoding was asked for, nothing is to be supposed of the
adapter: accepted is what has the form, with the key id if it is required, without unknown critical
parameters and, if the algorithm is EdDSA, with room for what would be signed. -/
theorem C90_decode_only (hP : P.maxTags ≤ 4) (hl : P.Local) (hargs : ArgsOk aad pay)
    (ho : Spec.Opt.decodeOnly me.flags = true) :
    (verifyInternal cfg P C junk me msg aad pay want).res = .ok () ↔
      ∃ f, IsSign1 P cfg.disableContentType me.flags pay.octets msg f ∧
        (Spec.Opt.requireKid me.flags = true → f.known.kid ≠ none) ∧
        (Spec.Opt.unknownCritAllowed me.flags = false → ¬ f.known.blocked) ∧
        (cfg.disableEDDSA = false → f.known.alg = algEDDSA →
          (cfg.disableShortCircuit = false ∧ f.known.kid = some scKid) ∨
          (sigStructure f.prot aad.bytes f.payload).length ≤ me.aux.cap) := by
  rw [accepts_run cfg P C junk me msg aad pay want hP hl hargs]
  refine exists_congr fun f => and_congr_right fun hf => ?_
  unfold settle
  by_cases h1 : Spec.Opt.requireKid me.flags = true ∧ f.known.kid = none
  · rw [if_pos h1]
    exact ⟨nofun, fun h => absurd h1.2 (h.1 h1.1)⟩
  rw [if_neg h1]
  have h1' : Spec.Opt.requireKid me.flags = true → f.known.kid ≠ none := fun a b => h1 ⟨a, b⟩
  by_cases h2 : Spec.Opt.unknownCritAllowed me.flags = false ∧ f.known.blocked
  · rw [if_pos h2]
    exact ⟨nofun, fun h => absurd h2.2 (h.2.1 h2.1)⟩
  rw [if_neg h2]
  have h2' : Spec.Opt.unknownCritAllowed me.flags = false → ¬ f.known.blocked := fun a b => h2 ⟨a, b⟩
  by_cases h3 : cfg.disableShortCircuit = false ∧ f.known.kid = some scKid
  · rw [if_pos h3, if_pos ho]
    exact ⟨fun _ => ⟨h1', h2', fun _ _ => .inl h3⟩, fun _ => rfl⟩
  rw [if_neg h3]
  by_cases h4 : cfg.disableEDDSA = false ∧ f.known.alg = algEDDSA
  · rw [if_pos h4]
    by_cases h5 : me.aux.cap < (sigStructure f.prot aad.bytes f.payload).length
    · rw [if_pos h5]
      exact ⟨nofun, fun h => (h.2.2 h4.1 h4.2).elim (absurd · h3) fun h => by omega⟩
    · rw [if_neg h5, if_pos ho]
      exact ⟨fun _ => ⟨h1', h2', fun _ _ => .inr (by omega)⟩, fun _ => rfl⟩
  · rw [if_neg h4, if_pos ho]
    exact ⟨fun _ => ⟨h1', h2', fun a b => absurd ⟨a, b⟩ h4⟩, fun _ => rfl⟩

/-- **C90 (test adapter).** With the test adapter nothing is left to suppose but sizes. -/
theorem C90_test (mode : Nat) (fresh : Bytes) (hfr : fresh.length = 64) (hP : P.maxTags ≤ 4)
    (hl : P.Local) (hargs : ArgsOk aad pay)
    (hN : ∀ f, IsSign1 P cfg.disableContentType me.flags pay.octets msg f →
      PiecesUpTo (2 ^ 32 - 1) f.prot aad.bytes f.payload) :
    (verifyInternal cfg P (testCrypto cfg mode fresh) junk me msg aad pay want).res = .ok () ↔
      ∃ f, IsSign1 P cfg.disableContentType me.flags pay.octets msg f ∧
        settle cfg (testCrypto cfg mode fresh) me f.known
          (testDigest cfg mode (sigStructure f.prot aad.bytes f.payload))
          (sigStructure f.prot aad.bytes f.payload) f.sig = .ok () := by
  rw [accepts_run cfg P _ junk me msg aad pay want hP hl hargs]
  refine exists_congr fun f => and_congr_right fun hf => ?_
  rw [sign1_settle cfg P _ me msg aad pay hf hargs]
  intro hpb hpw
  rw [test_tbs_hash cfg mode fresh hfr f.known.alg (p := .data f.prot) rfl hargs.1 hpw
    (by rw [hpb]; exact hN f hf), hpb]
  rfl

/-- **C90 (refused).** What is not read as one item is refused, whatever the options, the key and
the adapter. -/
theorem C90_unreadable (hP : P.maxTags ≤ 4) (h : ∀ x, ¬ Reads P.maxTags 15 x msg) :
    (verifyInternal cfg P C junk me msg aad pay want).res ≠ .ok () := fun h' => by
  obtain ⟨-, x, -, hr, -⟩ := accepted_reads hP h'
  exact h x hr

theorem IsSign1.decodes {P : QParams} {noCt : Bool} {flags : Nat} {det : Option Bytes} {msg : Bytes}
    {f : Found4} (hl : P.Local) (hf : IsSign1 P noCt flags det msg f) (cfg : Config)
    (hc : cfg.disableContentType = noCt) (pay : VPayload) (hp : pay.octets = det) :
    ∃ v x, IsView P msg v ∧ bodyFn cfg P v pay = .ok x ∧
        KnownIs f.known x.params x.crit x.unk ∧ x.prot.ub = .data f.prot ∧
        x.sig.ub = .data f.sig ∧ x.payload.ub = pay.buffer f.payload ∧
        (pay.buffer f.payload).bytes = f.payload := by
  obtain ⟨hlen, x, xs, hp', hr, h1, -, h0, h3⟩ := hf
  have hh : HeaderIn P x hp' := by
    intro ys pb hy hy0
    rw [h1] at hy
    cases hy
    rw [((readArray_ok P).mp h3).1] at hy0
    cases hy0
    exact h0
  obtain ⟨-, -, -, key⟩ := item_array (cfg := cfg) (junk := ⟨.nil, .nil, .nil⟩) (pay := pay) (r := []) hl hr
    (by simpa using hlen) hh h1
  rw [hc, hp] at key
  have h3' : readArray P noCt det xs hp' (!([] : Bytes).isEmpty) = .ok f := h3
  rw [h3', List.append_nil] at key
  obtain ⟨v, x', k1, -, k⟩ := key
  exact ⟨v, x', k1, k⟩

/-- **C90 (unique).** What a string is taken for is settled by its octets: the octets that are
authenticated, the signature, the parameters, the labels in crit up to a 0, and the labels of
parameters that are not known. -/
theorem C90_unique (hl : P.Local) {noCt : Bool} {flags flags' : Nat}
    {det : Option Bytes} {f g : Found4} (hf : IsSign1 P noCt flags det msg f)
    (hg : IsSign1 P noCt flags' det msg g) :
    f.prot = g.prot ∧ f.payload = g.payload ∧ f.sig = g.sig ∧
    f.known = { g.known with critInts := f.known.critInts } ∧
    f.known.critInts.takeWhile (· != 0) = g.known.critInts.takeWhile (· != 0) := by
  obtain ⟨pay, hp⟩ : ∃ pay : VPayload, pay.octets = det := by
    cases det with
    | none => exact ⟨.inline false, rfl⟩
    | some b => exact ⟨.detached (.data b), rfl⟩
  obtain ⟨v, x, h1, h2, h3, h4, h5, h6, h7⟩ :=
    hf.decodes hl { Config.full with disableContentType := noCt } rfl pay hp
  obtain ⟨w, y, k1, k2, k3, k4, k5, k6, k7⟩ :=
    hg.decodes hl { Config.full with disableContentType := noCt } rfl pay hp
  rw [h1.unique k1, k2] at h2
  cases h2
  rw [k4] at h4
  rw [k5] at h5
  rw [k6] at h6
  refine ⟨(UB.data.inj h4).symm, by rw [← h7, ← k7, h6], (UB.data.inj h5).symm, ?_, ?_⟩
  · obtain ⟨ts, e1, e2⟩ := h3.crit
    obtain ⟨ts', e1', e2'⟩ := k3.crit
    obtain ⟨us, d1, d2, d3⟩ := h3.unk
    obtain ⟨us', d1', d2', d3'⟩ := k3.unk
    have ct : f.known.ctNum = g.known.ctNum := by
      have a := h3.ctNum
      rw [k3.ctNum] at a
      have b := h3.ctSmall
      have c := k3.ctSmall
      cases hf : f.known.ctNum <;> cases hg : g.known.ctNum <;> rw [hf, hg] at a
      · have := c _ hg; simp at a; omega
      · have := b _ hf; simp at a; omega
      · simpa using a.symm
    have ctx : f.known.critTexts = g.known.critTexts := by
      rw [← e2, ← e2', ← mkLL_tstrPrefix f.known.critInts ts, ← e1, e1', mkLL_tstrPrefix]
    have htx : f.known.texts = g.known.texts := by
      rw [← d2, ← d2', ← mkLL_tstrPrefix f.known.ints us, ← d1, d1', mkLL_tstrPrefix]
    have hin : f.known.ints = g.known.ints := by
      have : f.known.ints.takeWhile (· != 0) = g.known.ints.takeWhile (· != 0) := by
        rw [← mkLL_intPrefix f.known.ints us, ← d1, d1', mkLL_intPrefix]
      have all : ∀ l : List Int, 0 ∉ l → l.takeWhile (· != 0) = l := by
        intro l h
        induction l with
        | nil => rfl
        | cons a l ih =>
          simp only [List.mem_cons, not_or] at h
          rw [List.takeWhile_cons_of_pos (by simpa using Ne.symm h.1), ih h.2]
      rwa [all _ d3.2.1, all _ d3'.2.1] at this
    have e : ∀ k k' : Known, k.alg = k'.alg → k.kid = k'.kid → k.iv = k'.iv → k.partialIv = k'.partialIv →
        k.ctText = k'.ctText → k.ctNum = k'.ctNum → k.critTexts = k'.critTexts → k.ints = k'.ints →
        k.texts = k'.texts → k = { k' with critInts := k.critInts } := by
      rintro ⟨⟩ ⟨⟩
      simp only
      rintro rfl rfl rfl rfl rfl rfl rfl rfl rfl
      rfl
    exact e _ _ (by rw [← h3.alg, k3.alg]) (by rw [← h3.kid, k3.kid]) (by rw [← h3.iv, k3.iv])
      (by rw [← h3.partialIv, k3.partialIv]) (by rw [← h3.ctText, k3.ctText]) ct ctx hin htx
  · obtain ⟨ts, e1, e2⟩ := h3.crit
    obtain ⟨ts', e1', e2'⟩ := k3.crit
    rw [← mkLL_intPrefix f.known.critInts ts, ← e1, e1', mkLL_intPrefix]

/-- An array with something in its unprotected header that is no CBOR: parameter 70 has as value
an octet that begins no item. -/
def brokenItem : Item := .arr [.bstr [], .map [(.uint 70, notItem)], .bstr [1], .bstr [2]]

/-- Its octets. -/
def brokenEnc : Bytes := [0x84, 0x40, 0xa1, 0x18, 0x46, 0x1c, 0x41, 1, 0x41, 2]

theorem broken_reads : Reads 4 15 brokenItem brokenEnc := by
  refine .arr (h := [0x84]) (bss := [[0x40], [0xa1, 0x18, 0x46, 0x1c], [0x41, 1], [0x41, 2]]) (by decide)
    (.direct (by decide)) ?_
  refine .cons (.bstr (h := [0x40]) (.direct (by decide))) (.cons ?_
    (.cons (.bstr (h := [0x41]) (.direct (by decide)))
    (.cons (.bstr (h := [0x41]) (.direct (by decide))) .nil)))
  refine .map (h := [0xa1]) (bss := [[0x18, 0x46, 0x1c]]) (by decide) (.direct (by decide)) ?_
  refine .cons (a := [0x18, 0x46]) (b := [0x1c]) ⟨[], .uint 70, rfl, by decide, rfl, nofun⟩
    (.uint (.wide 0 (by decide) (by decide))) (.notCbor (.reserved (by decide) (by decide))) .nil

/-- The condition of C90, met by octets that are no CBOR at all; and they are accepted if only
decoding is asked for. -/
example : IsSign1 QParams.std false 8 none brokenEnc
      ⟨⟨0, none, none, none, none, none, [], [], [70], []⟩, [], [1], [2]⟩ ∧
    brokenItem.clean = false ∧ (toyVerify 8 brokenEnc).res = .ok () := by
  refine ⟨⟨by decide, brokenItem, _, .ok [], broken_reads, rfl, ?_, .inl ⟨rfl, rfl⟩, rfl⟩, by decide,
    by decide +kernel⟩
  exact ⟨by decide, by decide⟩

end TCose.Props
