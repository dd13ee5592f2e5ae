import Verif.Lemmas.SeenHeader
import Verif.Lemmas.Scan
import Verif.Props.Header

/-!
# C62, C63: accepted messages as CBOR

Success of verification is stated here about the CBOR items in the message
(`Spec.Seen`, `Spec.Reads`), not about the message laid open by the decoder.
-/

namespace TCose.Props
open TCose Spec

variable (cfg : Config) (P : QParams) (C : Crypto) (junk : Junk) (me : VerifyCtx)
  (msg : Bytes) (aad : UB) (pay : VPayload) (want : Bool)

/-- The parameters returned are those in the headers: the algorithm from the protected
header (32 bits of it; 0 if there is none); kid, iv and partial iv from either header,
there at most once; and a single content type. Crit is in the protected header, once, a
non-empty list of integers and texts. All labels are integers or texts. -/
structure ParamsSeen (cfg : Config) (S : Seen) (p : Params) : Prop where
  labels : ∀ kv ∈ S.params, kv.1.bare.number ≠ none ∨ kv.1.bare.text ≠ none
  alg : valuesOf 1 S.unprot = [] ∧ ((valuesOf 1 S.prot = [] ∧ p.alg = 0) ∨
    ∃ x i, valuesOf 1 S.prot = [x] ∧ x.number = some i ∧ i ≠ 0 ∧ i ≤ 2147483647 ∧
      Int32Of i p.alg)
  crit : valuesOf 2 S.unprot = [] ∧ (valuesOf 2 S.prot = [] ∨ ∃ xs,
    valuesOf 2 S.prot = [.arr xs] ∧ xs ≠ [] ∧
      ∀ x ∈ xs, x.bare.number ≠ none ∨ x.bare.text ≠ none)
  kid : valuesOf 4 S.params = p.kid.toList.map fun s => .bstr s.bytes
  iv : valuesOf 5 S.params = p.iv.toList.map fun s => .bstr s.bytes
  partialIv : valuesOf 6 S.params = p.partialIv.toList.map fun s => .bstr s.bytes
  ct : cfg.disableContentType = false →
    (valuesOf 3 S.prot).length ≤ 1 ∧ (valuesOf 3 S.unprot).length ≤ 1 ∧
    (∀ x ∈ valuesOf 3 S.params, (∃ t, x = .tstr t) ∨ ∃ n, x = .uint n ∧ n ≤ 65535) ∧
    (valuesOf 3 S.params = [] → p.ctTstr = none ∧ p.ctUint = 65536) ∧
    (∀ t, valuesOf 3 S.params = [.tstr t] → p.ctTstr.map (·.bytes) = some t ∧ p.ctUint = 65536) ∧
    (∀ n, valuesOf 3 S.params = [.uint n] → p.ctTstr = none ∧ p.ctUint = n)

/-- The payload element: a byte string with no tags if it is expected in the message,
else null. -/
def PayloadSeen (pay : VPayload) (S : Seen) (payload : Bytes) : Prop :=
  match pay with
  | .inline _ => S.payload = .bstr payload
  | .detached p => S.payload.bare = .null ∧ payload = p.bytes

theorem number_small {x : Item} {i : Int} (h : x.number = some i) (h0 : 0 ≤ i) (h1 : i ≤ 65535) :
    ∃ n, x = .uint n ∧ n ≤ 65535 ∧ i = n := by
  cases x <;> simp only [Item.number, Option.some.injEq, reduceCtorEq] at h
  · rename_i n; exact ⟨n, rfl, by omega, h.symm⟩
  · omega

theorem paramsSeen_of {v : MsgView} {x : Decoded} {p1 : Params} {S : Seen}
    (hm : HeadersMean cfg P v x p1) (hs : SeenAs P v S)
    (hlab : ∀ e ∈ v.entries, (∃ i, e.label = some (.int i)) ∨ ∃ s, e.label = some (.tstr s)) :
    ParamsSeen cfg S x.params := by
  refine ⟨?_, ?_, ?_, ?_, ?_, ?_, ?_⟩
  · have key : ∀ {r : Nat} {es : List Entry} {ps : List (Item × Item)},
        Each (Shows P r true) es ps →
        (∀ e ∈ es, (∃ i, e.label = some (.int i)) ∨ ∃ s, e.label = some (.tstr s)) →
        ∀ kv ∈ ps, kv.1.bare.number ≠ none ∨ kv.1.bare.text ≠ none := by
      intro r es ps he hl kv hkv
      obtain ⟨e, hee, hsh⟩ := each_mem he hkv
      obtain ⟨k1, -, -⟩ := hsh.split
      rcases hl e hee with ⟨i, hi⟩ | ⟨s, hs⟩
      · rcases k1 with ⟨lv, ts, k0, h1, h2, h3, h4⟩ | ⟨h1, -⟩
        · rw [hi] at h1
          cases h1
          rw [h2, bare_tagged (bare_label h4), atomIs_number h3]
          exact .inl (by simp)
        · rw [hi] at h1; cases h1
      · rw [k1.tstr hs]
        exact .inr (by simp [Item.text])
    intro kv hkv
    rcases List.mem_append.mp hkv with h | h
    · exact key hs.prot (fun e he => hlab e (List.mem_append_left _ he)) kv h
    · exact key hs.unprot (fun e he => hlab e (List.mem_append_right _ he)) kv h
  · obtain ⟨ha, hb⟩ := hm.alg
    constructor
    · rcases values_cases hs.unprot (i := 1) (by omega) (hm.unprot.once 1 (by simp)) with
        ⟨h, -⟩ | ⟨e, he, hl, -⟩
      · exact h
      · exact absurd hl (ha e he)
    · rcases values_cases hs.prot (i := 1) (by omega) (hm.prot.once 1 (by simp)) with
        ⟨h, hn⟩ | ⟨e, he, hl, y, h, hy⟩
      · refine .inl ⟨h, ?_⟩
        rw [hm.unprot.noAlg ha, hm.prot.noAlg hn]
        rfl
      · obtain ⟨-, i, hi, h0, h1, h2⟩ := hm.prot.alg e he hl
        refine .inr ⟨y, i, h, hy.int hi, h0, h1, ?_⟩
        rw [hm.unprot.noAlg ha, h2]
        exact toInt32_of i
  · constructor
    · rcases values_cases hs.unprot (i := 2) (by omega) (by
        rw [(filter_key_nil (es := v.unprotEntries) (i := 2)).mpr hm.noCrit]; simp) with
        ⟨h, -⟩ | ⟨e, he, hl, -⟩
      · exact h
      · exact absurd hl (hm.noCrit e he)
    · rcases hm.crit.mean with ⟨hno, -⟩ | ⟨e, k, ces, cEnd, h1, h2, h3, h4, h5, -, -, h8, h9⟩
      · rcases values_cases hs.prot (i := 2) (by omega) (by
          rw [(filter_key_nil (es := v.protEntries) (i := 2)).mpr hno]; simp) with
          ⟨h, -⟩ | ⟨e, he, hl, -⟩
        · exact .inl h
        · exact absurd hl (hno e he)
      · rcases values_cases hs.prot (i := 2) (by omega) (by rw [h1]; simp) with
          ⟨h, -⟩ | ⟨e', he', hl', y, h, hy⟩
        · exact .inl h
        · have heq : e' = e := by
            have : e' ∈ v.protEntries.filter (fun e => decide (e.key = some 2)) :=
              List.mem_filter.mpr ⟨he', by simpa using key_iff.mpr hl'⟩
            rw [h1] at this
            exact List.mem_singleton.mp this
          subst heq
          have hces : ces ≠ [] := by
            intro hnil
            subst hnil
            rw [h8] at h9
            exact absurd h9 (by decide)
          rcases hy with (hy | hy) | ⟨-, ps, rfl, hy⟩
          · rw [h3] at hy; cases y <;> simp only [AtomIs] at hy
            · split at hy <;> cases hy
            · cases hy
            · obtain ⟨o, hy⟩ := hy; cases hy
            · obtain ⟨o, hy⟩ := hy; cases hy
            all_goals cases hy
          · rw [h3] at hy; cases hy
          · rw [h3] at hy h
            have hlen : k ≠ some 0 := by
              intro hk
              subst hk
              cases h4
              exact hces rfl
            rcases hy with ⟨hc, -⟩ | ⟨r', es, c', hr, hel, hea⟩
            · exact absurd hc hlen
            · have hr : r' = 11 := by omega
              subst hr
              have hel : elements P false 11 k e'.cur = .ok (es, c') := hel
              rw [show (12 - 1 : Nat) = 11 from rfl, hel] at h4
              cases h4
              refine .inr ⟨ps.map Prod.snd, h, ?_, ?_⟩
              · intro hnil
                rw [List.map_eq_nil_iff] at hnil
                subst hnil
                cases hea
                exact hces rfl
              · intro z hz
                obtain ⟨p, hp, rfl⟩ := List.mem_map.mp hz
                obtain ⟨ce, hce, hsh⟩ := each_mem hea hp
                obtain ⟨-, k2, -⟩ := hsh.split
                rcases (h5 ce hce).2 with ⟨i, hi⟩ | ⟨s, hs⟩
                · exact .inl (by rw [k2.int hi]; simp)
                · exact .inr (by rw [k2.tstr hs]; simp [Item.text])
  · exact bstr_seen hs.prot hs.unprot (by omega) (hm.prot.once 4 (by simp))
      (hm.unprot.once 4 (by simp)) (fun h => hm.prot.noKid h) (fun e he hl => (hm.prot.kid e he hl).2)
      (fun h => hm.unprot.noKid h) (fun e he hl => hm.unprot.kid e he hl)
  · exact bstr_seen hs.prot hs.unprot (by omega) (hm.prot.once 5 (by simp))
      (hm.unprot.once 5 (by simp)) (fun h => hm.prot.noIv h) (fun e he hl => (hm.prot.iv e he hl).2)
      (fun h => hm.unprot.noIv h) (fun e he hl => hm.unprot.iv e he hl)
  · exact bstr_seen hs.prot hs.unprot (by omega) (hm.prot.once 6 (by simp))
      (hm.unprot.once 6 (by simp)) (fun h => hm.prot.noPiv h) (fun e he hl => (hm.prot.piv e he hl).2)
      (fun h => hm.unprot.noPiv h) (fun e he hl => hm.unprot.piv e he hl)
  · intro hct
    -- one header: no content type, or one with the fields as given
    have one : ∀ {r : Nat} {b : Bool} {es : List Entry} {ps : List (Item × Item)} {q q' : Params},
        Each (Shows P r true) es ps → HeaderFacts cfg b es q q' →
        (valuesOf 3 ps = [] ∧ q'.ctTstr = q.ctTstr ∧ q'.ctUint = q.ctUint) ∨
        (∃ s : Str, valuesOf 3 ps = [.tstr s.bytes] ∧ q'.ctTstr = some s ∧ q'.ctUint = q.ctUint) ∨
        ∃ n, valuesOf 3 ps = [.uint n] ∧ n ≤ 65535 ∧ q'.ctTstr = q.ctTstr ∧ q'.ctUint = n := by
      intro r b es ps q q' he hf
      rcases values_cases he (i := 3) (by omega) (hf.once 3 (by simp)) with
        ⟨h, hn⟩ | ⟨e, hee, hl, y, h, hy⟩
      · exact .inl ⟨h, hf.noCt (.inr hn)⟩
      · rcases hf.ct hct e hee hl with ⟨s, hv, -, h3, h4⟩ | ⟨i, hv, h0, h1, -, h3, h4⟩
        · exact .inr (.inl ⟨s, by rw [h, hy.tstr hv], h3, h4⟩)
        · obtain ⟨n, rfl, hn, rfl⟩ := number_small (hy.int hv) h0 h1
          exact .inr (.inr ⟨n, h, hn, h4, by rw [h3]; rfl⟩)
    have o1 := one hs.prot hm.prot
    have o2 := one hs.unprot hm.unprot
    have c1 : Params.clear.ctTstr = none := rfl
    have c2 : Params.clear.ctUint = 65536 := rfl
    rw [c1, c2] at o1
    rw [show S.params = S.prot ++ S.unprot from rfl, valuesOf_append]
    rcases o1 with ⟨a1, a2, a3⟩ | ⟨s, a1, a2, a3⟩ | ⟨n, a1, an, a2, a3⟩ <;>
    rcases o2 with ⟨b1, b2, b3⟩ | ⟨t, b1, b2, b3⟩ | ⟨k, b1, bn, b2, b3⟩ <;>
    rw [a1, b1, b2, b3] <;> simp [a2, a3] <;> first | done | omega | skip

/-- **C63.** On success the message is read as an array with a protected header, an
unprotected header, a payload and a signature; the parameters returned are those in the
headers; the payload is the third element (or, detached, what the caller passed); and,
unless only decoding was asked for or the message is a short-circuit one in a build that
takes them, the crypto adapter accepted the fourth element as signature over the
Sig_structure made with the octets of the first. -/
theorem C63_seen (D : Int → Bytes → Bytes) (hD : StreamHash C D)
    (hP : P.maxTags ≤ 4) (hargs : ArgsOk aad pay)
    (h : (verifyInternal cfg P C junk me msg aad pay want).res = .ok ()) :
    ∃ S : Seen, S.In P.maxTags msg ∧ ∃ p payload,
      (verifyInternal cfg P C junk me msg aad pay want).params =
        (if want then some p else none) ∧
      ParamsSeen cfg S p ∧ PayloadSeen pay S payload ∧
      (pay = .inline true → ∃ b, (verifyInternal cfg P C junk me msg aad pay want).payload = some b
        ∧ b.ub = .data payload) ∧
      (Spec.Opt.decodeOnly me.flags = false →
        (cfg.disableShortCircuit = true ∨ valuesOf 4 S.params ≠ [.bstr scKid]) →
        ∃ x i a, valuesOf 1 S.prot = [x] ∧ x.number = some i ∧ Int32Of i a ∧
          CryptoAccepted cfg C D me.key a (p.kid.map (·.bytes))
            (sigStructure S.pb aad.bytes payload) S.sig) := by
  obtain ⟨v, x, me', ub, hacc, heq⟩ := verify_ok hP h
  obtain ⟨p1, hm⟩ := hacc.decodes.headersMean
  obtain ⟨S, hS, hs⟩ := seen_of_view hacc.view
  have hlab : ∀ e ∈ v.entries, (∃ i, e.label = some (.int i)) ∨ ∃ s, e.label = some (.tstr s) := by
    obtain ⟨v', hv', -, -, hl⟩ := C24_limits cfg P C junk me msg aad pay want hP h
    rw [hacc.view.unique hv']
    exact hl
  have hps := paramsSeen_of cfg P hm hs hlab
  refine ⟨S, hS, x.params, x.payload.ub.bytes, by rw [heq], hps, ?_, ?_, ?_⟩
  · have hpay := isPayload_of hacc.decodes
    obtain ⟨e, he, k, hsh⟩ := hs.payload
    cases pay with
    | inline w =>
      obtain ⟨s, h1, h2, h3⟩ := hpay
      have := strOnly hsh (s := s) (by rw [he, h1, h2])
      show S.payload = _
      rw [h3]
      exact this
    | detached p =>
      obtain ⟨h1, h2⟩ := hpay
      obtain ⟨-, h3, -⟩ := hsh.split
      exact ⟨h3.null (by rw [he]; exact h1), h2⟩
  · intro hpay
    rw [heq]
    refine ⟨x.payload, by simp [hpay], ?_⟩
    have := hacc.decodes.payload
    rw [hpay] at this
    obtain ⟨s, -, -, h3⟩ := this
    rw [h3]; rfl
  · intro hdec hns
    obtain ⟨v', hv', payload, hpl, -, hc⟩ :=
      C10_acceptance cfg P C junk me msg aad pay want D hD hP hargs hdec h
    have hvv := hacc.view.unique hv'
    subst hvv
    have hkid : x.params.kid = v.kid := hm.kid.1
    have hns' : cfg.disableShortCircuit = true ∨ v.kid.map (·.bytes) ≠ some scKid := by
      rcases hns with hns | hns
      · exact .inl hns
      · refine .inr fun hk => hns ?_
        rw [hps.kid, hkid]
        cases hv : v.kid with
        | none => rw [hv] at hk; cases hk
        | some s =>
          rw [hv] at hk
          simp only [Option.map_some, Option.some.injEq] at hk
          simp [hk]
    obtain ⟨i, a, hi, ha, hcr⟩ := hc hns'
    have hpp : payload = x.payload.ub.bytes := by
      have hq := isPayload_of hacc.decodes
      cases pay with
      | inline w =>
        obtain ⟨s, h1, -, h3⟩ := hpl
        obtain ⟨s', h1', -, h3'⟩ := hq
        rw [h1] at h1'
        cases h1'
        rw [h3, h3']
      | detached p => rw [hpl.2, hq.2]
    subst hpp
    have hprm : ∃ e ∈ v.protEntries, e.label = some (.int 1) ∧ e.itm.val = .int i := by
      unfold MsgView.alg at hi
      cases hpa : param 1 v.protEntries with
      | none => rw [hpa] at hi; cases hi
      | some w =>
        obtain ⟨e, he, hl, hv⟩ := param_some hpa
        rw [hpa] at hi
        cases w <;> simp only [Option.bind_some, Val.asInt, reduceCtorEq, Option.some.injEq] at hi
        subst hi
        exact ⟨e, he, hl, hv⟩
    obtain ⟨e, he, hl, hv⟩ := hprm
    rcases values_cases hs.prot (i := 1) (by omega) (hm.prot.once 1 (by simp)) with
      ⟨-, hn⟩ | ⟨e', he', hl', y, hy, hyv⟩
    · exact absurd hl (hn e he)
    · have hee : e'.itm.val = e.itm.val := by
        have h1 := param_mem he hl (hm.prot.once 1 (by simp))
        have h2 := param_mem he' hl' (hm.prot.once 1 (by simp))
        rw [h1] at h2
        exact (Option.some.inj h2).symm
      refine ⟨y, i, a, hy, hyv.int (by rw [hee, hv]), ha, ?_⟩
      rw [hkid, ← hs.pb, ← hs.sig]
      exact hcr

/-- A message, accepted by the toy adapter, with the octets `u` as unprotected header and
`pt` behind the map in the protected header. -/
def rawMsg (pt u : Bytes) : Bytes :=
  let p := (Item.map es256Hdr).enc ++ pt
  [0xd2, 0x84] ++ (Item.bstr p).enc ++ u ++ (Item.bstr [0x68, 0x69]).enc ++
    (Item.bstr (toySig (toyDigest algSHA256 (sigStructure p [] [0x68, 0x69])))).enc

example : (toyVerify 0 (toyMsg true es256Hdr [(.uint 4, .bstr [1, 2]), (.uint 3, .tstr [0x61])]
      [0x68, 0x69])).res = .ok () ∧ ArgsOk .nil (.inline true) ∧ Spec.Opt.decodeOnly 0 = false ∧
    valuesOf 4 [(Item.uint 4, .bstr [1, 2]), (.uint 3, .tstr [0x61])] ≠ [.bstr scKid] :=
  ⟨by decide +kernel, ⟨rfl, by intro p h; cases h⟩, by decide, by
    intro h
    simp [valuesOf, Item.bare, Item.number, scKid] at h⟩

/-- Tags around labels and values, and octets behind the protected header map, are passed
over: here the label 4 carries tag 5 and its value tag 24. -/
example : (toyVerify 0 (rawMsg [0xff, 0x00] [0xa1, 0xc5, 0x04, 0xd8, 0x18, 0x41, 0x07])).params =
    some ⟨-7, some ⟨14, [0x07]⟩, none, none, none, 65536⟩ := by decide +kernel

/-! ## C62: well-formed CBOR -/

/-- The parameters t_cose looks at (the content type only if the build does). -/
def Processed (cfg : Config) (i : Int) : Prop :=
  i = 1 ∨ i = 2 ∨ (i = 3 ∧ cfg.disableContentType = false) ∨ i = 4 ∨ i = 5 ∨ i = 6

/-- **C62, partial.** An accepted message is well-formed CBOR, and so is the map in its
protected header, unless there are octets that are no CBOR item in the value of a
parameter that is not processed or in an array element behind the signature.  Missing
from the full claim: those octets (see `C62_claim_false`). -/
theorem C62_well_formed_partial (hP : P.maxTags ≤ 4)
    (h : (verifyInternal cfg P C junk me msg aad pay want).res = .ok ()) :
    ∃ S : Seen, S.In P.maxTags msg ∧
      ((∀ kv ∈ S.params, (¬ ∃ i, kv.1.bare.number = some i ∧ Processed cfg i) →
          kv.2.clean = true) → (∀ x ∈ S.extra, x.clean = true) →
        (∃ x, Encodes x msg) ∧
        (S.pb = [] ∨ ∃ x b rest, S.pb = b ++ rest ∧ Encodes x b)) := by
  obtain ⟨v, x, me', ub, hacc, heq⟩ := verify_ok hP h
  obtain ⟨p1, hm⟩ := hacc.decodes.headersMean
  obtain ⟨S, hS, hs⟩ := seen_of_view hacc.view
  have hlab : ∀ e ∈ v.entries, (∃ i, e.label = some (.int i)) ∨ ∃ s, e.label = some (.tstr s) := by
    obtain ⟨v', hv', -, -, hl⟩ := C24_limits cfg P C junk me msg aad pay want hP h
    rw [hacc.view.unique hv']
    exact hl
  have hps := paramsSeen_of cfg P hm hs hlab
  refine ⟨S, hS, fun hunk hext => ?_⟩
  have hbs : ∀ {o : Option Str} {y : Item}, y ∈ o.toList.map (fun s => Item.bstr s.bytes) →
      y.clean = true := by
    intro o y hy
    obtain ⟨s, -, rfl⟩ := List.mem_map.mp hy
    rfl
  have hval : ∀ kv ∈ S.params, kv.1.clean = true ∧ kv.2.clean = true := by
    intro kv hkv
    refine ⟨?_, ?_⟩
    · rcases hps.labels kv hkv with hl | hl
      · exact clean_number hl
      · exact clean_text hl
    · by_cases hk : ∃ i, kv.1.bare.number = some i ∧ Processed cfg i
      · obtain ⟨i, hi, hpr⟩ := hk
        have hmem := mem_valuesOf hkv hi
        rw [clean_bare]
        rcases hpr with rfl | rfl | ⟨rfl, hct⟩ | rfl | rfl | rfl
        · rw [show S.params = S.prot ++ S.unprot from rfl, valuesOf_append, hps.alg.1,
            List.append_nil] at hmem
          rcases hps.alg.2 with ⟨h0, -⟩ | ⟨y, i, hy, hn, -⟩
          · rw [h0] at hmem; cases hmem
          · rw [hy, List.mem_singleton] at hmem
            rw [hmem]
            cases y <;> first | rfl | cases hn
        · rw [show S.params = S.prot ++ S.unprot from rfl, valuesOf_append, hps.crit.1,
            List.append_nil] at hmem
          rcases hps.crit.2 with h0 | ⟨xs, hy, -, hx⟩
          · rw [h0] at hmem; cases hmem
          · rw [hy, List.mem_singleton] at hmem
            rw [hmem, Item.clean]
            refine cleanAll_of fun y hy => ?_
            rcases hx y hy with hl | hl
            · exact clean_number hl
            · exact clean_text hl
        · rcases (hps.ct hct).2.2.1 _ hmem with ⟨t, ht⟩ | ⟨n, hn, -⟩
          · rw [ht]; rfl
          · rw [hn]; rfl
        · rw [hps.kid] at hmem; exact hbs hmem
        · rw [hps.iv] at hmem; exact hbs hmem
        · rw [hps.partialIv] at hmem; exact hbs hmem
      · exact hunk kv hkv hk
  have hpay : S.payload.clean = true := by
    have hq := isPayload_of hacc.decodes
    obtain ⟨e, he, k, hsh⟩ := hs.payload
    cases pay with
    | inline w =>
      obtain ⟨s, h1, h2, -⟩ := hq
      have := strOnly hsh (s := s) (by rw [he, h1, h2])
      have : S.payload = .bstr s.bytes := this
      rw [this]; rfl
    | detached p =>
      obtain ⟨h1, -⟩ := hq
      obtain ⟨-, h3, -⟩ := hsh.split
      have := h3.null (by rw [he]; exact h1)
      rw [clean_bare]
      have : S.payload.bare = .null := this
      rw [this]; rfl
  have hun : cleanPairs S.unprot = true :=
    cleanPairs_of fun kv hkv => hval kv (List.mem_append_right _ hkv)
  have hpr : cleanPairs S.prot = true :=
    cleanPairs_of fun kv hkv => hval kv (List.mem_append_left _ hkv)
  constructor
  · obtain ⟨us, hr⟩ := hS.whole
    refine ⟨_, hr.encodes ?_⟩
    rw [clean_tagged, Item.clean, cleanAll, cleanAll, cleanAll, cleanAll, clean_tagged, Item.clean,
      hpay, hun, cleanAll_of hext]
    rfl
  · rcases hS.prot with ⟨h0, -⟩ | ⟨us, b, rest, h1, h2⟩
    · exact .inl h0
    · refine .inr ⟨_, b, rest, h1, h2.encodes ?_⟩
      rw [clean_tagged, Item.clean]
      exact hpr

/-- **C62 is false**: this message, in which the unprotected parameter 100 has the octet
0x1f for a value (an integer of indefinite length), is accepted. -/
theorem C62_claim_false : ¬ ∀ (msg : Bytes),
    (toyVerify 0 msg).res = .ok () → ∃ x, Encodes x msg := by
  intro hall
  have h1 : (toyVerify 0 (rawMsg [] [0xa1, 0x18, 0x64, 0x1f])).res = .ok () := by decide +kernel
  have h2 : scan 100 [some 1] (rawMsg [] [0xa1, 0x18, 0x64, 0x1f]) = .bad := by decide +kernel
  exact not_encodes_of_scan h2 (hall _ h1)

/-- The protected header may hold a map followed by octets that are no CBOR: accepted. -/
theorem C62_protected_trailing : (toyVerify 0 (rawMsg [0xff, 0x1f] [0xa0])).res = .ok () ∧
    ¬ ∃ x, Encodes x ((Item.map es256Hdr).enc ++ [0xff, 0x1f]) := by
  refine ⟨by decide +kernel, ?_⟩
  rintro ⟨x, hx⟩
  obtain ⟨s, hs⟩ := encodes_scan hx
  have h1 : scan 100 [some 1] ((Item.map es256Hdr).enc ++ [0xff, 0x1f]) = .fits [0xff, 0x1f] := by
    decide +kernel
  have h2 := scan_add (k := s) (by rw [h1]; simp :
    scan 100 [some 1] ((Item.map es256Hdr).enc ++ [0xff, 0x1f]) ≠ .fuel)
  rw [h1, Nat.add_comm, hs] at h2
  cases h2

/-- A message with only processed parameters. -/
example : (toyVerify 0 (toyMsg true (critHdr [.uint 100, .tstr [0x61]] (.uint 99))
      [(.uint 4, .bstr [1, 2])] [1])).res = .ok () := by decide +kernel

/-- `scan` accepts that message. -/
example : scan 100 [some 1] (toyMsg true (critHdr [.uint 100, .tstr [0x61]] (.uint 99))
      [(.uint 4, .bstr [1, 2])] [1]) = .fits [] := by decide +kernel

end TCose.Props
