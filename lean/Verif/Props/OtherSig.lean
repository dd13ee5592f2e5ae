import Verif.Spec.OtherSig
import Verif.Props.OtherValue

/-!
# C109: the signature in a message
-/

namespace TCose.Props
open TCose Spec

/-- What a call does when the signature is judged in this way, if it does `E` for a signature that is accepted. -/
def Effect.judged (r : Except Err Unit) (E : Effect) : Effect :=
  match r with
  | .ok () => E
  | .error e => .refused e E.ctx

/-- The elements, with another byte string as the last one. -/
theorem readAll_sig {P : QParams} {noCt : Bool} {det : Option Bytes} {xs xs' : List Item} {s s' : Bytes} {fin : Option Err}
    (hx : ∀ i, i ≠ 3 → (xs[i]? : Option Item) = xs'[i]?)
    (h3 : (xs[3]? : Option Item) = some (.bstr s)) (h3' : (xs'[3]? : Option Item) = some (.bstr s')) :
    (readAll P noCt det xs' [] fin = (readAll P noCt det xs [] fin).map fun f => { f with sig := s' }) ∧
    ∀ f, readAll P noCt det xs [] fin = .ok f → f.sig = s := by
  have hs : ∀ s : Bytes, stringAt P (some (.bstr s)) = .ok s := fun _ => rfl
  unfold readAll
  rw [← hx 0 (by omega), ← hx 1 (by omega), ← hx 2 (by omega), h3, h3']
  simp only [hs]
  split
  · exact ⟨rfl, fun f h => by cases h⟩
  · split
    · exact ⟨rfl, fun f h => by cases h⟩
    split
    · exact ⟨rfl, fun f h => by cases h⟩
    split
    · exact ⟨rfl, fun f h => by cases h⟩
    cases fin with
    | some e => exact ⟨rfl, fun f h => by cases h⟩
    | none => exact ⟨rfl, fun f h => by cases h; rfl⟩
  · split <;> exact ⟨rfl, fun f h => by cases h⟩

/-- How `settle` looks at the signature. -/
theorem settle_judges (cfg : Config) (C : Crypto) (me : VerifyCtx) (k : Known) (d : Int → Except Err Bytes) (t : Bytes) :
    Judges cfg C me.key (Opt.decodeOnly me.flags) (Opt.allowShortCircuit me.flags) (settle cfg C me k d t) := by
  unfold settle
  split; · exact .blind _
  split; · exact .blind _
  split
  · rename_i hc
    by_cases hd : Opt.decodeOnly me.flags = true
    · simp only [if_pos hd]; exact .blind _
    simp only [if_neg hd]
    by_cases ha : Opt.allowShortCircuit me.flags = false
    · simp only [if_pos ha]; exact .blind _
    simp only [if_neg ha]
    cases d k.alg with
    | error e => exact .blind _
    | ok h => exact .short h (by simpa using hd) (by simpa using ha) hc.1
  split
  · rename_i he
    split; · exact .blind _
    by_cases hd : Opt.decodeOnly me.flags = true
    · simp only [if_pos hd]; exact .blind _
    simp only [if_neg hd]
    split; · exact .blind _
    exact .whole _ _ (by simpa using hd) he.1
  · by_cases hd : Opt.decodeOnly me.flags = true
    · simp only [if_pos hd]; exact .blind _
    simp only [if_neg hd]
    cases d k.alg with
    | error e => exact .blind _
    | ok h => exact .hash _ _ h (by simpa using hd)

variable {cfg : Config} {P : QParams} {C : Crypto} {junk : Junk} {me : VerifyCtx} {b b' s s' : Bytes}
  {aad : UB} {pay : VPayload} {want : Bool}

/-- **C109.** Two messages that differ in the signature: there is one way to judge a signature, and the two calls do the
same except for what the judgement on either signature makes of it. -/
theorem C109_other_signature (hP : P.maxTags ≤ 4) (hl : P.Local) (hargs : ArgsOk aad pay) (hr : OtherSig P s s' b b') :
    ∃ g E, Judges cfg C me.key (Opt.decodeOnly me.flags) (Opt.allowShortCircuit me.flags) g ∧
      effectOf (verifyInternal cfg P C junk me b aad pay want) = Effect.judged (g s) E ∧
      effectOf (verifyInternal cfg P C junk me b' aad pay want) = Effect.judged (g s') E := by
  rw [(C95_everything cfg P C junk me b aad pay want hP hl hargs).1,
    (C95_everything cfg P C junk me b' aad pay want hP hl hargs).1]
  obtain ⟨x, x', xs, xs', r1, r2, ht, ha, ha', hx, h3, h3'⟩ := hr.items
  have m1 := messageAt_item r1 []
  have m2 := messageAt_item r2 []
  rw [List.append_nil, ha, if_pos rfl] at m1
  rw [List.append_nil, ha', if_pos rfl] at m2
  have s1 := hr.size
  have s2 := hr.size'
  unfold effectAll
  rw [if_neg (by omega), if_neg (by omega), m1, m2]
  simp only
  rw [ht]
  by_cases hp : TagPolicy me.flags x'.tagList.reverse
  rotate_left
  · rw [if_pos hp, if_pos hp]
    exact ⟨fun _ => .error .incorrectlyTagged, .refused .incorrectlyTagged me, .blind _, rfl, rfl⟩
  rw [if_neg (not_not_intro hp), if_neg (not_not_intro hp)]
  obtain ⟨e1, e2⟩ := readAll_sig (P := P) (noCt := cfg.disableContentType) (det := pay.octets) (fin := none) hx h3 h3'
  rw [e1]
  cases hra : readAll P cfg.disableContentType pay.octets xs [] none with
  | error e => exact ⟨fun _ => .error e, .refused e _, .blind _, rfl, rfl⟩
  | ok f =>
    have hk := e2 f hra
    have hj := settle_judges cfg C me f.known (fun alg => createTbsHash cfg C alg (.data f.prot) aad (pay.buffer f.payload)
      (maxHashSize cfg)) (sigStructure f.prot aad.bytes f.payload)
    simp only [Except.map, hk]
    generalize settle cfg C me f.known (fun alg => createTbsHash cfg C alg (.data f.prot) aad (pay.buffer f.payload)
      (maxHashSize cfg)) (sigStructure f.prot aad.bytes f.payload) = g at hj ⊢
    generalize (if SizeStored cfg me f.known (sigStructure f.prot aad.bytes f.payload) then _ else _ : VerifyCtx) = me2
    refine ⟨g, ⟨.ok (), me2, if want = true then some (toShow f.known) else none,
      if pay = .inline true then some f.payload else none⟩, hj, ?_, ?_⟩
    · unfold Effect.judged
      cases g s <;> rfl
    · unfold Effect.judged
      cases g s' <;> rfl

theorem judged_ctx (r : Except Err Unit) (E : Effect) : (Effect.judged r E).ctx = E.ctx := by
  cases r <;> rfl

/-- **C109.** So the context is left alike, and the two calls do the same if only decoding is asked for, or if both
messages are accepted. -/
theorem C109_stored (hP : P.maxTags ≤ 4) (hl : P.Local) (hargs : ArgsOk aad pay) (hr : OtherSig P s s' b b') :
    let before := effectOf (verifyInternal cfg P C junk me b aad pay want)
    let after := effectOf (verifyInternal cfg P C junk me b' aad pay want)
    after.ctx = before.ctx ∧ (Opt.decodeOnly me.flags = true → after = before) ∧
    (before.res = .ok () → after.res = .ok () → after = before) := by
  intro before after
  obtain ⟨g, E, hj, h1, h2⟩ := C109_other_signature (cfg := cfg) (C := C) (junk := junk) (me := me) (want := want) hP hl hargs hr
  change before = _ at h1
  change after = _ at h2
  refine ⟨by rw [h1, h2, judged_ctx, judged_ctx], fun hd => ?_, fun g1 g2 => ?_⟩
  · rw [hd] at hj
    rw [h1, h2]
    cases hj with
    | blind r => rfl
    | hash _ _ _ h => cases h
    | whole _ _ h _ => cases h
    | short _ h _ _ => cases h
  · rw [h1] at g1
    rw [h2] at g2
    rw [h1, h2]
    cases e1 : g s with
    | error e => rw [e1] at g1; cases g1
    | ok _ =>
      cases e2 : g s' with
      | error e => rw [e2] at g2; cases g2
      | ok _ => rfl

/-- A message with any signature. -/
def sigItem (s : Bytes) : Item :=
  tagged [18] (({ devMsg [devAlg] [] with sig := s } : Message).body (Header.item [devAlg]).enc)

theorem sig_reads {s : Bytes} (hs : s.length < 2 ^ 64) : Reads 4 15 (sigItem s) (sigItem s).enc := by
  refine (enc_encodes _ ?_).reads rfl
  refine ⟨by decide, by simp, (by decide +kernel : (Header.item [devAlg]).enc.length < 2 ^ 64), ?_, ?_, hs, trivial⟩
  · change (Header.item []).small
    simp [Header.item, Item.small, smallPairs]
  · simp [Message.payItem, devMsg, Item.small]

theorem sig_other {s s' : Bytes} (hs : s.length < 2 ^ 64) (hs' : s'.length < 2 ^ 64) (hm : (sigItem s).enc.length ≤ maxMessage)
    (hm' : (sigItem s').enc.length ≤ maxMessage) : OtherSig QParams.std s s' (sigItem s).enc (sigItem s').enc := by
  refine ⟨⟨_, _, _, _, sig_reads hs, sig_reads hs', rfl, rfl, rfl, ?_, rfl, rfl⟩, hm, hm'⟩
  intro i hi
  match i with
  | 0 => rfl
  | 1 => rfl
  | 2 => rfl
  | 3 => exact absurd rfl hi
  | i + 4 => rfl

/-- The right signature and a wrong one; with decoding alone both are accepted. -/
example :
    let v := fun flags s => (verifyInternal Config.full QParams.std toyCrypto noJunk (VerifyCtx.init flags) (sigItem s).enc
      (.null 0) (.inline true) true).res
    let s := (devMsg [devAlg] []).sig
    OtherSig QParams.std s [1, 2, 3] (sigItem s).enc (sigItem [1, 2, 3]).enc ∧
    (v 0 s, v 0 [1, 2, 3]) = (.ok (), .error .sigVerify) ∧ Opt.decodeOnly 8 = true ∧ (v 8 s, v 8 [1, 2, 3]) = (.ok (), .ok ()) :=
  ⟨sig_other (by decide +kernel) (by decide +kernel) (by decide +kernel) (by decide +kernel), by decide +kernel, by decide,
    by decide +kernel⟩

end TCose.Props
