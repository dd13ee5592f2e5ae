import Verif.Props.OwnMessage
import Verif.Props.Nested
import Verif.Props.VerifyState

/-!
# C87: messages made in place, with tags of the application around them, are verified

A message that two-step signing wrote in the middle of an encoder's output, together with the tags
the application put directly before it, is cut out and given to verification.
-/

namespace TCose.Props
open TCose Spec

theorem runOps_append (a b : List EncOp) : ∀ e, runOps (a ++ b) e = runOps b (runOps a e) := by
  induction a with
  | nil => intro e; rfl
  | cons o os ih => intro e; exact ih _

theorem tags_rel {cap : Nat} {nul : Bool} {ns : List Nest} (hl : LvlOk ns) :
    ∀ (ts : List Nat) {e : Enc} {o : Bytes}, Rel cap nul e ⟨o, none, ns⟩ →
      Rel cap nul (runOps (ts.map .tag) e) ⟨o ++ (ts.map (Spec.head 6)).flatten, none, ns⟩ := by
  intro ts
  induction ts with
  | nil => intro e o h; simpa [runOps] using h
  | cons t ts ih =>
    intro e o h
    have h1 := h.addTag_rel t
    rw [Ideal.addTag_ok hl, encodeHead_eq_head] at h1
    have := ih h1
    simpa [runOps, EncOp.run] using this

/-- The encoder after the tags. -/
theorem tags_start {before : List EncOp} {ts : List Nat} {m : Bytes}
    (h0 : StartOk (runOps before (Enc.init (.buf m))))
    (hfits : (runOps before (Enc.init (.buf m))).len + (ts.map (Spec.head 6)).flatten.length
      ≤ m.length) :
    StartOk (runOps (before ++ ts.map .tag) (Enc.init (.buf m))) ∧
    (runOps (before ++ ts.map .tag) (Enc.init (.buf m))).nest
      = (runOps before (Enc.init (.buf m))).nest ∧
    written (runOps (before ++ ts.map .tag) (Enc.init (.buf m)))
      = written (runOps before (Enc.init (.buf m))) ++ (ts.map (Spec.head 6)).flatten ∧
    (written (runOps before (Enc.init (.buf m)))).length
      = (runOps before (Enc.init (.buf m))).len ∧
    (runOps (before ++ ts.map .tag) (Enc.init (.buf m))).len
      = (runOps before (Enc.init (.buf m))).len + (ts.map (Spec.head 6)).flatten.length := by
  obtain ⟨⟨o, er, ns⟩, hr⟩ := ops_rel before (Rel.init_rel (.buf m))
  obtain ⟨g1, g2, g3, -⟩ := hr.good h0.small
  simp only at g1 g2 g3
  have : er = none := by rw [← g2]; exact h0.err
  subst this
  have hl : LvlOk ns := by
    have := h0.lvl
    rw [g3] at this
    cases ns with
    | nil => trivial
    | cons n ns => exact this n rfl
  have ht := tags_rel hl ts hr
  rw [← runOps_append] at ht
  have hs : (runOps (before ++ ts.map .tag) (Enc.init (.buf m))).small = false := by
    cases hq : (runOps (before ++ ts.map .tag) (Enc.init (.buf m))).small with
    | false => rfl
    | true =>
      have := ht.small hq
      simp only [List.length_append, Mem.cap] at this
      omega
  obtain ⟨k1, k2, k3, -⟩ := ht.good hs
  simp only at k1 k2 k3
  refine ⟨⟨hs, k2, ?_, ?_⟩, by rw [k3, g3], ?_, ?_, ?_⟩
  · rw [k3, ← g3]; exact h0.depth
  · rw [k3, ← g3]; exact h0.lvl
  · rw [written_eq ht hs, written_eq hr h0.small]
  · rw [written_eq hr h0.small, g1]
  · rw [k1, g1, List.length_append]

variable (cfg : Config) (P : QParams) (C : Crypto) (junk : Junk) (me me1 me2 : SignCtx)
  (vm : VerifyCtx)

/-- **C87.** A message made in place by the two calls, cut out of the encoder's output together with
the tags `ts` that the application wrote directly before it: how its verification ends
(`ownOutcome`), and that, when it is accepted, the payload returned is what the application encoded
between the calls, and the tags reported are the application's (with index 4 excluded, see C16). -/
theorem C87_in_place (hfit : SignFits C) (hhash : HashFits C) (hSV : SignVerify C me.key vm.key)
    (before : List EncOp) (ts : List Nat) (m : Bytes) (cs : List Content) (d : Nat) (aad : UB)
    (ha : aad.wf) (e1 e2 : Enc) (hts : ∀ t ∈ ts, t < 2 ^ 64) (hT : ts.length + 1 ≤ P.maxTags)
    (hP4 : P.maxTags ≤ 4) (hct : me.contentTypeUint ≤ 65536)
    (h0 : StartOk (runOps before (Enc.init (.buf m))))
    (hfits : (runOps before (Enc.init (.buf m))).len + (ts.map (Spec.head 6)).flatten.length
      ≤ m.length)
    (hp : sign1EncodeParameters cfg me (runOps (before ++ ts.map .tag) (Enc.init (.buf m)))
      = (.ok (), me1, e1))
    (hd : fitsAll cs d = true) (hdd : (runOps before (Enc.init (.buf m))).nest.length + d ≤ 13)
    (hn : cs.length ≤ 65534)
    (hlt : (runOps before (Enc.init (.buf m))).len + (ts.map (Spec.head 6)).flatten.length
      + me.kid.bytes.length + (me.contentTypeTstr.getD []).length + (encAll cs).length + 128 < 2 ^ 32)
    (hsig : sign1EncodeSignatureAad cfg C me1 aad (runAll cs e1) = (.ok (), me2, e2))
    (hs : e2.small = false) (msg : Bytes)
    (hmsg : msg = (written e2).drop (runOps before (Enc.init (.buf m))).len)
    (hlen : msg.length ≤ 4294967293) (w want : Bool) :
    written e2 = written (runOps before (Enc.init (.buf m))) ++ msg ∧
    ∃ hash sig,
      SigRun cfg C me (.data (protectedHeader me.alg)) aad (.data (encAll cs)) sig ∧
      (¬ (Spec.Opt.shortCircuit me.flags = false ∧ me.alg = -8) →
        createTbsHash cfg C me.alg (.data (protectedHeader me.alg)) aad (.data (encAll cs))
          (maxHashSize cfg) = .ok hash) ∧
      (verifyInternal cfg P C junk vm msg aad (.inline w) want).res = ownOutcome cfg me vm
        (sigStructure (protectedHeader me.alg) aad.bytes (encAll cs)).length hash sig
        (C.verify me.alg vm.key (specKid me) hash sig) ts.reverse ∧
      ((verifyInternal cfg P C junk vm msg aad (.inline w) want).res = .ok () →
        (w = true → ∃ b, (verifyInternal cfg P C junk vm msg aad (.inline w) want).payload = some b ∧
          b.ub = .data (encAll cs)) ∧
        (noTag ∉ ts → ∀ n, n ≠ 4 →
          (verifyInternal cfg P C junk vm msg aad (.inline w) want).ctx.getNthTag n =
            some ((enclosing ((if Spec.Opt.omitTag me.flags then [] else [18]) ++
              ts.reverse))[n]?.getD noTag))) := by
  obtain ⟨hst, hnest, hw0, hwl, hlen0⟩ := tags_start (ts := ts) h0 hfits
  generalize hops : before ++ ts.map EncOp.tag = ops at *
  have hdd' : (runOps ops (Enc.init (.buf m))).nest.length + d ≤ 13 := by rw [hnest]; exact hdd
  have hlt' : (runOps ops (Enc.init (.buf m))).len + me.kid.bytes.length
      + (me.contentTypeTstr.getD []).length + (encAll cs).length + 128 < 2 ^ 32 := by
    rw [hlen0]; exact hlt
  have hns := nested_sigRun cfg C hfit me me1 me2
    ops m e1 e2 cs d aad ha hst hp hd hdd' hn hlt' hsig hs
  obtain ⟨m0, m2, sig, a1, a2, a3, a4, a5, hpre, hrun⟩ := hns
  have hwr : written e2 = written (runOps before (Enc.init (.buf m))) ++
      ((ts.map (Spec.head 6)).flatten ++ (coseSign1 (!Spec.Opt.omitTag me.flags) me.alg (specKid me)
        (specCt cfg me) (some (encAll cs)) sig).enc) := by
    rw [← List.append_assoc, ← hw0]
    unfold written
    rw [a2, a1]
    exact a5
  have hmsg' : msg = (ts.map (Spec.head 6)).flatten ++ (coseSign1 (!Spec.Opt.omitTag me.flags)
      me.alg (specKid me) (specCt cfg me) (some (encAll cs)) sig).enc := by
    rw [hmsg, hwr, List.drop_left' hwl]
  refine ⟨by rw [hwr, hmsg'], ?_⟩
  obtain ⟨hash, b1, b2, v, b3, b4, b5⟩ := own_core (P := P) (junk := junk) (vm := vm) (det := false)
    (payload := .data (encAll cs)) (outer := ts.reverse) hpre hrun nofun hhash hSV
    (by rw [List.length_reverse]; exact hT) hP4 (fun t ht => hts t (List.mem_reverse.mp ht))
    (UB.wf_data _) ha hct (by rw [List.reverse_reverse]; exact hmsg') hlen want
    (pay := .inline w) ⟨w, rfl⟩
  refine ⟨hash, sig, hrun, b1, b2, fun hok => ⟨?_, ?_⟩⟩
  · rintro rfl
    obtain ⟨v', x, me', ub, hacc, heq⟩ := verify_ok hP4 hok
    have := b3.unique hacc.view
    subst this
    refine ⟨x.payload, by rw [heq]; simp, ?_⟩
    obtain ⟨s, h1, -, h3⟩ := hacc.decodes.payload
    obtain ⟨s', k1, -, k3⟩ := b5
    rw [h1] at k1
    cases k1
    rw [h3]
    exact congrArg UB.data k3.symm
  · intro hnt n hn4
    obtain ⟨v', hv', hh⟩ := C16_nth_tag_partial cfg P C junk vm msg aad (.inline w) want hP4
      ⟨ha, nofun⟩ hok n hn4
    have := b3.unique hv'
    subst this
    rw [b4] at hh
    refine hh fun hmem => ?_
    rcases List.mem_append.mp hmem with hm | hm
    · split at hm
      · cases hm
      · simp [noTag] at hm
    · exact hnt (List.mem_reverse.mp hm)

/-- When `ownOutcome` is success, for signatures made with the key. -/
theorem ownOutcome_ok {n : Nat} {hash sig : Bytes} {byKey : Except Err Unit} {outer : List Nat}
    (htag : TagPolicy vm.flags ((if Spec.Opt.omitTag me.flags then [] else [18]) ++ outer))
    (hkid : Spec.Opt.requireKid vm.flags = true → specKid me ≠ none)
    (hsc : Spec.Opt.shortCircuit me.flags = false)
    (hsk : cfg.disableShortCircuit = true ∨ specKid me ≠ some scKid)
    (haux : me.alg = -8 → vm.aux.isNull = false ∧ n ≤ vm.aux.cap) :
    ownOutcome cfg me vm n hash sig byKey outer = .ok () := by
  unfold ownOutcome
  rw [if_neg (not_not_intro htag), if_neg (fun h => hkid h.1 h.2), if_neg (by
    rintro ⟨h1, h2⟩
    rcases hsk with h | h
    · rw [h1] at h; cases h
    · exact h h2), if_neg (by rw [hsc]; simp)]
  split
  · rename_i he
    obtain ⟨h1, h2⟩ := haux he
    rw [if_neg (by omega), h1]
    split
    · rfl
    · rfl
  · rfl

/-- **C87**, the case a user cares about: signed with the key and verified with the matching one,
under options and buffers that suit, the message cut out with the application's tags is accepted, and
payload and tags come back. -/
theorem C87_accepted (hfit : SignFits C) (hhash : HashFits C) (hSV : SignVerify C me.key vm.key)
    (before : List EncOp) (ts : List Nat) (m : Bytes) (cs : List Content) (d : Nat) (aad : UB)
    (ha : aad.wf) (e1 e2 : Enc) (hts : ∀ t ∈ ts, t < 2 ^ 64) (hT : ts.length + 1 ≤ P.maxTags)
    (hP4 : P.maxTags ≤ 4) (hct : me.contentTypeUint ≤ 65536)
    (h0 : StartOk (runOps before (Enc.init (.buf m))))
    (hfits : (runOps before (Enc.init (.buf m))).len + (ts.map (Spec.head 6)).flatten.length
      ≤ m.length)
    (hp : sign1EncodeParameters cfg me (runOps (before ++ ts.map .tag) (Enc.init (.buf m)))
      = (.ok (), me1, e1))
    (hd : fitsAll cs d = true) (hdd : (runOps before (Enc.init (.buf m))).nest.length + d ≤ 13)
    (hn : cs.length ≤ 65534)
    (hlt : (runOps before (Enc.init (.buf m))).len + (ts.map (Spec.head 6)).flatten.length
      + me.kid.bytes.length + (me.contentTypeTstr.getD []).length + (encAll cs).length + 128 < 2 ^ 32)
    (hsig : sign1EncodeSignatureAad cfg C me1 aad (runAll cs e1) = (.ok (), me2, e2))
    (hs : e2.small = false) (msg : Bytes)
    (hmsg : msg = (written e2).drop (runOps before (Enc.init (.buf m))).len)
    (hlen : msg.length ≤ 4294967293) (w want : Bool)
    (htag : TagPolicy vm.flags ((if Spec.Opt.omitTag me.flags then [] else [18]) ++ ts.reverse))
    (hkid : Spec.Opt.requireKid vm.flags = true → specKid me ≠ none)
    (hsc : Spec.Opt.shortCircuit me.flags = false)
    (hsk : cfg.disableShortCircuit = true ∨ specKid me ≠ some scKid)
    (haux : me.alg = -8 → vm.aux.isNull = false ∧
      (sigStructure (protectedHeader me.alg) aad.bytes (encAll cs)).length ≤ vm.aux.cap) :
    (verifyInternal cfg P C junk vm msg aad (.inline w) want).res = .ok () ∧
    (w = true → ∃ b, (verifyInternal cfg P C junk vm msg aad (.inline w) want).payload = some b ∧
      b.ub = .data (encAll cs)) ∧
    (noTag ∉ ts → ∀ n, n ≠ 4 →
      (verifyInternal cfg P C junk vm msg aad (.inline w) want).ctx.getNthTag n =
        some ((enclosing ((if Spec.Opt.omitTag me.flags then [] else [18]) ++
          ts.reverse))[n]?.getD noTag)) := by
  obtain ⟨-, hash, sig, -, -, h3, h4⟩ := C87_in_place cfg P C junk me me1 me2 vm hfit hhash hSV before ts
    m cs d aad ha e1 e2 hts hT hP4 hct h0 hfits hp hd hdd hn hlt hsig hs msg hmsg hlen w want
  rw [ownOutcome_ok cfg me vm htag hkid hsc hsk haux] at h3
  exact ⟨h3, h4 h3⟩

/-- The tag policy, for tags of the application around the message. -/
example : TagPolicy 0 [18, 61] ∧ ¬ TagPolicy 0x10 [18, 61] ∧
    TagPolicy 0x10 [61] ∧ ¬ TagPolicy 4 [61, 18] := by
  unfold TagPolicy
  decide +kernel

/-! A CWT of RFC 8392 section 6: tag 61 around a message, as second element of an array.  All
hypotheses of `C87_in_place` hold, the message is accepted, and tag 61 is reported. -/

theorem ex61_start : StartOk (runOps [.openArray, .int 3] (Enc.init (.buf (List.replicate 200 0)))) where
  small := by decide +kernel
  err := by decide +kernel
  depth := by decide +kernel
  lvl := by
    intro n hn
    have : (runOps [.openArray, .int 3] (Enc.init (.buf (List.replicate 200 0)))).nest.head?
        = some ⟨.arr, 0, 1⟩ := by decide +kernel
    rw [this] at hn
    cases hn
    decide

/-- What two-step signing gives there. -/
def ex61 : Except Err Unit × SignCtx × Enc :=
  match sign1EncodeParameters Config.full (SignCtx.init 0 algES256)
      (runOps ([.openArray, .int 3] ++ [61].map .tag) (Enc.init (.buf (List.replicate 200 0)))) with
  | (.ok (), me1, e1) =>
    sign1EncodeSignatureAad Config.full toyCrypto me1 (.data [9]) (runAll exContent e1)
  | (.error x, me1, e1) => (.error x, me1, e1)

example :
    let msg := (written ex61.2.2).drop 1
    let r := verifyInternal Config.full QParams.std toyCrypto noJunk (VerifyCtx.init 0) msg
      (.data [9]) (.inline true) true
    (runOps [.openArray, .int 3] (Enc.init (.buf (List.replicate 200 0)))).len = 1 ∧
    ex61.1 = .ok () ∧ ex61.2.2.small = false ∧ msg.take 4 = [0xd8, 0x3d, 0xd2, 0x84] ∧
    r.res = .ok () ∧ r.payload.map (·.ub) = some (.data (encAll exContent)) ∧
    r.ctx.getNthTag 0 = some 61 ∧ r.ctx.getNthTag 1 = some noTag := by
  decide +kernel

end TCose.Props
