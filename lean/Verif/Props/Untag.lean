import Verif.Lemmas.Untag
import Verif.Props.Verdict

/-!
# C88: the outcome of verification with tags on header parameters

C65 leaves out messages with tags on the parameters that t_cose knows.  Here
they are: the outcome is the one for the message with what is left of its headers
when the tags have been taken into account.
-/

namespace TCose.Props
open TCose Spec

variable (cfg : Config) (P : QParams) (C : Crypto) (D : Int → Bytes → Bytes) (junk junk' : Junk)
  (me : VerifyCtx) (m m₂ : Message) (pb msg msg' : Bytes) (aad : UB) (pay : VPayload)
  (want want' : Bool)

theorem untag_msg {P : QParams} {m : Message} {pb msg : Bytes} (hl : P.Local)
    (he : m.Encoded pb msg) : ShownMsg P m (m.untag P) :=
  ⟨rfl, shown_untag hl fun p hp => (he.prot_entries p hp).elim fun _ h => h.real,
    shown_untag hl fun p hp => (he.unprot_entries p hp).elim fun _ h => h.real⟩

/-- **C88.** Every message that is within the limits of QCBOR, in every encoding and
with any tags, is verified as `verdict` says of the message with what is left of
its headers. -/
theorem C88_verdict (hP : P.maxTags ≤ 4) (hl : P.Local) (he : m.Encoded pb msg) (hf : m.Fits P msg)
    (hargs : ArgsOk aad pay) {N : Nat} (hN : PiecesUpTo N pb aad.bytes (payloadOf m pay))
    (hD : ∀ k ha, (m.untag P).read cfg.disableContentType = .ok k → hashFor cfg k.alg = some ha →
      HashesUpTo N C ha (digestRoom cfg) (D ha)) :
    (verifyInternal cfg P C junk me msg aad pay want).res =
      verdict cfg C me (m.untag P) pb aad pay (payloadOf m pay)
        (digestOf cfg D (sigStructure pb aad.bytes (payloadOf m pay))) :=
  shown_verdict cfg P C D junk me m pb msg aad pay want hP he hf (untag_msg hl he) hargs hN hD

/-- **C88 (alike).** Two messages of which the same is left, in any encodings that
agree in the octets of the protected header, are verified alike, errors included,
whatever the adapters do.  So anyone can put tags on unprotected parameters, or
take them away, as far as they are ignored. -/
theorem C88_alike (hP : P.maxTags ≤ 4) (hl : P.Local) (he : m.Encoded pb msg) (hf : m.Fits P msg)
    (he' : m₂.Encoded pb msg') (hf' : m₂.Fits P msg') (hm : m.untag P = m₂.untag P)
    (hargs : ArgsOk aad pay) :
    (verifyInternal cfg P C junk me msg aad pay want).res =
      (verifyInternal cfg P C junk' me msg' aad pay want').res := by
  obtain ⟨h1, h2⟩ := verdict_shown (cfg := cfg) C junk me want hP he hf (untag_msg hl he) hargs
  obtain ⟨k1, k2⟩ := verdict_shown (cfg := cfg) C junk' me want' hP he' hf' (untag_msg hl he') hargs
  have e1 : m.tags = m₂.tags := (congrArg Message.tags hm : (m.untag P).tags = (m₂.untag P).tags)
  have e2 : m.payload = m₂.payload := (congrArg Message.payload hm : (m.untag P).payload = (m₂.untag P).payload)
  have e3 : m.sig = m₂.sig := (congrArg Message.sig hm : (m.untag P).sig = (m₂.untag P).sig)
  have e4 : payloadOf m pay = payloadOf m₂ pay := by unfold payloadOf; rw [e2]
  have e5 : payloadUb m pay = payloadUb m₂ pay := by cases pay <;> simp [payloadUb, e2]
  rw [← hm, ← e1] at k2
  rw [← e1] at k1
  by_cases hpol : TagPolicy me.flags m.tags.reverse
  rotate_left
  · rw [h1 hpol, k1 hpol]
  have h2 := h2 hpol
  have k2 := k2 hpol
  cases hr : (m.untag P).read cfg.disableContentType with
  | error e =>
    rw [hr] at h2 k2
    simp only at h2 k2
    rw [h2, k2]
  | ok k =>
    rw [hr] at h2 k2
    simp only at h2 k2
    cases hpf : (m.untag P).payloadFault pay.isDetached with
    | some y =>
      rw [hpf] at h2 k2
      simp only at h2 k2
      rw [h2, k2]
    | none =>
      rw [hpf] at h2 k2
      obtain ⟨x, -, -, hres, -⟩ := h2
      obtain ⟨x', -, -, hres', -⟩ := k2
      rw [hres, hres', e3, e4, e5]

/-- **C88 (form).** A fault of what is left of the headers is the outcome whatever
the octets of the protected header, the key, the signature, the payload, the
adapters and the remaining options are. -/
theorem C88_form (hP : P.maxTags ≤ 4) (hl : P.Local) (he : m.Encoded pb msg) (hf : m.Fits P msg)
    (hargs : ArgsOk aad pay) (hpol : TagPolicy me.flags m.tags.reverse) {e : Err}
    (hr : (m.untag P).read cfg.disableContentType = .error e) :
    (verifyInternal cfg P C junk me msg aad pay want).res = .error e :=
  shown_form cfg P C junk me m pb msg aad pay want hP he hf (untag_msg hl he) hargs hpol hr

/-- **C88 (what is returned).** When a message is accepted, what is left of its
headers could be read, and the parameters and the payload returned are those. -/
theorem C88_returned (hP : P.maxTags ≤ 4) (hl : P.Local) (he : m.Encoded pb msg)
    (hf : m.Fits P msg) (hargs : ArgsOk aad pay)
    (h : (verifyInternal cfg P C junk me msg aad pay want).res = .ok ()) :
    ∃ k, (m.untag P).read cfg.disableContentType = .ok k ∧
      (want = true → ∃ p, (verifyInternal cfg P C junk me msg aad pay want).params = some p ∧
        p.alg = k.alg ∧ p.kid.map (·.bytes) = k.kid ∧ p.iv.map (·.bytes) = k.iv ∧
        p.partialIv.map (·.bytes) = k.partialIv ∧ p.ctTstr.map (·.bytes) = k.ctText ∧
        p.ctUint = k.ctNum.getD 65536) ∧
      (pay = .inline true → ∃ b, (verifyInternal cfg P C junk me msg aad pay want).payload = some b ∧
        m.payload = some b.ub.bytes) :=
  shown_returned cfg P C junk me m pb msg aad pay want hP he hf (untag_msg hl he) hargs h

theorem untag_bare {P : QParams} (hk : ∀ ts v, P.tagProc ts v = .keep) {x : Item}
    (hlive : x.bare.live) (h : x.tagList.length ≤ P.maxTags) : x.untag P = x.bare := by
  rw [untag_live hlive]
  split
  · rename_i h0
    cases x <;> first | rfl | cases h0
  · rw [if_neg (by omega)]
    clear hlive
    cases x.bare <;> simp only [hk]

theorem untagParam_bare {P : QParams} (hk : ∀ ts v, P.tagProc ts v = .keep) {x : Item}
    (hg : x.Good) (h : x.tagList.length ≤ P.maxTags)
    (hx : ∀ xs, x.bare = .arr xs → ∀ y ∈ xs, y.tagList.length ≤ P.maxTags) :
    x.untagParam P = x.bareParam := by
  unfold Item.untagParam Item.bareParam
  rw [untag_bare hk hg.2.1 h]
  cases hb : x.bare with
  | arr xs =>
    simp only [Item.arr.injEq]
    exact List.map_congr_left fun y hy => untag_bare hk (hg.2.2 xs hb y hy) (hx xs hb y hy)
  | _ => rfl

theorem untagHeader_bare {P : QParams} (hk : ∀ ts v, P.tagProc ts v = .keep) {h : Header}
    (hg : ∀ p ∈ h, p.2.Good) (hfew : Header.fewTags P.maxTags h) :
    Header.untag P h = Header.bare h := by
  unfold Header.untag Header.bare
  refine List.map_congr_left fun p hp => ?_
  obtain ⟨h1, h2⟩ := hfew p hp
  rw [untagParam_bare hk (hg p hp) h1 h2]

/-- **C88 (ignored).** If QCBOR leaves content alone and no value has more tags than
it can hold, what is left is the headers without tags. -/
theorem C88_ignored (hk : ∀ ts v, P.tagProc ts v = .keep) (he : m.Encoded pb msg) (hf : m.Fits P msg) :
    (Header.fewTags P.maxTags m.prot → Header.untag P m.prot = Header.bare m.prot) ∧
    (Header.fewTags P.maxTags m.unprot → Header.untag P m.unprot = Header.bare m.unprot) :=
  ⟨untagHeader_bare hk (he.prot_good hf), untagHeader_bare hk (he.unprot_good hf)⟩

theorem scan_bad {h : Header} {i : Int} {x : Item} (hmem : (Label.int i, x) ∈ h)
    (hi : i = 1 ∨ i = 3 ∨ i = 4 ∨ i = 5 ∨ i = 6) (hw : wrongType i x) (seen : List Int) (u u' : Unknown) :
    scan h seen u ≠ .ok u' := by
  induction h generalizing seen u with
  | nil => cases hmem
  | cons p r ih =>
    obtain ⟨l, y⟩ := p
    rcases List.mem_cons.mp hmem with heq | hmem
    · cases heq
      unfold scan
      rw [if_pos hi, if_pos (.inr hw)]
      nofun
    · have ih := ih hmem
      cases l with
      | int j =>
        unfold scan
        split
        · split
          · nofun
          · exact ih _ _
        · split
          · exact ih _ _
          · split
            · nofun
            · split
              · nofun
              · exact ih _ _
      | text t =>
        unfold scan
        split
        · nofun
        · exact ih _ _

theorem unread_untagged {P : QParams} {x : Item} (hlive : x.bare.live)
    (h : P.maxTags < x.tagList.length) : x.untagParam P = unread := by
  unfold Item.untagParam
  rw [untag_live hlive, if_neg (by intro h0; rw [h0] at h; simp at h), if_pos h]
  rfl

theorem header_unread {h : Header} {i : Int} (hmem : (Label.int i, unread) ∈ h) (h1 : 1 ≤ i) (h6 : i ≤ 6)
    (noCt prot : Bool) (k k' : Known) : readHeader noCt prot h k ≠ .ok k' := by
  unfold readHeader
  by_cases h2 : i = 2
  · subst h2
    have hcrit : ∀ old r, readCrit prot h old ≠ .ok r := by
      intro old r
      unfold readCrit
      have hf : (Label.int 2, unread) ∈ h.filter (fun p => decide (p.1 = .int 2)) :=
        List.mem_filter.mpr ⟨hmem, by simp⟩
      split
      · rename_i h0; rw [h0] at hf; cases hf
      · rename_i h0; rw [h0] at hf; simp [unread] at hf
      · nofun
    split; · nofun
    split; · nofun
    split; · nofun
    split; · nofun
    split; · nofun
    split; · nofun
    split; · nofun
    rename_i h0
    exact absurd h0 (hcrit _ _)
  · split; · nofun
    rename_i h0
    refine absurd h0 (scan_bad hmem (by omega) ?_ _ _ _)
    unfold wrongType
    have : i = 1 ∨ (i = 4 ∨ i = 5 ∨ i = 6) ∨ i = 3 := by omega
    rcases this with h | h | h
    · exact .inl ⟨h, rfl⟩
    · exact .inr (.inl ⟨h, rfl⟩)
    · exact .inr (.inr ⟨h, rfl⟩)

/-- **C88 (refused).** A message with a value of one of the labels 1 to 6 that has more
tags than QCBOR can hold, or tags that are an error where they stand, is not
accepted, whatever else is in it. -/
theorem C88_refused (hP : P.maxTags ≤ 4) (hl : P.Local) (he : m.Encoded pb msg)
    (hf : m.Fits P msg) (hargs : ArgsOk aad pay) {i : Int} {x : Item}
    (hmem : (Label.int i, x) ∈ m.prot ∨ (Label.int i, x) ∈ m.unprot) (h1 : 1 ≤ i) (h6 : i ≤ 6)
    (hx : P.maxTags < x.tagList.length ∨ x.untagParam P = unread) :
    (verifyInternal cfg P C junk me msg aad pay want).res ≠ .ok () := by
  have hg : x.Good := hmem.elim (he.prot_good hf _) (he.unprot_good hf _)
  have hx : x.untagParam P = unread := hx.elim (unread_untagged hg.2.1) id
  intro h
  obtain ⟨k, hk, -⟩ := C88_returned cfg P C junk me m pb msg aad pay want hP hl he hf hargs h
  have mem : ∀ {h : Header}, (Label.int i, x) ∈ h → (Label.int i, unread) ∈ Header.untag P h :=
    fun hm => List.mem_map.mpr ⟨_, hm, by simp only [hx]⟩
  unfold Message.read at hk
  split at hk
  · cases hk
  · rename_i h0
    rcases hmem with hm | hm
    · exact absurd h0 (header_unread (mem hm) h1 h6 _ _ _ _)
    · exact absurd hk (header_unread (mem hm) h1 h6 _ _ _ _)

/-- A message with tags on its algorithm (100), on crit (9) and on its one element
(8, 7), and on its kid (2). -/
def tagMsg : Message where
  tags := []
  prot := [(.int 1, .tag 100 (Spec.int (-7))), (.int 2, .tag 9 (.arr [.tag 8 (.tag 7 (Spec.int 70))]))]
  unprot := [(.int 4, .tag 2 (.bstr [1]))]
  payload := some []
  sig := []

/-- The octets of its protected header. -/
def tagPb : Bytes := [0xa2, 0x01, 0xd8, 0x64, 0x26, 0x02, 0xc9, 0x81, 0xc8, 0xc7, 0x18, 0x46]

/-- Its octets. -/
def tagEnc : Bytes := [0x84, 0x4c] ++ tagPb ++ [0xa1, 0x04, 0xc2, 0x41, 0x01, 0x40, 0x40]

theorem tag_encoded : tagMsg.Encoded tagPb tagEnc := by
  refine ⟨.inr ?_, ?_⟩
  · refine .map (h := [0xa2]) (bss := [[0x01, 0xd8, 0x64, 0x26],
      [0x02, 0xc9, 0x81, 0xc8, 0xc7, 0x18, 0x46]]) (.direct (by decide)) ?_
    refine .cons (a := [1]) (b := [0xd8, 0x64, 0x26]) (.uint (.direct (by decide)))
      (.tag (h := [0xd8, 0x64]) (.wide 0 (by decide) (by decide)) (.nint (.direct (by decide)))) ?_
    refine .cons (a := [2]) (b := [0xc9, 0x81, 0xc8, 0xc7, 0x18, 0x46]) (.uint (.direct (by decide)))
      (.tag (h := [0xc9]) (.direct (by decide)) ?_) .nil
    exact .arr (h := [0x81]) (bss := [[0xc8, 0xc7, 0x18, 0x46]]) (.direct (by decide))
      (.cons (.tag (h := [0xc8]) (.direct (by decide)) (.tag (h := [0xc7]) (.direct (by decide))
        (.uint (.wide 0 (by decide) (by decide))))) .nil)
  · refine .arr (h := [0x84]) (bss := [0x4c :: tagPb, [0xa1, 0x04, 0xc2, 0x41, 0x01], [0x40], [0x40]])
      (.direct (by decide)) ?_
    refine .cons (.bstr (h := [0x4c]) (.direct (by decide))) (.cons ?_
      (.cons (.bstr (h := [0x40]) (.direct (by decide)))
        (.cons (.bstr (h := [0x40]) (.direct (by decide))) .nil)))
    exact .map (h := [0xa1]) (bss := [[0x04, 0xc2, 0x41, 0x01]]) (.direct (by decide))
      (.cons (a := [4]) (b := [0xc2, 0x41, 1]) (.uint (.direct (by decide)))
        (.tag (h := [0xc2]) (.direct (by decide)) (.bstr (h := [0x41]) (.direct (by decide)))) .nil)

/-- Content handling as QCBOR has it for bignums (2) and, an error here, tag 7. -/
def someTags : QParams := ⟨4, fun ts v => match ts, v with
  | 2 :: _, .bstr _ => .retype
  | 7 :: _, _ => .fail
  | _, _ => .keep⟩

theorem someTags_local : someTags.Local := by
  intro ts v k
  cases v <;> first | rfl | (simp only [Val.sh, someTags]; split <;> simp_all)

/-- The hypotheses of C88.  If content is left alone, the tags are as good as not there:
all parameters can be read. -/
example : tagMsg.Encoded tagPb tagEnc ∧ tagMsg.Fits QParams.std tagEnc ∧
    Header.untag QParams.std tagMsg.prot = [(.int 1, Spec.int (-7)), (.int 2, .arr [Spec.int 70])] ∧
    (tagMsg.untag QParams.std).read false =
      .ok ⟨-7, some [1], none, none, none, none, [70], [], [], []⟩ ∧
    (toyVerify 8 tagEnc).res = .ok () ∧
    ((toyVerify 8 tagEnc).params.map fun p => (p.alg, p.kid.map (·.bytes))) = some (-7, some [1]) :=
  ⟨tag_encoded, ⟨by decide, by decide, by decide, by decide⟩, rfl, by decide +kernel,
    by decide +kernel, by decide +kernel⟩

/-- Otherwise the element of crit cannot be read.  Without crit, a bignum is no kid. -/
example : someTags.Local ∧ tagMsg.Encoded tagPb tagEnc ∧ tagMsg.Fits someTags tagEnc ∧
    (tagMsg.untag someTags).read false = .error .cborNotWellFormed ∧
    (sign1Verify Config.full someTags toyCrypto noJunk (VerifyCtx.init 8) tagEnc true true).res =
      .error .cborNotWellFormed ∧
    (Message.untag someTags { tagMsg with prot := [] }).read false = .error .parameterCbor :=
  ⟨someTags_local, tag_encoded, ⟨by decide, by decide, by decide, by decide⟩, by decide +kernel,
    by decide +kernel, by decide +kernel⟩

/-- With room for one tag only, two tags on an element of crit are too many; on a
parameter that is not known they do no harm. -/
example : (Item.tag 8 (.tag 7 (Spec.int 70))).untag ⟨1, fun _ _ => .keep⟩ = unread ∧
    (tagMsg.untag ⟨1, fun _ _ => .keep⟩).read false = .error .cborNotWellFormed ∧
    (Message.untag ⟨1, fun _ _ => .keep⟩
      { tagMsg with prot := [(.int 70, .tag 8 (.tag 7 .null))] }).read false =
        .ok ⟨0, some [1], none, none, none, none, [], [], [70], []⟩ :=
  ⟨rfl, by decide +kernel, by decide +kernel⟩

end TCose.Props
