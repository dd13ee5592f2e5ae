import Verif.Lemmas.SuiteRefused
import Verif.Props.Verdict
import Verif.Props.ShortCircuit

/-! Helper lemmas for C69: the messages of the test suite whose headers can be read. -/

namespace TCose
open Spec TestMsg Props

mutual
/-- `Item.small`, evaluated. -/
def smallB : Item → Bool
  | .uint n | .nint n => decide (n < 2 ^ 64)
  | .bstr b | .tstr b => decide (b.length < 2 ^ 64)
  | .arr xs => decide (xs.length < 2 ^ 64) && smallAllB xs
  | .map kvs => decide (kvs.length < 2 ^ 64) && smallPairsB kvs
  | .tag n x => decide (n < 2 ^ 64) && smallB x
  | .null => true
  | .simple n => decide (n < 24 ∧ n ≠ 22 ∨ 32 ≤ n ∧ n < 256)
  | .float b => decide (b.length = 2 ∨ b.length = 4 ∨ b.length = 8)
def smallAllB : List Item → Bool
  | [] => true
  | x :: xs => smallB x && smallAllB xs
def smallPairsB : List (Item × Item) → Bool
  | [] => true
  | (k, v) :: r => smallB k && smallB v && smallPairsB r
end

mutual
theorem smallB_ok : ∀ (x : Item), smallB x = true → x.small
  | .uint n, h => by simpa [smallB, Spec.Item.small] using h
  | .nint n, h => by simpa [smallB, Spec.Item.small] using h
  | .bstr b, h => by simpa [smallB, Spec.Item.small] using h
  | .tstr b, h => by simpa [smallB, Spec.Item.small] using h
  | .arr xs, h => by
    simp only [smallB, Bool.and_eq_true, decide_eq_true_eq] at h
    unfold Spec.Item.small
    exact ⟨h.1, smallAllB_ok xs h.2⟩
  | .map kvs, h => by
    simp only [smallB, Bool.and_eq_true, decide_eq_true_eq] at h
    unfold Spec.Item.small
    exact ⟨h.1, smallPairsB_ok kvs h.2⟩
  | .tag n x, h => by
    simp only [smallB, Bool.and_eq_true, decide_eq_true_eq] at h
    unfold Spec.Item.small
    exact ⟨h.1, smallB_ok x h.2⟩
  | .null, _ => by simp [Spec.Item.small]
  | .simple n, h => by simpa [smallB, Spec.Item.small] using h
  | .float b, h => by simpa [smallB, Spec.Item.small] using h
theorem smallAllB_ok : ∀ (xs : List Item), smallAllB xs = true → smallAll xs
  | [], _ => by simp [smallAll]
  | x :: xs, h => by
    simp only [smallAllB, Bool.and_eq_true] at h
    unfold smallAll
    exact ⟨smallB_ok x h.1, smallAllB_ok xs h.2⟩
theorem smallPairsB_ok : ∀ (kvs : List (Item × Item)), smallPairsB kvs = true → smallPairs kvs
  | [], _ => by simp [smallPairs]
  | (k, v) :: r, h => by
    simp only [smallPairsB, Bool.and_eq_true] at h
    unfold smallPairs
    exact ⟨smallB_ok k h.1.1, smallB_ok v h.1.2, smallPairsB_ok r h.2⟩
end

theorem hdr_encodes {h : Header} (hs : smallB (Header.item h) = true) :
    Encodes (Header.item h) (Suite.hdr h) := enc_encodes _ (smallB_ok _ hs)

theorem hdrIndef_encodes {h : Header} (hs : smallB (Header.item h) = true) :
    Encodes (Header.item h) (Suite.hdrIndef h) := by
  have := smallB_ok _ hs
  unfold Header.item Spec.Item.small at this
  obtain ⟨bss, h1, h2⟩ := encPairs_encodes _ this.2
  unfold Suite.hdrIndef Header.item
  rw [h2]
  exact .mapIndef h1

/-- The message with given headers. -/
def rowMsg (p u : Header) (w s : Bytes) : Message := ⟨[18], p, u, some w, s⟩

theorem made_encoded {x : Suite.Made} {p u : Header} {pb ub : Bytes} (hp : x.prot = some pb)
    (hu : x.unprot = some ub) (hpe : (p = [] ∧ pb = []) ∨ Encodes (Header.item p) pb)
    (hpl : pb.length < 2 ^ 64)
    (hue : Encodes (Header.item u) ub) {w s : Bytes} (hw : w.length < 2 ^ 64)
    (hs : s.length < 2 ^ 64) : (rowMsg p u w s).Encoded pb (x.message w s) := by
  refine ⟨hpe, ?_⟩
  have h18 : HeadOf 6 18 (Spec.head 6 18) := head_of (by decide)
  have hb : ∀ b : Bytes, b.length < 2 ^ 64 → Encodes (.bstr b) (Item.bstr b).enc := by
    intro b hb
    refine enc_encodes _ ?_
    unfold Spec.Item.small
    exact hb
  have hall : EncodesAll [.bstr pb, Header.item u, .bstr w, .bstr s]
      [(Item.bstr pb).enc, ub, (Item.bstr w).enc, (Item.bstr s).enc] :=
    .cons (hb _ hpl) (.cons hue (.cons (hb _ hw) (.cons (hb _ hs) .nil)))
  have he : x.elements = [(Item.bstr pb).enc, ub] := by
    unfold Suite.Made.elements; rw [hp, hu]; rfl
  have key : ∀ t, Encodes (.arr [.bstr pb, Header.item u, .bstr w, .bstr s]) t →
      x.message w s = Spec.head 6 18 ++ t →
      Encodes (tagged [18] (.arr [.bstr pb, Header.item u, .bstr w, .bstr s])) (x.message w s) := by
    intro t ht hm
    rw [hm]
    exact .tag h18 ht
  cases hi : x.indef with
  | true =>
    refine key _ (.arrIndef hall) ?_
    unfold Suite.Made.message Suite.Made.start
    rw [he, hi]
    simp
  | false =>
    refine key _ (.arr (h := Spec.head 4 4) (head_of (n := 4) (by decide)) hall) ?_
    unfold Suite.Made.message Suite.Made.start
    rw [he, hi]
    simp

/-- A row whose headers can be read. -/
structure GoodRow where
  opts : Nat
  vopts : Nat
  prot : Header
  unprot : Header
  result : Except Err Unit

def goodRows : List GoodRow :=
  let std : Header := [Suite.algP]
  let kid : Header := [Suite.kidP]
  let cu : Header := [Suite.algP, (.int 42, .uint 43), (.int 2, .arr (Suite.ints [42, 43, 44]))]
  let ct : Header := [Suite.algP, (.text (ascii "hh"), .uint 43),
    (.int 2, .arr [Suite.text "hh", Suite.text "h", Suite.text "hhh"])]
  [⟨0, 0, std, kid, .ok ()⟩,
   ⟨0x00000400, 0, [], kid, .error .unsupportedSigningAlg⟩,
   ⟨0x20000000, 0, std, [(.int 55, .arr [.map [(.uint 66, Suite.text "hi")]]), Suite.kidP], .ok ()⟩,
   ⟨0x00800000, 0, Suite.crit (Suite.ints [10, 11, 12, 13, 14, 15, 16, 17, 18, 19]), kid, .ok ()⟩,
   ⟨0x01000000, 0, cu, kid, .error .unknownCriticalParameter⟩,
   ⟨0x00040000, 0, ct, kid, .error .unknownCriticalParameter⟩,
   ⟨0x01000000, 0x20, cu, kid, .ok ()⟩,
   ⟨0x00040000, 0x20, ct, kid, .ok ()⟩,
   ⟨0x00000080, 0, std, kid, .ok ()⟩,
   ⟨0x01000080, 0, cu, kid, .error .unknownCriticalParameter⟩,
   ⟨0x00020080, 0, std, Suite.allUnprot, .ok ()⟩,
   ⟨0x00020000, 0, std, Suite.allUnprot, .ok ()⟩]

/-- No tags anywhere in the parameters. -/
def plainB (h : Header) : Bool :=
  h.all fun p => !p.2.isTag && match p.2 with
    | .arr xs => xs.all fun y => !y.isTag
    | _ => true

theorem plainB_ok {h : Header} (hb : plainB h = true) : Header.Plain h := by
  intro i x hx _ _
  unfold plainB at hb
  rw [List.all_eq_true] at hb
  have := hb _ hx
  simp only [Bool.and_eq_true, Bool.not_eq_true'] at this
  refine ⟨this.1, ?_⟩
  rintro xs rfl y hy
  have h2 := this.2
  simp only [List.all_eq_true, Bool.not_eq_true'] at h2
  exact h2 y hy

theorem goodRows_ok : ∀ g ∈ goodRows,
    plainB g.prot = true ∧ plainB g.unprot = true ∧
    (Header.item g.prot).fits 13 = true ∧ (Header.item g.unprot).fits 14 = true ∧
    smallB (Header.item g.prot) = true ∧ smallB (Header.item g.unprot) = true ∧
    ∀ x ∈ Suite.table, x.opts = g.opts →
      ((g.prot = [] ∧ x.prot = some []) ∨ x.prot = some (Suite.hdr g.prot) ∨
        x.prot = some (Suite.hdrIndef g.prot) ∨ x.opts = 0x01000080) ∧
      (x.unprot = some (Suite.hdr g.unprot) ∨ x.unprot = some (Suite.hdrIndef g.unprot)) ∧
      (x.prot.getD []).length < 2 ^ 64 := by
  decide +kernel

/-- What the rows come to, given what the headers say. -/
def rowOutcome (g : GoodRow) (k : Known) : Bool :=
  decide (k.kid = some scKid) && decide (k.alg = -7 ∨ k.alg = 0) &&
    (if g.vopts = 0 ∧ k.blocked then decide (g.result = .error .unknownCriticalParameter)
     else if k.alg = -7 then decide (g.result = .ok ())
     else decide (g.result = .error .unsupportedSigningAlg))

def rowReads (g : GoodRow) : Except Err Known → Bool
  | .ok k => rowOutcome g k
  | .error _ => false

theorem goodRows_read : ∀ g ∈ goodRows, (g.vopts = 0 ∨ g.vopts = 0x20) ∧ ∀ noCt : Bool,
    rowReads g (Message.read noCt (rowMsg g.prot g.unprot [] [])) = true := by
  decide +kernel

/-- The one header that is written out in octets. -/
theorem critIndef_encodes : Encodes
    (Header.item [Suite.algP, (.int 42, .uint 43), (.int 2, .arr (Suite.ints [42, 43, 44]))])
    [0xbf, 0x01, 0x26, 0x18, 0x2a, 0x18, 0x2b, 0x02, 0x9f, 0x18, 0x2a, 0x18, 0x2b,
      0x18, 0x2c, 0xff, 0xff] := by
  refine .mapIndef (bss := [[0x01, 0x26], [0x18, 0x2a, 0x18, 0x2b],
    [0x02, 0x9f, 0x18, 0x2a, 0x18, 0x2b, 0x18, 0x2c, 0xff]]) ?_
  refine .cons (a := [1]) (b := [0x26]) (.uint (.direct (by decide))) (.nint (.direct (by decide))) ?_
  refine .cons (a := [0x18, 0x2a]) (b := [0x18, 0x2b]) (.uint (.wide 0 (by decide) (by decide)))
    (.uint (.wide 0 (by decide) (by decide))) ?_
  refine .cons (a := [2]) (b := [0x9f, 0x18, 0x2a, 0x18, 0x2b, 0x18, 0x2c, 0xff])
    (.uint (.direct (by decide))) ?_ .nil
  exact .arrIndef (bss := [[0x18, 0x2a], [0x18, 0x2b], [0x18, 0x2c]])
    (.cons (.uint (.wide 0 (by decide) (by decide))) (.cons (.uint (.wide 0 (by decide) (by decide)))
      (.cons (.uint (.wide 0 (by decide) (by decide))) .nil)))

theorem critIndef_row : ∀ g ∈ goodRows, ∀ x ∈ Suite.table, x.opts = g.opts → x.opts = 0x01000080 →
    x.prot = some [0xbf, 0x01, 0x26, 0x18, 0x2a, 0x18, 0x2b, 0x02, 0x9f, 0x18, 0x2a, 0x18, 0x2b,
      0x18, 0x2c, 0xff, 0xff] ∧ g = ⟨0x01000080, 0,
      [Suite.algP, (.int 42, .uint 43), (.int 2, .arr (Suite.ints [42, 43, 44]))], [Suite.kidP],
      .error .unknownCriticalParameter⟩ := by
  intro g hg x hx h1 h2
  refine ⟨?_, ?_⟩
  · revert x; revert g; decide +kernel
  · rw [h1] at h2
    simp only [goodRows, List.mem_cons, List.not_mem_nil, or_false] at hg
    rcases hg with rfl | rfl | rfl | rfl | rfl | rfl | rfl | rfl | rfl | rfl | rfl | rfl <;>
      first | rfl | (simp at h2)

/-- A good row is an encoding of its message. -/
theorem good_encoded {g : GoodRow} (hg : g ∈ goodRows) {x : Suite.Made} (hx : x ∈ Suite.table)
    (ho : x.opts = g.opts) {w s : Bytes} (hw : w.length < 2 ^ 64) (hs : s.length < 2 ^ 64) :
    (rowMsg g.prot g.unprot w s).Encoded (x.prot.getD []) (x.message w s) := by
  obtain ⟨-, -, -, -, h5, h6, h7⟩ := goodRows_ok g hg
  obtain ⟨hp, hu, hl⟩ := h7 x hx ho
  have hue : ∃ ub, x.unprot = some ub ∧ Encodes (Header.item g.unprot) ub := by
    rcases hu with h | h
    · exact ⟨_, h, hdr_encodes h6⟩
    · exact ⟨_, h, hdrIndef_encodes h6⟩
  obtain ⟨ub, hu1, hu2⟩ := hue
  have hpe : ∃ pb, x.prot = some pb ∧
      ((g.prot = [] ∧ pb = []) ∨ Encodes (Header.item g.prot) pb) := by
    rcases hp with ⟨h, h'⟩ | h | h | h
    · exact ⟨_, h', .inl ⟨h, rfl⟩⟩
    · exact ⟨_, h, .inr (hdr_encodes h5)⟩
    · exact ⟨_, h, .inr (hdrIndef_encodes h5)⟩
    · obtain ⟨h1, h2⟩ := critIndef_row g hg x hx ho h
      refine ⟨_, h1, .inr ?_⟩
      rw [h2]
      exact critIndef_encodes
  obtain ⟨pb, hp1, hp2⟩ := hpe
  rw [hp1] at hl ⊢
  exact made_encoded hp1 hu1 hp2 hl hu2 hw hs

/-- The outcome of a good row. -/
theorem good_verdict {cfg : Config} {P : QParams} {C : Crypto} {D : Bytes → Bytes} {junk : Junk}
    {g : GoodRow} (hg : g ∈ goodRows) {x : Suite.Made} (hx : x ∈ Suite.table)
    (ho : x.opts = g.opts) (hP : P.maxTags ≤ 4) (hP1 : 1 ≤ P.maxTags)
    (hsc : cfg.disableShortCircuit = false)
    (hD : HashesUpTo 4294967295 C algSHA256 (digestRoom cfg) D) {w s : Bytes}
    (hlen : (x.message w s).length ≤ 4294967293) (hs : s.length = 64)
    (hpre : D (sigStructure (x.prot.getD []) [] w) <+: s) (wp want : Bool) :
    (sign1Verify cfg P C junk (VerifyCtx.init (SuiteTest.shortCircuitFlag ||| g.vopts))
      (x.message w s) wp want).res = g.result := by
  obtain ⟨h1, h2, h3, h4, -, -, -⟩ := goodRows_ok g hg
  obtain ⟨hv, hread⟩ := goodRows_read g hg
  have hread := hread cfg.disableContentType
  have hrr : ∀ w s, (rowMsg g.prot g.unprot w s).read cfg.disableContentType =
      Message.read cfg.disableContentType (rowMsg g.prot g.unprot [] []) := fun _ _ => rfl
  have hwl : w.length ≤ 4294967293 := by
    have : w.length ≤ (x.message w s).length := by
      unfold Suite.Made.message
      simp only [Item.enc, List.length_append]
      omega
    omega
  cases hk : Message.read cfg.disableContentType (rowMsg g.prot g.unprot [] []) with
  | error e => rw [hk] at hread; cases hread
  | ok k =>
    rw [hk] at hread
    simp only [rowReads, rowOutcome, Bool.and_eq_true, decide_eq_true_eq] at hread
    obtain ⟨⟨hkid, halg⟩, hout⟩ := hread
    have hpl := made_prot_length x hx
    have h7 : createTbsHash cfg C (-7) (.data (x.prot.getD [])) .nil (.data w) (maxHashSize cfg) =
        .ok (D (sigStructure (x.prot.getD []) [] w)) :=
      tbs_hash_upTo hD hpl (by omega) rfl rfl
    have h0 : createTbsHash cfg C 0 (.data (x.prot.getD [])) .nil (.data w) (maxHashSize cfg) =
        .error .unsupportedSigningAlg := by
      rw [createTbsHash_eq, if_pos (by simp [hashAlgOfSigAlg, algES256, algES384, algES512, algPS256, algPS384, algPS512])]
    unfold sign1Verify
    obtain ⟨-, hv2⟩ := verdict_run (cfg := cfg) (P := P) C junk
      (VerifyCtx.init (SuiteTest.shortCircuitFlag ||| g.vopts)) want (pay := .inline wp) (aad := .nil)
      hP (good_encoded hg hx ho (w := w) (s := s) (by omega) (by omega)) ⟨hlen, hP1, h3, h4⟩
      (plainB_ok h1) (plainB_ok h2) ⟨rfl, fun p hp => by cases hp⟩
    have hf : ∀ v, v = 0 ∨ v = 0x20 →
        Spec.Opt.tagRequired (SuiteTest.shortCircuitFlag ||| v) = false ∧
        Spec.Opt.tagProhibited (SuiteTest.shortCircuitFlag ||| v) = false ∧
        Spec.Opt.requireKid (SuiteTest.shortCircuitFlag ||| v) = false ∧
        Spec.Opt.decodeOnly (SuiteTest.shortCircuitFlag ||| v) = false ∧
        Spec.Opt.allowShortCircuit (SuiteTest.shortCircuitFlag ||| v) = true ∧
        (Spec.Opt.unknownCritAllowed (SuiteTest.shortCircuitFlag ||| v) = false ↔ v = 0) := by
      rintro v (rfl | rfl) <;> decide
    obtain ⟨f1, f2, f3, f4, f5, f6⟩ := hf _ hv
    have hpol : TagPolicy (VerifyCtx.init (SuiteTest.shortCircuitFlag ||| g.vopts)).flags
        (rowMsg g.prot g.unprot w s).tags.reverse := by
      refine ⟨fun h => ?_, fun h => ?_⟩
      · exact absurd (f1.symm.trans h) (by simp)
      · exact absurd (f2.symm.trans h) (by simp)
    have hv2 := hv2 hpol
    rw [hrr, hk] at hv2
    obtain ⟨-, -, -, hv2, -⟩ := hv2
    rw [hv2]
    show settle _ _ _ _ (fun alg => createTbsHash cfg C alg (.data (x.prot.getD [])) .nil (.data w)
      (maxHashSize cfg)) _ _ = _
    have hfl : (VerifyCtx.init (SuiteTest.shortCircuitFlag ||| g.vopts)).flags =
      SuiteTest.shortCircuitFlag ||| g.vopts := rfl
    unfold settle
    rw [hfl, f3, f4, f5, hkid, if_neg (by simp)]
    simp only [f6]
    by_cases hb : g.vopts = 0 ∧ k.blocked
    · rw [if_pos hb] at hout ⊢
      exact (of_decide_eq_true hout).symm
    · rw [if_neg hb] at hout ⊢
      rw [if_pos (by simp [hsc]), if_neg (by simp), if_neg (by simp)]
      rcases halg with h | h
      · rw [if_pos h] at hout
        rw [h]
        simp only [h7]
        rw [if_pos]
        · exact (of_decide_eq_true hout).symm
        · exact hpre
      · rw [if_neg (by rw [h]; decide)] at hout
        rw [h]
        simp only [h0]
        exact (of_decide_eq_true hout).symm

end TCose
