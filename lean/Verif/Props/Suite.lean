import Verif.Lemmas.SuiteOther
import Verif.Crypto.ToyMsg
import Verif.Props.Sha256

/-!
# C69: the test suite's own messages

`test/t_cose_make_test_messages.c` makes broken and unusual messages for the test
suite; `test/t_cose_test.c` states which result the verifier gives for each.
`Spec.Suite` writes both down as tables of literals.
-/

namespace TCose.Props
open TCose Spec TestMsg

variable (cfg : Config) (C : Crypto) (D : Bytes → Bytes) (junk : Junk)

/-- The adapter computes SHA-256 or something of the kind, at least for pieces of
less than 2³² octets: `D` maps what was hashed to 1 to 64 octets. -/
structure Digests : Prop where
  as : HashesUpTo 4294967295 C (-16) (digestRoom cfg) D
  small : ∀ b, 1 ≤ (D b).length ∧ (D b).length ≤ 64

theorem scSign_repeated {d : Bytes} (hd : 1 ≤ d.length) (room : Nat) :
    TCose.scSign algES256 d room = if 64 ≤ room then .ok (Suite.repeated d)
      else .error .sigBufferSize := by
  have hne : d ≠ [] := by rintro rfl; simp at hd
  obtain ⟨h1, h2⟩ := C12_sign_repeats algES256 64 rfl d hne room
  by_cases hr : 64 ≤ room
  · rw [if_pos hr]
    obtain ⟨s, hs, hl, hg⟩ := h1 hr
    rw [hs]
    congr 1
    apply List.ext_getElem?
    intro j
    unfold Suite.repeated
    by_cases hj : j < 64
    · rw [hg j hj, List.getElem?_map, List.getElem?_range hj]
      have : j % d.length < d.length := Nat.mod_lt _ (by omega)
      simp [List.getD_eq_getElem?_getD, List.getElem?_eq_getElem this]
    · rw [List.getElem?_eq_none (by omega), List.getElem?_eq_none (by simp; omega)]
  · rw [if_neg hr, h2 (by omega)]

theorem repeated_length (d : Bytes) : (Suite.repeated d).length = 64 := by
  simp [Suite.repeated]

theorem hdrOut_le (x : Suite.Made) (w s : Bytes) (hs : s.length = 64) :
    (x.hdrOut ++ bstrBytes w).length + 66 ≤ (x.message w s).length := by
  have h66 : ((Item.bstr s).enc).length = 66 := by
    have h2 : (Spec.head 2 64).length = 2 := by decide
    simp [Item.enc, hs, h2]
  unfold Suite.Made.hdrOut Suite.Made.message
  rw [← bstr_enc]
  cases hi : x.indef with
  | true => simp; omega
  | false => simp [Suite.Made.start, hi]; omega

/-- **C69 (messages).** Every option of the test suite's signer makes the message
that the table says, for every payload, buffer, build and adapter, exactly when it
fits the buffer. -/
theorem C69_messages {x : Suite.Made} (hx : x ∈ Suite.table)
    (hsc : cfg.disableShortCircuit = false) (hD : Digests cfg C D) (w m : Bytes)
    (hm : m.length ≤ 4294967295) (r : UB) :
    (TestMsg.sign cfg C (SignCtx.init 1 (-7)) .nil x.opts (.data w) m).1 = .ok r ↔
      (x.signed D w).length ≤ m.length ∧ r = .data (x.signed D w) := by
  rw [show SignCtx.init 1 (-7) = suiteCtx from rfl]
  rw [made_sign hx hsc hD.as w m r]
  have hd := (hD.small (sigStructure (x.prot.getD []) [] w)).1
  simp only [scSign_repeated hd]
  have hl := hdrOut_le x w _ (repeated_length (D (sigStructure (x.prot.getD []) [] w)))
  unfold Suite.Made.signed
  constructor
  · rintro ⟨s, h1, h2, h3, h4⟩
    split at h2
    · cases h2; exact ⟨h3, h4⟩
    · cases h2
  · rintro ⟨h1, h2⟩
    refine ⟨_, ?_, if_pos (by omega), h1, h2⟩
    unfold Enc.maxStart
    omega

theorem outcomes_split : ∀ e ∈ Suite.outcomes,
    (∃ r ∈ headRows, r.1 = e.opts ∧ e.vopts = 0 ∧ r.2.1 = e.needsCt ∧ e.result = .error r.2.2) ∨
    (∃ g ∈ goodRows, g.opts = e.opts ∧ g.vopts = e.vopts ∧ g.result = e.result) ∨
    (e.opts = 0x08000000 ∧ e.vopts = 0 ∧ e.result = .error .parameterCbor) ∨
    (e.opts = 0x04000000 ∧ e.vopts = 0 ∧ e.result = .error .cborNotWellFormed) := by
  decide +kernel

theorem made_two : ∀ x ∈ Suite.table,
    (x.opts = 0x08000000 → x.start = [0xd2, 0x83, 0x43, 0xa1, 0x01, 0x26] ∧ x.indef = false) ∧
    (x.opts = 0x04000000 → x.start.take 9 = [0xd2, 0x84, 0x43, 0xa1, 0x01, 0x26, 0xa1, 0x78, 0x78] ∧
      x.start.length = 48 ∧ x.indef = false) := by
  decide +kernel

/-- What verification makes of a message of the suite. -/
theorem suite_verify {e : Suite.Expected} (he : e ∈ Suite.outcomes) {x : Suite.Made}
    (hx : x ∈ Suite.table) (ho : x.opts = e.opts) (hsc : cfg.disableShortCircuit = false)
    (hct : e.needsCt = true → cfg.disableContentType = false) (hD : Digests cfg C D) (w : Bytes)
    (hw : e.opts = 0x04000000 → w.length ≤ 14) (hl : (x.signed D w).length ≤ 4294967293)
    (want : Bool) :
    (sign1Verify cfg QParams.std C junk (VerifyCtx.init (1 ||| e.vopts)) (x.signed D w)
      true want).res = e.result := by
  have hwl : w.length < 2 ^ 64 := by
    have : w.length ≤ (x.signed D w).length := by
      unfold Suite.Made.signed Suite.Made.message
      simp only [Item.enc, List.length_append]
      omega
    omega
  have hrl := repeated_length (D (sigStructure (x.prot.getD []) [] w))
  rcases outcomes_split e he with ⟨r, hr, h1, h2, h3, h4⟩ | ⟨g, hg, h1, h2, h3⟩ | ⟨h1, h2, h3⟩ |
    ⟨h1, h2, h3⟩
  · obtain ⟨k1, k2, -⟩ := headRows_stop r hr x hx (ho.trans h1.symm) cfg.disableContentType
      (by rw [h3]; exact hct)
    rw [h2, h4]
    exact stops_ext (cfg' := ctCfg cfg.disableContentType) rfl hl k1 k2
  · rw [← h2, ← h3]
    refine good_verdict hg hx (ho.trans h1.symm) (by decide) (by decide) hsc hD.as hl hrl ?_ _ _
    obtain ⟨d1, d2⟩ := hD.small (sigStructure (x.prot.getD []) [] w)
    have hs := scSign_repeated d1 64
    rw [if_pos (Nat.le_refl _)] at hs
    rw [← (C12_verify_iff _ _).1]
    exact C12_sign_verify algES256 64 rfl _ _ (by intro h; rw [h] at d1; simp at d1) d2 64 hs
  · obtain ⟨k1, k2⟩ := (made_two x hx).1 (ho.trans h1)
    rw [h2, h3]
    have hm : x.signed D w = 0xd2 :: 0x83 :: 0x43 :: 0xa1 :: 0x01 :: 0x26 :: (bstrBytes w ++
        (Item.bstr (Suite.repeated (D (sigStructure (x.prot.getD []) [] w)))).enc) := by
      unfold Suite.Made.signed Suite.Made.message
      rw [k1, k2, bstr_enc]
      simp
    rw [hm] at hl ⊢
    obtain ⟨st, hst⟩ := header_not_map (cfg := cfg) (P := QParams.std) (n := 1) (w := w)
      (r := (Item.bstr (Suite.repeated (D (sigStructure (x.prot.getD []) [] w)))).enc)
      (p := es256Params) (cr := LabelList.clear) (un := LabelList.clear) hwl
    exact verify_es256 (n := 2) (.inl ⟨rfl, rfl⟩) (by simpa [maxDecodeInput] using hl) hst
  · obtain ⟨k1, k2, k3⟩ := (made_two x hx).2 (ho.trans h1)
    rw [h2, h3]
    obtain ⟨t, ht⟩ : ∃ t, x.start = 0xd2 :: 0x84 :: 0x43 :: 0xa1 :: 0x01 :: 0x26 :: 0xa1 :: 0x78 ::
        0x78 :: t := ⟨x.start.drop 9, by
      have := List.take_append_drop 9 x.start
      rw [k1] at this
      exact this.symm⟩
    have hm : x.signed D w = 0xd2 :: 0x84 :: 0x43 :: 0xa1 :: 0x01 :: 0x26 :: 0xa1 :: 0x78 ::
        0x78 :: (t ++ ((Item.bstr w).enc ++
        (Item.bstr (Suite.repeated (D (sigStructure (x.prot.getD []) [] w)))).enc)) := by
      unfold Suite.Made.signed Suite.Made.message
      rw [ht, k3]
      simp
    have h66 : ((Item.bstr (Suite.repeated
        (D (sigStructure (x.prot.getD []) [] w)))).enc).length = 66 := by
      have h2 : (Spec.head 2 64).length = 2 := by decide
      simp [Item.enc, hrl, h2]
    have h14 : ((Item.bstr w).enc).length ≤ 15 := by
      have hw := hw h1
      have : (Spec.head 2 w.length).length = 1 := by
        unfold Spec.head
        rw [if_pos (by omega)]
        rfl
      simp [Item.enc, this]
      omega
    have htl : t.length = 39 := by
      rw [ht] at k2
      simpa using k2
    rw [hm] at hl ⊢
    obtain ⟨st, hst⟩ := header_cut (cfg := cfg) (n := 2) (x := t ++ ((Item.bstr w).enc ++
        (Item.bstr (Suite.repeated (D (sigStructure (x.prot.getD []) [] w)))).enc))
      (p := es256Params) (cr := LabelList.clear) (un := LabelList.clear) (by
        simp only [List.length_append]
        omega)
    exact verify_es256 (n := 3) (.inr ⟨rfl, rfl⟩) (by simpa [maxDecodeInput] using hl) hst

/-- **C69 (outcomes).** Signing with an option of the suite and verifying gives
the outcome that the table says, for every payload and buffer that holds the
message, every build that has the feature and every adapter that hashes.  Only the
message with a text string running past the end depends on the payload's length. -/
theorem C69_outcomes {e : Suite.Expected} (he : e ∈ Suite.outcomes) {x : Suite.Made}
    (hx : x ∈ Suite.table) (ho : x.opts = e.opts) (hsc : cfg.disableShortCircuit = false)
    (hct : e.needsCt = true → cfg.disableContentType = false) (hD : Digests cfg C D) (w m : Bytes)
    (hw : e.opts = 0x04000000 → w.length ≤ 14) (hm : m.length ≤ 4294967293)
    (hl : (x.signed D w).length ≤ m.length) :
    SuiteTest.signAndVerify cfg QParams.std C junk w m e.opts e.vopts = e.result := by
  have h1 := (C69_messages cfg C D hx hsc hD w m (by omega) (.data (x.signed D w))).mpr ⟨hl, rfl⟩
  unfold SuiteTest.signAndVerify
  rw [← ho, show SignCtx.init SuiteTest.shortCircuitFlag algES256 = SignCtx.init 1 (-7) from rfl, h1]
  exact suite_verify cfg C D junk he hx ho hsc hct hD w hw (by omega) false

theorem signed_length (x : Suite.Made) (w : Bytes) :
    (x.signed D w).length = (x.message w (List.replicate 64 0)).length := by
  have h : ∀ s : Bytes, s.length = 64 → ((Item.bstr s).enc).length = 66 := by
    intro s hs
    have h2 : (Spec.head 2 64).length = 2 := by decide
    simp [Item.enc, hs, h2]
  unfold Suite.Made.signed Suite.Made.message
  simp only [List.length_append]
  rw [h (Suite.repeated _) (repeated_length _), h (List.replicate 64 0) (by simp)]

theorem table_sizes : ∀ x ∈ Suite.table, x.start.length ≤ 114 := by decide +kernel

theorem signed_small {x : Suite.Made} (hx : x ∈ Suite.table) {w : Bytes} (hw : w.length ≤ 23) :
    (x.signed D w).length ≤ 182 + w.length := by
  rw [signed_length]
  have h66 : ((Item.bstr (List.replicate 64 0)).enc).length = 66 := by decide
  have h1 : (Spec.head 2 w.length).length = 1 := by
    unfold Spec.head
    rw [if_pos (by omega)]
    rfl
  have := table_sizes x hx
  unfold Suite.Made.message
  simp only [List.length_append, h66]
  have : ((Item.bstr w).enc).length ≤ 1 + w.length := by simp [Item.enc, h1] <;> omega
  split <;> simp <;> omega

theorem outcomes_have : ∀ e ∈ Suite.outcomes, ∃ x ∈ Suite.table, x.opts = e.opts := by
  decide +kernel

/-- Every line of the suite's expectations, with its buffer of 200 octets. -/
theorem suite_row {e : Suite.Expected} (he : e ∈ Suite.outcomes)
    (hsc : cfg.disableShortCircuit = false)
    (hct : e.needsCt = true → cfg.disableContentType = false) (hD : Digests cfg C D) (w m : Bytes)
    (hw : w.length ≤ 14) (hm : m.length = 200) :
    SuiteTest.signAndVerify cfg QParams.std C junk w m e.opts e.vopts = e.result := by
  obtain ⟨x, hx, ho⟩ := outcomes_have e he
  have := signed_small D hx (w := w) (by omega)
  exact C69_outcomes cfg C D junk he hx ho hsc hct hD w m (fun _ => hw) (by omega) (by omega)

/-- **C69 (tables).** The loop over a table of tests returns 0 exactly if every row has its
expected result, and otherwise the number of the first row that has not. -/
theorem C69_table (run : SuiteTest.Row → Except Err Unit) : ∀ (n : Nat) (l : List SuiteTest.Row),
    ((∀ t ∈ l, run t = t.result) ∧ SuiteTest.tableLoop run (n + 1) l = 0) ∨
    ∃ pre t post, l = pre ++ t :: post ∧ (∀ t ∈ pre, run t = t.result) ∧ run t ≠ t.result ∧
      SuiteTest.tableLoop run (n + 1) l = n + 1 + pre.length
  | n, [] => .inl ⟨by simp, rfl⟩
  | n, t :: l => by
    by_cases h : run t = t.result
    · have hl : SuiteTest.tableLoop run (n + 1) (t :: l) = SuiteTest.tableLoop run (n + 1 + 1) l :=
        if_neg (fun hh => hh h)
      rcases C69_table run (n + 1) l with ⟨h1, h2⟩ | ⟨pre, x, post, h1, h2, h3, h4⟩
      · exact .inl ⟨by simpa [h] using h1, hl.trans h2⟩
      · refine .inr ⟨t :: pre, x, post, by rw [h1]; rfl, by simpa [h] using h2, h3, ?_⟩
        rw [hl, h4, List.length_cons]
        omega
    · exact .inr ⟨[], t, l, rfl, by simp, h, if_pos h⟩

/- The second of three rows fails. -/
example : SuiteTest.tableLoop (fun t => if t.opts = 1 then .error .sigVerify else .ok ()) 1
    [⟨0, 0, .ok ()⟩, ⟨1, 0, .ok ()⟩, ⟨1, 0, .error .sigVerify⟩] = 2 := by
  decide +kernel

theorem tableLoop_zero {run : SuiteTest.Row → Except Err Unit} {l : List SuiteTest.Row} {n : Nat}
    (h : ∀ t ∈ l, run t = t.result) : SuiteTest.tableLoop run n l = 0 := by
  induction l generalizing n with
  | nil => rfl
  | cons t l ih =>
    unfold SuiteTest.tableLoop
    rw [if_neg (by simp [h t (by simp)])]
    exact ih fun t ht => h t (by simp [ht])

theorem badTable_rows : ∀ noCt : Bool, ∀ t ∈ SuiteTest.badTable (ctCfg noCt),
    ∃ e ∈ Suite.outcomes, e.opts = t.opts ∧ e.vopts = t.vopts ∧ e.result = t.result ∧
      (e.needsCt = true → noCt = false) := by
  decide +kernel

theorem critTable_rows : ∀ t ∈ SuiteTest.critTable,
    ∃ e ∈ Suite.outcomes, e.opts = t.opts ∧ e.vopts = t.vopts ∧ e.result = t.result ∧
      e.needsCt = false := by
  decide +kernel

theorem allUnprot_read (noCt : Bool) (w s : Bytes) :
    (rowMsg [Suite.algP] Suite.allUnprot w s).read noCt =
      .ok ⟨-7, some scKid, some (ascii "iv"), some (ascii "partial_iv"), none,
        if noCt then none else some 1, [], [], [55], []⟩ := by
  cases noCt <;> rfl

theorem allHeader_ok (hsc : cfg.disableShortCircuit = false) (hD : Digests cfg C D) (w m : Bytes)
    (hw : w.length ≤ 23) (hm : m.length = 300) :
    SuiteTest.allHeaderParametersTest cfg QParams.std C junk w m = 0 := by
  obtain ⟨x, hx, ho⟩ := outcomes_have ⟨0x00020000, 0, false, .ok ()⟩ (by simp [Suite.outcomes])
  have hsm := signed_small D hx hw
  have hk : (TestMsg.sign cfg C ((SignCtx.init SuiteTest.shortCircuitFlag algES256).setKey Key.null
      (.data [0x31, 0x31])) .nil (2 ^ allParameters) (.data w) m).1 = .ok (.data (x.signed D w)) := by
    have := (C69_messages cfg C D hx hsc hD w m (by omega) (.data (x.signed D w))).mpr
      ⟨by omega, rfl⟩
    rw [ho] at this
    exact this
  have hg : (⟨0x00020000, 0, [Suite.algP], Suite.allUnprot, .ok ()⟩ : GoodRow) ∈ goodRows := by
    simp [goodRows]
  have hres := suite_verify cfg C D junk (e := ⟨0x00020000, 0, false, .ok ()⟩)
    (by simp [Suite.outcomes]) hx ho hsc (by simp) hD w (fun h => by simp at h) (by omega) true
  obtain ⟨g1, g2, g3, g4, -, -, -⟩ := goodRows_ok _ hg
  have hrl := repeated_length (D (sigStructure (x.prot.getD []) [] w))
  obtain ⟨-, hv⟩ := verdict_run (cfg := cfg) (P := QParams.std) C junk
    (VerifyCtx.init SuiteTest.shortCircuitFlag) true (pay := .inline true) (aad := .nil)
    (by decide) (good_encoded hg hx ho (w := w)
      (s := Suite.repeated (D (sigStructure (x.prot.getD []) [] w))) (by omega) (by omega))
    ⟨by unfold Suite.Made.signed at hsm; unfold maxMessage; omega,
      show 1 ≤ 4 by decide, g3, g4⟩
    (plainB_ok g1) (plainB_ok g2) ⟨rfl, fun p hp => by cases hp⟩
  have hv := hv ⟨(fun h => by cases h), (fun h => by cases h)⟩
  rw [allUnprot_read] at hv
  obtain ⟨y, hy, -, -, hp⟩ := hv
  obtain ⟨hp, -⟩ := hp hres
  unfold SuiteTest.allHeaderParametersTest
  simp only
  rw [hk]
  simp only [UB.bytes]
  have hpp : (sign1Verify cfg QParams.std C junk (VerifyCtx.init SuiteTest.shortCircuitFlag)
      (x.signed D w) true true).params = some y.params := hp
  rw [hpp]
  simp only
  rw [hy.kid, hy.alg, hy.iv, hy.partialIv, hy.ctNum]
  cases cfg.disableContentType <;> rfl

/-- The test adapter computes SHA-256. -/
theorem test_digests (mode : Nat) (hmode : mode = 0) (fresh : Bytes) (hf : fresh.length = 64) :
    Digests cfg (testCrypto cfg mode fresh) Sha256.sha256 := by
  subst hmode
  refine ⟨⟨fun h b => ∃ c, h = some c ∧ Bcon.Fed c b, ?_, ?_, ?_, ?_⟩, ?_⟩
  · exact ⟨some (Bcon.init fresh), rfl, _, rfl, Bcon.init_fed fresh hf⟩
  · rintro h b u hu ⟨c, rfl, hc⟩
    refine ⟨_, Bcon.update_some c u (by omega), Bcon.foldl_step_fed hc u⟩
  · rintro h b k ⟨c, rfl, hc⟩
    exact ⟨c, rfl, hc⟩
  · rintro h b ⟨c, rfl, hc⟩
    obtain ⟨h3, h4⟩ := Bcon.final_fed hc
    have hm : ¬ (digestRoom cfg < 32 ∨ (Bcon.final c).1.ub = true) := by
      rw [h3, ← maxHashSize_eq]
      unfold maxHashSize
      split
      · simp
      · split <;> simp
    show testFinish 0 (some c) _ = _
    unfold testFinish
    simp only
    rw [if_neg (by decide), if_neg hm, h4]
  · intro b
    have : (Sha256.sha256 b).length = 32 := by
      simp [Sha256.sha256, Sha256.Vars.bytes, Sha256.beBytes]
    omega

/-- **C69 (suite).** In every build with short-circuit signatures and with every
adapter that hashes, the tests `bad_parameters_test`, `crit_parameters_test`,
`indef_array_and_map_test` and `all_header_parameters_test` pass, whatever their
uninitialised buffers hold and for every payload of up to 14 octets (the last test: 23). -/
theorem C69_suite (hsc : cfg.disableShortCircuit = false) (hD : Digests cfg C D) (w w' : Bytes)
    (hw : w.length ≤ 14) (hw' : w'.length ≤ 23) (m : SuiteTest.Row → Bytes) (hm : ∀ t, (m t).length = 200)
    (m1 m2 m3 m4 : Bytes) (h1 : m1.length = 200) (h2 : m2.length = 200) (h3 : m3.length = 200)
    (h4 : m4.length = 300) :
    SuiteTest.badParametersTest cfg QParams.std C junk w m = 0 ∧
    SuiteTest.critParametersTest cfg QParams.std C junk w m = 0 ∧
    SuiteTest.indefTest cfg QParams.std C junk w m1 m2 m3 = 0 ∧
    SuiteTest.allHeaderParametersTest cfg QParams.std C junk w' m4 = 0 := by
  have row : ∀ e ∈ Suite.outcomes, e.needsCt = false → ∀ m : Bytes, m.length = 200 →
      SuiteTest.signAndVerify cfg QParams.std C junk w m e.opts e.vopts = e.result :=
    fun e he hn m hm => suite_row cfg C D junk he hsc (by simp [hn]) hD w m hw hm
  refine ⟨?_, ?_, ?_, allHeader_ok cfg C D junk hsc hD w' m4 hw' h4⟩
  · apply tableLoop_zero
    intro t ht
    obtain ⟨e, he, k1, k2, k3, k4⟩ := badTable_rows cfg.disableContentType t ht
    rw [← k1, ← k2, ← k3]
    exact suite_row cfg C D junk he hsc k4 hD w _ hw (hm t)
  · apply tableLoop_zero
    intro t ht
    obtain ⟨e, he, k1, k2, k3, k4⟩ := critTable_rows t ht
    rw [← k1, ← k2, ← k3]
    exact row e he k4 _ (hm t)
  · have r1 := row ⟨0x00000080, 0, false, .ok ()⟩ (by simp [Suite.outcomes]) rfl m1 h1
    have r2 := row ⟨0x01000080, 0, false, .error .unknownCriticalParameter⟩
      (by simp [Suite.outcomes]) rfl m2 h2
    have r3 := row ⟨0x00020080, 0, false, .ok ()⟩ (by simp [Suite.outcomes]) rfl m3 h3
    unfold SuiteTest.indefTest
    rw [show 2 ^ indefinite = 0x80 from rfl, r1,
      show 0x80 ||| 2 ^ unknownCritUint = 0x01000080 from rfl, r2,
      show 0x80 ||| 2 ^ allParameters = 0x00020080 from rfl, r3]
    rfl

/-- **C69 (test adapter).** With the test adapter, whatever its uninitialised hash
contexts hold, nothing is left to assume. -/
theorem C69_test_adapter (hsc : cfg.disableShortCircuit = false) (fresh : Bytes)
    (hf : fresh.length = 64) (w w' : Bytes) (hw : w.length ≤ 14) (hw' : w'.length ≤ 23)
    (m : SuiteTest.Row → Bytes)
    (hm : ∀ t, (m t).length = 200) (m1 m2 m3 m4 : Bytes) (h1 : m1.length = 200)
    (h2 : m2.length = 200) (h3 : m3.length = 200) (h4 : m4.length = 300) :
    SuiteTest.badParametersTest cfg QParams.std (testCrypto cfg 0 fresh) junk w m = 0 ∧
    SuiteTest.critParametersTest cfg QParams.std (testCrypto cfg 0 fresh) junk w m = 0 ∧
    SuiteTest.indefTest cfg QParams.std (testCrypto cfg 0 fresh) junk w m1 m2 m3 = 0 ∧
    SuiteTest.allHeaderParametersTest cfg QParams.std (testCrypto cfg 0 fresh) junk w' m4 = 0 :=
  C69_suite cfg (testCrypto cfg 0 fresh) Sha256.sha256 junk hsc (test_digests cfg 0 rfl fresh hf) w w' hw hw'
    m hm m1 m2 m3 m4 h1 h2 h3 h4

/-- The toy adapter hashes. -/
theorem toy_digests : Digests Config.full toyCrypto (toyDigest (-16)) :=
  ⟨(by
    obtain ⟨Abs, h1, h2, h3, h4⟩ := toy_hashesAs (ha := -16) (.inl rfl) (n := digestRoom Config.full)
      (by decide)
    exact ⟨Abs, h1, fun h b u _ => h2 h b u, h3, h4⟩), fun b => by simp [toyDigest]⟩

/- The conditions hold for the suite's own payload and a buffer full of 0xa5; one
of the messages, in full; and an unknown critical parameter refused and, with the
verifier's option, accepted. -/
example : Suite.table.length = 28 ∧ Suite.outcomes.length = 30 ∧
    (∀ x ∈ Suite.table, (x.signed (toyDigest (-16)) (ascii "payload")).length ≤ 200) := by
  decide +kernel

example : SuiteTest.badParametersTest Config.full QParams.std toyCrypto noJunk (ascii "payload")
    (fun _ => List.replicate 200 0xa5) = 0 :=
  (C69_suite Config.full toyCrypto (toyDigest (-16)) noJunk rfl toy_digests (ascii "payload") (ascii "This is the content.")
    (by decide) (by decide) (fun _ => List.replicate 200 0xa5) (fun _ => List.length_replicate)
    (List.replicate 200 1) (List.replicate 200 2) (List.replicate 200 3) (List.replicate 300 4)
    List.length_replicate List.length_replicate List.length_replicate
    List.length_replicate).1

example : SuiteTest.signAndVerify Config.full QParams.std toyCrypto noJunk (ascii "payload")
      (List.replicate 200 0xa5) 0x01000000 0 = .error .unknownCriticalParameter ∧
    SuiteTest.signAndVerify Config.full QParams.std toyCrypto noJunk (ascii "payload")
      (List.replicate 200 0xa5) 0x01000000 0x20 = .ok () := by
  decide +kernel

/- The limit on the payload of the message that is not well-formed is needed: from
15 octets on the text string ends inside the message, and what comes of the rest
depends on the signature. -/
example : SuiteTest.signAndVerify Config.full QParams.std toyCrypto noJunk (List.replicate 14 0)
      (List.replicate 300 0xa5) 0x04000000 0 = .error .cborNotWellFormed ∧
    SuiteTest.signAndVerify Config.full QParams.std toyCrypto noJunk (List.replicate 17 0)
      (List.replicate 300 0xa5) 0x04000000 0 = .error .sign1Format := by
  decide +kernel

end TCose.Props
