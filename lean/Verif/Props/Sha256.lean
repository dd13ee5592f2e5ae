import Verif.Lemmas.Sha256
import Verif.Adapters.Test
import Verif.Props.RoundTrip

/-!
# C36: the bundled SHA-256, and signing with the test adapter
-/

namespace TCose.Props
open TCose Spec

/-- A sequence of `sha256_update` calls; `none` if one of them does not return. -/
def shaUpdates (c : Bcon.Ctx) : List Bytes → Option Bcon.Ctx
  | [] => some c
  | b :: bs => (Bcon.update c b).bind (fun c => shaUpdates c bs)

/-- The full claim of C36: `init`, any number of `update`s, `final` give the
SHA-256 of the concatenation and stay inside the buffer. -/
def C36_claim : Prop :=
  ∀ (junk : Bytes) (chunks : List Bytes), junk.length = 64 →
    chunks.flatten.length < 2 ^ 61 →
    ∃ c, shaUpdates (Bcon.init junk) chunks = some c ∧ (Bcon.final c).1.ub = false ∧
      (Bcon.final c).2 = Sha256.sha256 chunks.flatten

theorem shaUpdates_fed {c : Bcon.Ctx} {m : Bytes} (h : Bcon.Fed c m) (chunks : List Bytes)
    (hl : ∀ b ∈ chunks, b.length < 2 ^ 32) :
    ∃ c', shaUpdates c chunks = some c' ∧ Bcon.Fed c' (m ++ chunks.flatten) := by
  induction chunks generalizing c m with
  | nil => exact ⟨c, rfl, by simpa using h⟩
  | cons b bs ih =>
    have hb := Bcon.update_some c b (hl b (by simp))
    obtain ⟨c', h1, h2⟩ := ih (Bcon.foldl_step_fed h b) (fun x hx => hl x (by simp [hx]))
    refine ⟨c', ?_, by simpa using h2⟩
    rw [shaUpdates, hb]
    exact h1

/-- **C36_partial.** For every message and every way of cutting it into chunks of
less than 2^32 octets each, the calls return, stay inside the context's buffer,
and give SHA-256 as FIPS 180-4 defines it. What the context held before does not
matter.

Missing: chunks of 2^32 octets or more, see `C36_claim_false`. -/
theorem C36_sha256_partial (junk : Bytes) (chunks : List Bytes) (hj : junk.length = 64)
    (hl : ∀ b ∈ chunks, b.length < 2 ^ 32) :
    ∃ c, shaUpdates (Bcon.init junk) chunks = some c ∧ (Bcon.final c).1.ub = false ∧
      (Bcon.final c).2 = Sha256.sha256 chunks.flatten := by
  obtain ⟨c, h1, h2⟩ := shaUpdates_fed (Bcon.init_fed junk hj) chunks hl
  obtain ⟨h3, h4⟩ := Bcon.final_fed h2
  exact ⟨c, h1, h3, by simpa using h4⟩

/-- **C36 violated.** With a chunk of 2^32 octets or more the loop in
`sha256_update` (32-bit counter, 64-bit length) never ends: after any number of
iterations the loop condition holds. -/
theorem C36_violated_no_return (c : Bcon.Ctx) (data : Bytes) (h : 2 ^ 32 ≤ data.length) (n : Nat)
    (i : UInt32) : Bcon.updateLoop data n i c = none :=
  Bcon.updateLoop_none data h n i c

theorem C36_claim_false : ¬ C36_claim := by
  intro h
  obtain ⟨c, h1, -⟩ := h (List.replicate 64 0) [List.replicate (2 ^ 32) 0]
    (by rw [List.length_replicate]) (by
      rw [List.flatten_cons, List.flatten_nil, List.append_nil, List.length_replicate]; decide)
  rw [shaUpdates, (Bcon.update_none _ _).mpr (by rw [List.length_replicate]; decide)] at h1
  cases h1

/-- "abc" in two pieces: the digest of FIPS 180-4's first example. -/
example : ((shaUpdates (Bcon.init (List.replicate 64 7)) [[0x61], [], [0x62, 0x63]]).map
    (fun c => (Bcon.final c).2)) = some [
      0xba, 0x78, 0x16, 0xbf, 0x8f, 0x01, 0xcf, 0xea, 0x41, 0x41, 0x40, 0xde, 0x5d, 0xae, 0x22, 0x23,
      0xb0, 0x03, 0x61, 0xa3, 0x96, 0x17, 0x7a, 0x9c, 0xb4, 0x10, 0xff, 0x61, 0xf2, 0x00, 0x15,
      0xad] := by
  decide +kernel

/-! ## The test adapter -/

/-- What a test-adapter hash context stands for. -/
def TestAbs (h : Option Bcon.Ctx) (alg : Int) (b : Bytes) : Prop :=
  alg = algSHA256 ∧ ∀ c, h = some c → Bcon.Fed c b

/-- The test adapter hashes with SHA-256 (contract used by C02, C07, C10 and
others). -/
theorem C36_test_adapter_hash (cfg : Config) (mode : Nat) (junk : Bytes) (hj : junk.length = 64) :
    StreamHash (testCrypto cfg mode junk) (fun _ b => Sha256.sha256 b) := by
  refine ⟨TestAbs, ?_, ?_, ?_, ?_⟩
  · intro alg h hh
    simp only [testCrypto] at h hh
    split at hh
    · cases hh
    · split at hh
      · cases hh
      · rename_i ha
        injection hh with hh
        subst hh
        refine ⟨by simpa using ha, ?_⟩
        intro c hc
        injection hc with hc
        subst hc
        exact Bcon.init_fed junk hj
  · intro h alg b u ⟨ha, hc⟩
    refine ⟨ha, ?_⟩
    intro c' hc'
    cases hh : h with
    | none => subst hh; cases hc'
    | some c =>
      subst hh
      change Bcon.update c u = some c' at hc'
      by_cases hl : u.length < 4294967296
      · rw [Bcon.update_some c u hl] at hc'
        injection hc' with hc'
        rw [← hc']
        exact Bcon.foldl_step_fed (hc c rfl) u
      · rw [(Bcon.update_none c u).mpr (by omega)] at hc'
        cases hc'
  · intro h alg b n hh
    exact hh
  · intro h alg b n r ⟨ha, hc⟩ hr
    simp only [testCrypto, testFinish] at h hr
    cases hh : h with
    | none => subst hh; simp at hr
    | some c =>
      subst hh
      simp only at hr
      split at hr
      · cases hr
      · split at hr
        · cases hr
        · injection hr with hr
          rw [← hr]
          exact (Bcon.final_fed (hc c rfl)).2

theorem out_length (s : Bcon.State) : s.out.length = 32 := by
  simp [Bcon.State.out, Bcon.wordOut]

theorem test_hashFits (cfg : Config) (mode : Nat) (junk : Bytes) :
    HashFits (testCrypto cfg mode junk) := by
  intro h n r hr
  simp only [testCrypto, testFinish] at h hr
  split at hr
  · cases hr
  · split at hr
    · cases hr
    · split at hr
      · cases hr
      · rename_i hn
        injection hr with hr
        have : r.length = 32 := by rw [← hr]; exact out_length _
        refine ⟨?_, by omega⟩
        intro h0; rw [h0] at this; simp at this

theorem test_signFits (cfg : Config) (mode : Nat) (junk : Bytes) :
    SignFits (testCrypto cfg mode junk) :=
  ⟨fun _ _ _ _ _ h => by simp [testCrypto] at h, fun _ _ _ _ h => by simp [testCrypto] at h⟩

theorem test_signVerify (cfg : Config) (mode : Nat) (junk : Bytes) (sk pk : Key) :
    SignVerify (testCrypto cfg mode junk) sk pk :=
  ⟨fun _ _ _ _ _ h => by simp [testCrypto] at h, fun _ _ _ _ h => by simp [testCrypto] at h⟩

/-- Feeding chunks of less than 2^32 octets. -/
theorem test_foldl (us : List UB)
    (hl : ∀ u ∈ us, u.bytes.length < 4294967296) (c : Bcon.Ctx) (b : Bytes) (hc : Bcon.Fed c b) :
    ∃ c', us.foldl testUpdate (some c) = some c' ∧
      Bcon.Fed c' (b ++ (us.map UB.bytes).flatten) := by
  induction us generalizing c b with
  | nil => exact ⟨c, rfl, by simpa using hc⟩
  | cons u us ih =>
    rw [List.foldl_cons]
    cases u with
    | null n =>
      obtain ⟨c', h1, h2⟩ := ih (fun x hx => hl x (by simp [hx])) c b hc
      exact ⟨c', h1, by simpa [UB.bytes] using h2⟩
    | data d =>
      obtain ⟨c', h1, h2⟩ := ih (fun x hx => hl x (by simp [hx])) _ _ (Bcon.foldl_step_fed hc d)
      refine ⟨c', ?_, by simpa [UB.bytes] using h2⟩
      have : testUpdate (some c) (.data d) = some (d.foldl Bcon.step c) := by
        show Bcon.update c d = _
        exact Bcon.update_some c d (hl (.data d) (by simp))
      rw [this]
      exact h1

/-- **C02 for the test adapter, with nothing assumed.** For ES256 the value that is
signed or compared is SHA-256 (FIPS 180-4) of the RFC 8152 Sig_structure; hashing
does not fail and does not write outside the hash buffer, in any build
configuration. -/
theorem C36_tbs_hash (cfg : Config) (junk : Bytes) (hj : junk.length = 64) (prot aad payload : UB)
    (hp : prot.wf) (ha : aad.wf) (hw : payload.wf)
    (lp : prot.bytes.length < 2 ^ 32) (la : aad.bytes.length < 2 ^ 32)
    (lw : payload.bytes.length < 2 ^ 32) :
    createTbsHash cfg (testCrypto cfg 0 junk) algES256 prot aad payload (maxHashSize cfg) =
      .ok (Sha256.sha256 (sigStructure prot.bytes aad.bytes payload.bytes)) := by
  rw [createTbsHash_eq, if_neg (by simp [hashAlgOfSigAlg, algES256, algSHA256, algNone])]
  have hs : (testCrypto cfg 0 junk).hashStart (hashAlgOfSigAlg cfg algES256) =
      .ok (some (Bcon.init junk)) := by
    simp [testCrypto, hashAlgOfSigAlg]
  rw [hs]
  simp only
  have hb := tbsChunks_bytes hp ha hw
  have hsm : ∀ u ∈ tbsChunks prot aad payload, u.bytes.length < 4294967296 := by
    have hh : ∀ n, (encodeHead 2 n).length < 4294967296 := by
      intro n
      have := encodeHead_length_le 2 n
      omega
    have hcs : (0x84 :: 0x6a :: contextString).length < 4294967296 := by decide
    simp only [tbsChunks, List.mem_cons, List.not_mem_nil, or_false]
    rintro u (h | h | h | h | h | h | h) <;> subst h
    · exact hcs
    · exact hh _
    · exact lp
    · exact hh _
    · exact la
    · exact hh _
    · exact lw
  obtain ⟨c, h1, h2⟩ := test_foldl _ hsm _ _ (Bcon.init_fed junk hj)
  show testFinish 0 (List.foldl testUpdate (some (Bcon.init junk)) (tbsChunks prot aad payload)) _ = _
  rw [h1]
  obtain ⟨h3, h4⟩ := Bcon.final_fed h2
  have hm : ¬ (maxHashSize cfg < 32 ∨ (Bcon.final c).1.ub = true) := by
    rw [h3]
    unfold maxHashSize
    split
    · simp
    · split <;> simp
  unfold testFinish
  simp only
  rw [if_neg (by decide), if_neg hm, h4, List.nil_append, hb]

/-- **End to end, with nothing assumed.** What `t_cose_sign1_sign` produces with the
test adapter, ES256 and short-circuit signing is the RFC 8152 encoding of the
message whose signature is twice the SHA-256 of the Sig_structure. -/
theorem C36_short_circuit_message (cfg : Config) (junk : Bytes) (hj : junk.length = 64)
    (me me' : SignCtx) (payload m : Bytes) (r : UB) (e' : Enc) (halg : me.alg = algES256)
    (hsc : Spec.Opt.shortCircuit me.flags = true)
    (h : sign1Sign cfg (testCrypto cfg 0 junk) me (.data payload) (.buf m) = (.ok r, me', e')) :
    let d := Sha256.sha256 (sigStructure (protectedHeader algES256) [] payload)
    r = .data (coseSign1 (!Spec.Opt.omitTag me.flags) algES256 (specKid me) (specCt cfg me)
      (some payload) (d ++ d)).enc := by
  have hsc : hasFlag me.flags optShortCircuit = true := hsc
  intro d
  obtain ⟨sig, h1, h2⟩ := C07_sign cfg _ _ (C36_test_adapter_hash cfg 0 junk hj)
    (test_signFits cfg 0 junk) me me' payload m r e' h
  rw [halg] at h1
  unfold SigFor at h2
  rw [opt_shortCircuit, if_pos hsc, halg] at h2
  obtain ⟨ha, n, -, hs⟩ := h2
  have hd : d.length = 32 := by
    have : ∀ v : Sha256.Vars, v.bytes.length = 32 := by
      intro v; simp [Sha256.Vars.bytes, Sha256.beBytes_length]
    exact this _
  have hne : d ≠ [] := by intro h0; rw [h0] at hd; simp at hd
  obtain ⟨q1, q2⟩ := C12_sign_repeats algES256 64 rfl d hne n
  have hroom : 64 ≤ n := by
    apply Nat.le_of_not_lt
    intro hlt
    have hs' : scSign algES256 d n = .ok sig := hs
    rw [q2 hlt] at hs'
    cases hs'
  obtain ⟨s, hs', hl, hg⟩ := q1 hroom
  have hsig : sig = d ++ d := by
    have : scSign algES256 d n = .ok sig := hs
    rw [hs'] at this
    injection this with this
    subst this
    apply List.ext_getElem?
    intro j
    by_cases hj : j < 64
    · rw [hg j hj, hd]
      by_cases h32 : j < 32
      · rw [List.getElem?_append_left (by omega), Nat.mod_eq_of_lt h32]
      · rw [List.getElem?_append_right (by omega), hd]
        congr 1
        omega
    · rw [List.getElem?_eq_none (by omega), List.getElem?_eq_none (by simp; omega)]
  rw [h1, hsig]

/-- The hypotheses are met by an ordinary context. -/
example : (SignCtx.init 1 algES256).alg = algES256 ∧
    Spec.Opt.shortCircuit (SignCtx.init 1 algES256).flags = true ∧
    ((sign1Sign Config.full (testCrypto Config.full 0 (List.replicate 64 0))
      (SignCtx.init 1 algES256) (.data [1, 2, 3]) (.buf (List.replicate 200 0))).1.map UB.len) =
      .ok 112 := by
  decide +kernel

end TCose.Props
