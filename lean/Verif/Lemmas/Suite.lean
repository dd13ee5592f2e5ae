import Verif.Lemmas.TestReplica
import Verif.Lemmas.EncEncodes
import Verif.Lemmas.Limits
import Verif.Lemmas.Expected
import Verif.TestCode.Suite
import Verif.Spec.Suite

/-! Helper lemmas for C69: the messages of the test suite. -/

namespace TCose
open Spec TestMsg

deriving instance DecidableEq for Ideal

/-- The signing context of `run_test_sign_and_verify`. -/
abbrev suiteCtx : SignCtx := SignCtx.init SuiteTest.shortCircuitFlag algES256

def optUB : Option Bytes → UB
  | some b => .data b
  | none => .nil

/-- The octets before the payload, without the head of a definite array. -/
def Spec.Suite.Made.hdrOut (x : Suite.Made) : Bytes :=
  if x.indef then x.start else Spec.head 6 18 ++ x.elements.flatten

theorem made_prot : ∀ x ∈ Suite.table,
    (optUB x.prot = if hasFlag x.opts noProtected then .nil
      else TestMsg.encodeProtected x.opts suiteCtx.alg) := by
  decide +kernel

theorem made_hdr : ∀ x ∈ Suite.table,
    hasFlag x.opts indefinite = x.indef ∧ x.hdrOut.length < 190 ∧
      hdrI suiteCtx (optUB x.prot).bytes x.opts =
        ⟨x.hdrOut, none, [⟨if hasFlag x.opts indefinite then .arrI else .arr,
          if x.indef then 2 else 1, x.elements.length⟩]⟩ := by
  decide +kernel

theorem made_prot_length : ∀ x ∈ Suite.table, (x.prot.getD []).length ≤ 4294967295 := by
  decide +kernel

theorem suite_signature {cfg : Config} {C : Crypto} (hsc : cfg.disableShortCircuit = false)
    (hash : Bytes) (n : Nat) : signature cfg C suiteCtx hash n = TCose.scSign algES256 hash n := by
  unfold signature
  rw [if_neg (by decide), if_neg (by rw [hsc]; decide)]
  unfold TestMsg.scSign TCose.scSign scSigSize
  simp only []
  rw [if_neg (by decide)]
  rfl

theorem bstr_enc (b : Bytes) : (Item.bstr b).enc = bstrBytes b := by
  simp [Item.enc, bstrBytes, encodeHead_eq_head]

theorem made_fin {x : Suite.Made} (hx : x ∈ Suite.table) (w s : Bytes) :
    fin x.opts x.hdrOut (if x.indef then 2 else 1) x.elements.length w s = x.message w s := by
  obtain ⟨h1, -, -⟩ := made_hdr x hx
  unfold fin Suite.Made.message Suite.Made.hdrOut
  rw [h1, bstr_enc, bstr_enc]
  cases hi : x.indef with
  | true => simp
  | false =>
    have h6 : Spec.head 6 18 = [0xd2] := by decide
    simp [Suite.Made.start, h6, encodeHead_eq_head, hi]

theorem tbs_hash_upTo {cfg : Config} {C : Crypto} {D : Bytes → Bytes} {p w : Bytes}
    (hh : HashesUpTo 4294967295 C algSHA256 (digestRoom cfg) D) (hp : p.length ≤ 4294967295)
    (hw : w.length ≤ 4294967295) {pu : UB} (hpu : pu.wf) (hpb : pu.bytes = p) :
    createTbsHash cfg C algES256 pu .nil (.data w) (maxHashSize cfg) =
      .ok (D (sigStructure p [] w)) := by
  have ha : hashAlgOfSigAlg cfg algES256 = algSHA256 := by simp [hashAlgOfSigAlg]
  rw [← hpb] at hp ⊢
  rw [maxHashSize_eq]
  exact createTbsHash_works (a := .nil) (w := .data w) (by rw [ha]; decide) (by rw [ha]; exact hh) hpu
    rfl rfl ⟨by decide, hp, by decide, hw⟩

/-- What the suite's signer makes, in every build and with every adapter that
hashes. -/
theorem made_sign {cfg : Config} {C : Crypto} {D : Bytes → Bytes} {x : Suite.Made}
    (hx : x ∈ Suite.table) (hsc : cfg.disableShortCircuit = false)
    (hD : HashesUpTo 4294967295 C algSHA256 (digestRoom cfg) D) (w m : Bytes)
    (r : UB) :
    (TestMsg.sign cfg C suiteCtx .nil x.opts (.data w) m).1 = .ok r ↔
      ∃ s, (x.hdrOut ++ bstrBytes w).length < Enc.maxStart ∧
        TCose.scSign algES256 (D (sigStructure (x.prot.getD []) [] w))
          (m.length - (x.hdrOut ++ bstrBytes w).length) = .ok s ∧
        (x.message w s).length ≤ m.length ∧ r = .data (x.message w s) := by
  have hh : hashAlgOfSigAlg cfg suiteCtx.alg = algSHA256 := by
    simp [SignCtx.init, hashAlgOfSigAlg]
  obtain ⟨h1, h2, h3⟩ := made_hdr x hx
  rw [TestMsg.sign_iff (w := w) (prot := optUB x.prot) (H := x.hdrOut)
    (p := if x.indef then 2 else 1) (c := x.elements.length)
    (fun hash s n h => by rw [suite_signature hsc] at h; exact scSign_fits h) (Src.data _ _)
    (by rw [hh]; decide) (by rw [hsc]; simp) (made_prot x hx) h3 ?_ ?_]
  · have hw : (optUB x.prot).wf := by cases x.prot <;> rfl
    have hb : (optUB x.prot).bytes = x.prot.getD [] := by cases x.prot <;> rfl
    by_cases hwl : w.length ≤ 4294967295
    rotate_left
    · have hlong : ¬ (x.hdrOut ++ bstrBytes w).length < Enc.maxStart := by
        unfold Enc.maxStart bstrBytes
        simp only [List.length_append]
        omega
      constructor
      · rintro ⟨_, _, _, h, _⟩; exact absurd h hlong
      · rintro ⟨_, h, _⟩; exact absurd h hlong
    have hpl : (x.prot.getD []).length ≤ 4294967295 := made_prot_length x hx
    have hc : createTbsHash cfg C suiteCtx.alg (optUB x.prot) .nil (.data w) (maxHashSize cfg) = _ :=
      tbs_hash_upTo hD hpl hwl hw hb
    rw [hc]
    simp only [made_fin hx, suite_signature hsc]
    constructor
    · rintro ⟨hash, s, h, h'⟩
      cases h
      exact ⟨s, h'⟩
    · rintro ⟨s, h⟩
      exact ⟨_, s, rfl, h⟩
  · unfold Suite.Made.elements
    cases x.prot <;> cases x.unprot <;> simp
  · unfold Enc.maxStart
    omega

end TCose
