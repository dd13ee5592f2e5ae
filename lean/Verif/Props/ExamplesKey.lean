import Verif.Props.ExamplesMain

/-!
# C78: what the example programs return if there is no key
-/

namespace TCose.Props
open TCose Spec ExampleCode SignVerifyTest SuiteTest Spec.Examples

/-- The algorithms for which the OpenSSL example makes keys, and the curve. -/
def keyFor : Int → Option KeyData
  | -7 => some .ec256
  | -35 => some .ec384
  | -36 => some .ec521
  | -8 => some .ed25519
  | _ => none

/-- **C78 (OpenSSL key).** `make_ossl_key_pair` fails with the code of an unsupported algorithm if the
algorithm is not one of four, with that of lacking memory if there is no context, and with
`T_COSE_ERR_FAIL` if one of the three calls that follow fails.  Otherwise it gives the key. -/
theorem C78_openssl_key (G : EvpGen) (alg : Int) :
    (makeOsslKey G alg).1 =
      match keyFor alg with
      | none => .error .unsupportedSigningAlg
      | some data =>
        let ctx := G.ctxNew (evpOf data)
        if ctx = 0 then .error .insufficientMemory
        else if G.init ctx ≤ 0 ∨ (evpOf data = .ec ∧ G.curve ctx data ≠ 1) ∨ (G.keygen ctx G.pkeyNew).1 ≠ 1 then
          .error .fail
        else .ok ⟨.openssl, (G.keygen ctx G.pkeyNew).2⟩ := by
  have hk : genArgs alg = (keyFor alg).map fun d => (evpOf d, d) := by
    unfold genArgs
    by_cases h1 : alg = -7
    · subst h1; rfl
    by_cases h2 : alg = -35
    · subst h2; rfl
    by_cases h3 : alg = -36
    · subst h3; rfl
    by_cases h4 : alg = -8
    · subst h4; rfl
    rw [if_neg (show ¬ alg = algES256 from h1), if_neg (show ¬ alg = algES384 from h2),
      if_neg (show ¬ alg = algES512 from h3), if_neg (show ¬ alg = algEDDSA from h4)]
    unfold keyFor
    split <;> first | contradiction | rfl
  unfold makeOsslKey
  rw [hk]
  cases keyFor alg with
  | none => rfl
  | some data =>
    simp only [Option.map_some]
    by_cases h1 : G.ctxNew (evpOf data) = 0
    · rw [if_pos h1, if_pos h1]
    rw [if_neg h1, if_neg h1]
    by_cases h2 : G.init (G.ctxNew (evpOf data)) ≤ 0
    · rw [if_pos h2, if_pos (.inl h2)]
    rw [if_neg h2]
    have h2' : (G.init (G.ctxNew (evpOf data)) ≤ 0) = False := eq_false h2
    by_cases h3 : evpOf data = .ec ∧ G.curve (G.ctxNew (evpOf data)) data ≠ 1
    · have h3' : (evpOf data = .ec ∧ G.curve (G.ctxNew (evpOf data)) data ≠ 1) = True := eq_true h3
      simp only [h3', true_or, or_true, if_true]
    · have h3' : (evpOf data = .ec ∧ G.curve (G.ctxNew (evpOf data)) data ≠ 1) = False := eq_false h3
      simp only [h2', h3', false_or, if_false]
      split <;> rfl

/-- What is imported for an algorithm in the PSA example. -/
def importFor : Int → Option (KeyData × Psa.SigAlg)
  | -7 => some (.ec256, .ecdsa .sha256)
  | -35 => some (.ec384, .ecdsa .sha384)
  | -36 => some (.ec521, .ecdsa .sha512)
  | _ => none

/-- **C78 (PSA key).** `make_psa_ecdsa_key_pair` knows the three ECDSA algorithms; if the library
cannot be set up or the key cannot be imported, it fails with `T_COSE_ERR_FAIL`. -/
theorem C78_psa_key (init : Int) (imp : PsaType → KeyData → Psa.SigAlg → Int × UInt32) (alg : Int) :
    (makePsaKey init imp alg).1 =
      match importFor alg with
      | none => .error .unsupportedSigningAlg
      | some (data, a) =>
        if init ≠ 0 ∨ (imp .secpR1 data a).1 ≠ 0 then .error .fail
        else .ok ⟨.psa, (imp .secpR1 data a).2.toNat⟩ := by
  have key : ∀ alg data a, alg = -7 ∨ alg = -35 ∨ alg = -36 → importFor alg = some (data, a) →
      psaKeyArgs alg = some (.secpR1, data, a) →
      (makePsaKey init imp alg).1 = if init ≠ 0 ∨ (imp .secpR1 data a).1 ≠ 0 then .error .fail
        else .ok ⟨.psa, (imp .secpR1 data a).2.toNat⟩ := by
    intro alg data a h hi hp
    unfold makePsaKey
    rw [if_pos (show alg = algES256 ∨ alg = algES384 ∨ alg = algES512 from h)]
    have : psaMakeKey init imp alg = if init ≠ 0 ∨ (imp .secpR1 data a).1 ≠ 0 then .error .fail
        else .ok ⟨.psa, (imp .secpR1 data a).2.toNat⟩ := by
      unfold psaMakeKey
      rw [hp]
      simp only
      have hs : Psa.success = 0 := rfl
      rw [hs]
      by_cases h1 : init = 0
      · rw [if_neg (by simpa using h1)]
        by_cases h2 : (imp .secpR1 data a).1 = 0
        · rw [if_neg (by simpa using h2), if_neg (by simp [h1, h2])]
        · rw [if_pos h2, if_pos (.inr h2)]
      · rw [if_pos h1, if_pos (.inl h1)]
    rw [← this]
    cases psaMakeKey init imp alg <;> rfl
  by_cases h1 : alg = -7
  · subst h1; exact key _ _ _ (.inl rfl) rfl rfl
  by_cases h2 : alg = -35
  · subst h2; exact key _ _ _ (.inr (.inl rfl)) rfl rfl
  by_cases h3 : alg = -36
  · subst h3; exact key _ _ _ (.inr (.inr rfl)) rfl rfl
  have hi : importFor alg = none := by
    unfold importFor
    split <;> first | contradiction | rfl
  rw [hi]
  unfold makePsaKey
  rw [if_neg (by rintro (h | h | h) <;> contradiction)]

/-- **C78 (no key).** Without a key each of the examples returns the error code, prints it as the last thing, and
signs nothing. -/
theorem C78_no_key (cfg : Config) (P : QParams) (C : Crypto) (junk : Junk) (H : Heap) (cap : Nat)
    (K : Int → Except Err Key × List Act) (m m' : Bytes) {x : Err} :
    ((K (-7)).1 = .error x → (twoStep cfg P C junk K m).code = x.no ∧
      (twoStep cfg P C junk K m).acts = (K (-7)).2 ++ [.says "Made EC key with curve prime256v1:" x.no x.no]) ∧
    ((K (-7)).1 = .error x → 300 ≤ m.length → (oneStep cfg P C junk K m m').code = x.no ∧
      (oneStep cfg P C junk K m m').acts = [.size "Encoded payload size" 97, .says "Encoded payload:" 0 0] ++
        (K (-7)).2 ++ [.says "Made EC key with curve prime256v1:" x.no x.no]) ∧
    ((K (-8)).1 = .error x → (dynamic cfg P C junk H cap K).code = x.no ∧
      (dynamic cfg P C junk H cap K).acts = [.size "Encoded payload size" 7] ++ (K (-8)).2 ++
        [.says "Made EC key with curve ed25519:" x.no x.no]) := by
  refine ⟨fun h => ?_, fun h hm => ?_, fun h => ?_⟩
  · have h' : (K algES256).1 = .error x := h
    unfold twoStep
    rw [h']
    exact ⟨rfl, rfl⟩
  · have h' : (K algES256).1 = .error x := h
    unfold oneStep
    rw [being_encoded (by omega)]
    simp only [h']
    rw [show (UB.data beingItem.enc).len = 97 from being_length]
    exact ⟨rfl, rfl⟩
  · have h' : (K algEDDSA).1 = .error x := h
    unfold dynamic
    simp only [h']
    exact ⟨rfl, rfl⟩

/-- Without memory for the context the two-step example of the OpenSSL program returns the code of lacking memory; with one that refuses
the curve `T_COSE_ERR_FAIL`. -/
example (cfg : Config) (C : Crypto) (junk : Junk) (m : Bytes) :
    (twoStep cfg QParams.std C junk (makeOsslKey ⟨fun _ => 0, fun _ => 1, fun _ _ => 1, 5, fun _ k => (1, k)⟩) m).code =
      Err.insufficientMemory.no ∧
    (twoStep cfg QParams.std C junk (makeOsslKey ⟨fun _ => 3, fun _ => 1, fun _ _ => 0, 5, fun _ k => (1, k)⟩) m).code =
      Err.fail.no :=
  ⟨((C78_no_key cfg QParams.std C junk (H := ⟨fun _ _ => 1, fun _ _ => []⟩) 0 _ m m).1 (by rw [C78_openssl_key]; rfl)).1,
    ((C78_no_key cfg QParams.std C junk (H := ⟨fun _ _ => 1, fun _ _ => []⟩) 0 _ m m).1 (by rw [C78_openssl_key]; rfl)).1⟩

end TCose.Props
