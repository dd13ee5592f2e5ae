import Verif.Props.EachSignSwitch

/-!
# C107: what key id and content type change in signing
-/

namespace TCose.Props
open TCose Spec

variable {cfg : Config} {C : Crypto} {D : Int → Bytes → Bytes} {me : SignCtx} {det : Bool} {payload aad : UB} {N : Nat}

/-- **C107.** Two signing contexts that differ in key id and content type, and buffers whose lengths differ as the
unprotected headers do: both calls end with the same error, or with messages that are the same but for the unprotected
header, with one signature. -/
theorem C107_unsigned {k : UB} {n : Nat} {t : Option Bytes} (hfit : SignFits C) (hD : Hashes N cfg C D me.alg)
    (ha : ProperArgs N cfg me det payload aad)
    (ha' : ProperArgs N cfg { me with kid := k, contentTypeUint := n, contentTypeTstr := t } det payload aad)
    (hc : me.contentTypeUint = noContentType ∨ me.contentTypeTstr = none) (hc' : n = noContentType ∨ t = none)
    {m m' : Bytes} :
    let me' := { me with kid := k, contentTypeUint := n, contentTypeTstr := t }
    m.length + (unprotectedHeader (specKid me') (specCt cfg me')).enc.length =
      m'.length + (unprotectedHeader (specKid me) (specCt cfg me)).enc.length →
    ∃ r : Except Err Bytes,
      signed cfg C me det payload aad m = r.map (fun s => .data (coseSign1 (!Opt.omitTag me.flags) me.alg (specKid me)
        (specCt cfg me) (if det then none else some payload.bytes) s).enc) ∧
      signed cfg C me' det payload aad m' = r.map (fun s => .data (coseSign1 (!Opt.omitTag me.flags) me.alg (specKid me')
        (specCt cfg me') (if det then none else some payload.bytes) s).enc) := by
  intro me' hm
  have hl : ∀ s, (finished cfg me det payload.bytes s).length +
        (unprotectedHeader (specKid me') (specCt cfg me')).enc.length =
      (finished cfg me' det payload.bytes s).length + (unprotectedHeader (specKid me) (specCt cfg me)).enc.length := by
    intro s
    rw [finished_inner, finished_inner]
    show _ = (if Opt.omitTag me.flags = true then 0 else 1) + (1 + (Item.bstr (protectedHeader me.alg)).enc.length + _ + _ + _) + _
    omega
  have hb : begun cfg me det payload.bytes + (unprotectedHeader (specKid me') (specCt cfg me')).enc.length =
      begun cfg me' det payload.bytes + (unprotectedHeader (specKid me) (specCt cfg me)).enc.length := by
    have h1 := finished_long (cfg := cfg) (det := det) (me := me) (p := payload.bytes) []
    have h2 := finished_long (cfg := cfg) (det := det) (me := me') (p := payload.bytes) []
    have h3 := hl []
    unfold begun
    omega
  rw [signed_eq hfit hD ha, signed_eq (me := me') hfit hD ha']
  have hd : toBeSignedHash cfg D me' payload.bytes aad.bytes = toBeSignedHash cfg D me payload.bytes aad.bytes := rfl
  rw [hd]
  generalize toBeSignedHash cfg D me payload.bytes aad.bytes = d
  have hf : ctxFault cfg me' = ctxFault cfg me := by
    unfold ctxFault
    rcases hc with h | h <;> rcases hc' with h' | h' <;> simp [me', h, h']
  have hsz : askSize C me' payload.bytes aad.bytes d = askSize C me payload.bytes aad.bytes d := rfl
  have hmk : ∀ j, makeSig C me' payload.bytes aad.bytes d j = makeSig C me payload.bytes aad.bytes d j := fun _ => rfl
  unfold outcome
  rw [hf, hsz]
  cases ctxFault cfg me with
  | some x => exact ⟨.error x, rfl, rfl⟩
  | none =>
    simp only
    by_cases g1 : m'.length < begun cfg me' det payload.bytes
    · rw [if_pos g1, if_pos (by omega)]
      exact ⟨.error .tooSmall, rfl, rfl⟩
    rw [if_neg g1, if_neg (by omega)]
    by_cases g2 : m'.length = begun cfg me' det payload.bytes
    · rw [if_pos g2, if_pos (by omega)]
      cases askSize C me payload.bytes aad.bytes d with
      | error x => exact ⟨.error x, rfl, rfl⟩
      | ok k => exact ⟨.error .tooSmall, rfl, rfl⟩
    rw [if_neg g2, if_neg (by omega)]
    have hr : m.length - begun cfg me det payload.bytes = m'.length - begun cfg me' det payload.bytes := by omega
    rw [hr, hmk]
    cases makeSig C me payload.bytes aad.bytes d (m'.length - begun cfg me' det payload.bytes) with
    | error x => exact ⟨.error x, rfl, rfl⟩
    | ok s =>
      simp only
      have := hl s
      by_cases g3 : m'.length < (finished cfg me' det payload.bytes s).length
      · rw [if_pos g3, if_pos (by omega)]
        exact ⟨.error .tooSmall, rfl, rfl⟩
      · rw [if_neg g3, if_neg (by omega)]
        exact ⟨.ok s, rfl, rfl⟩

/-- The hypotheses are met: the context of the examples and one with another key id and no content type. -/
example : ProperArgs 100 Config.full exCtx false (.data [1, 2, 3]) .nil ∧
    ProperArgs 100 Config.full { exCtx with kid := .data [7, 8, 9, 10, 11], contentTypeUint := noContentType, contentTypeTstr := none }
      false (.data [1, 2, 3]) .nil ∧
    (exCtx.contentTypeUint = noContentType ∨ exCtx.contentTypeTstr = none) := by
  refine ⟨⟨rfl, rfl, by simp, by unfold PiecesUpTo; decide, by decide +kernel⟩,
    ⟨rfl, rfl, by simp, by unfold PiecesUpTo; decide, by decide +kernel⟩, by decide⟩

/-- The signature, the last 64 octets here, is one; the messages differ, and so does the room they need. -/
example :
    let s := fun me n => (signed Config.full toyCrypto me false (.data [1, 2, 3]) .nil (List.replicate n 0)).map (·.bytes)
    let a := { exCtx with kid := .nil, contentTypeUint := noContentType, contentTypeTstr := none }
    let b := { exCtx with kid := .data [7, 8, 9, 10, 11], contentTypeUint := 50, contentTypeTstr := none }
    let u := fun me => (unprotectedHeader (specKid me) (specCt Config.full me)).enc.length
    (u a, u b) = (1, 11) ∧
    (s a 200).map (fun x => x.drop (x.length - 64)) = (s b 210).map (fun x => x.drop (x.length - 64)) ∧
    (s a 200).map (·.length + 10) = (s b 210).map (·.length) ∧
    (s a 5, s b 15) = (.error .tooSmall, .error .tooSmall) ∧
    (s a 20, s b 30) = (.error .sigBufferSize, .error .sigBufferSize) := by
  decide +kernel

end TCose.Props
