import Verif.Lemmas.RefuseMsg
import Verif.Lemmas.Suite

/-! Helper lemmas for C69: outcomes that depend on the beginning of a message only. -/

namespace TCose
open Spec TestMsg

/-- Decoding depends on the build only through the content type. -/
theorem decodeBody_cfg (cfg cfg' : Config) (h : cfg.disableContentType = cfg'.disableContentType)
    (P : QParams) (d : Dec) (pay : VPayload) (junk : Junk) :
    decodeBody cfg P d pay junk = decodeBody cfg' P d pay junk := by
  have hc : ∀ f p, takeContentType cfg f p = takeContentType cfg' f p := by
    intro f p; unfold takeContentType; rw [h]
  have hp : ∀ b f p, copyParams cfg b f p = copyParams cfg' b f p := by
    intro b f p; unfold copyParams; simp only [hc]
  have hh : ∀ b st, parseHeader cfg P b st = parseHeader cfg' P b st := by
    intro b st; unfold parseHeader; simp only [hp]
  unfold decodeBody parseProtected
  simp only [hh]

/-- A check that can be evaluated: decoding of `pre` stops with `y`, for a reason
other than the end of the input. -/
def stopsWith (cfg : Config) (P : QParams) (pre : Bytes) (pay : VPayload) (y : Err) : Bool :=
  let d := (Dec.init pre).enterArray P
  decide (pre.length ≤ maxDecodeInput) && decide (d.err = none) && !d.cur.rest.isEmpty &&
    match decodeBody cfg P d pay ⟨.nil, .nil, .nil⟩ with
    | (.ok _, _) => false
    | (.error y', st) => decide (y' = y) &&
      (!y'.isFormat ||
       (match st.d.err with
        | some q => decide q.stable
        | none => false) ||
       (decide ((d.enterBstrWrapped P).1.err = none) &&
        match parseProtected cfg P (wrapOut .nil (d.enterBstrWrapped P).2)
          { d := (d.enterBstrWrapped P).1, params := Params.clear, crit := LabelList.clear,
            unk := LabelList.clear } with
        | (.error y'', _) => decide (y'' = y)
        | (.ok _, _) => false))

theorem stops_ext {cfg cfg' : Config} {P : QParams} {C : Crypto} {junk : Junk} {me : VerifyCtx}
    {pre x : Bytes} {aad : UB} {pay : VPayload} {want : Bool} {y : Err}
    (hc : cfg.disableContentType = cfg'.disableContentType)
    (hlen : (pre ++ x).length ≤ maxDecodeInput) (h : stopsWith cfg' P pre pay y = true)
    (ht : (processTags P me ((Dec.init pre).enterArray P)).1 = .ok ()) :
    (verifyInternal cfg P C junk me (pre ++ x) aad pay want).res = .error y := by
  unfold stopsWith at h
  simp only [Bool.and_eq_true, decide_eq_true_eq, Bool.not_eq_true', List.isEmpty_eq_false_iff] at h
  obtain ⟨⟨⟨h0, hn⟩, hne⟩, h⟩ := h
  have hi : (Dec.init pre).err = none := by unfold Dec.init; simp; omega
  have hix : Dec.init (pre ++ x) = (Dec.init pre).ext x := by
    unfold Dec.init Dec.ext Cur.ext
    simp only [List.map_nil]
    rw [if_neg (by omega), if_neg (by omega)]
  have hx : (Dec.init (pre ++ x)).enterArray P = ((Dec.init pre).enterArray P).ext x := by
    rw [hix]
    exact Dec.enterArray_ext hi (fun e he => by rw [hn] at he; cases he) (fun _ _ _ => hne)
  apply verify_of_decode_error
  have herr : ((Dec.init (pre ++ x)).enterArray P).err = none := by
    rw [hx]; exact hn
  refine .inr ⟨herr, .inr ⟨?_, ?_⟩⟩
  · rw [processTags_same P me me ((Dec.init pre).enterArray P) _ rfl (herr.trans hn.symm) (by rw [hx]; rfl)]
    exact ht
  · rw [decodeBody_cfg cfg cfg' hc, hx]
    obtain ⟨-, n, c1, tags, -, hd⟩ := enterArray_msg rfl hn
    rw [decodeBody_junk (d := ((Dec.init pre).enterArray P).ext x) hn junk ⟨.nil, .nil, .nil⟩]
    cases hb : decodeBody cfg' P ((Dec.init pre).enterArray P) pay ⟨.nil, .nil, .nil⟩ with
    | mk r st =>
      rw [hb] at h
      cases r with
      | ok _ => cases h
      | error y' =>
        simp only [Bool.and_eq_true, decide_eq_true_eq, Bool.or_eq_true, Bool.not_eq_true'] at h
        obtain ⟨rfl, h⟩ := h
        obtain ⟨st'', h3⟩ := decodeBody_ext (x := x) (left := (Dec.openLvl n c1).1) hn (by rw [hd])
          hb (by
            rcases h with (h | h) | ⟨h, h'⟩
            · exact .inl h
            · right; left
              cases hq : st.d.err with
              | none => rw [hq] at h; cases h
              | some q => rw [hq] at h; exact ⟨q, rfl, by simpa using h⟩
            · right; right
              refine ⟨h, ?_⟩
              split at h'
              · rename_i y'' st' hst
                simp only [decide_eq_true_eq] at h'
                subst h'
                exact ⟨st', hst⟩
              · cases h')
        rw [h3]

/-- The rows whose outcome is decided by the headers: options of the signer,
whether the content type has to be supported, outcome. -/
def headRows : List (Nat × Bool × Err) :=
  [(0x00001000, false, .parameterCbor), (0x00000800, true, .duplicateParameter),
   (0x00002000, true, .badContentType), (0x02000000, false, .cborNotWellFormed),
   (0x00004000, false, .duplicateParameter), (0x00080000, false, .tooManyParameters),
   (0x00008000, false, .parameterCbor), (0x40000000, false, .critParameter),
   (0x10000000, false, .parameterCbor), (0x80000000, false, .parameterCbor),
   (0x00010000, false, .parameterCbor), (0x00400000, false, .critParameter),
   (0x00200000, false, .critParameter), (0x00100000, false, .parameterNotProtected),
   (0x00000200, false, .critParameter), (0x00000100, false, .critParameter)]

/-- Builds with and without content type. -/
def ctCfg (noCt : Bool) : Config := { Config.full with disableContentType := noCt }

theorem headRows_stop : ∀ r ∈ headRows, ∀ x ∈ Suite.table, x.opts = r.1 →
    ∀ noCt : Bool, (r.2.1 = true → noCt = false) →
      stopsWith (ctCfg noCt) QParams.std x.start (.inline true) r.2.2 = true ∧
      (processTags QParams.std (VerifyCtx.init SuiteTest.shortCircuitFlag)
        ((Dec.init x.start).enterArray QParams.std)).1 = .ok () ∧ x.start.length ≤ 250 := by
  decide +kernel

end TCose
