import Verif.Props.Frontier

/-!
# Where the line is: C21 and C22

Two more claims that are false of the code, with the exact condition under which they hold.
-/

namespace TCose.Props
open TCose Spec

variable (cfg : Config) (P : QParams) (C : Crypto) (junk : Junk)
  (me : VerifyCtx) (msg : Bytes) (aad : UB) (pay : VPayload) (want : Bool)

/-! ## C21 -/

variable {cfg P C junk me msg aad pay want} in
/-- **C21 (exactly when).** On success with an algorithm in the protected header, the one that is reported is the one
there if and only if that is not below -2^31; otherwise it differs by a multiple of 2^32. -/
theorem C21_iff (hP : P.maxTags ≤ 4)
    (h : (verifyInternal cfg P C junk me msg aad pay want).res = .ok ()) :
    ∃ v, IsView P msg v ∧ ¬ Has 1 v.unprotEntries ∧
      ∀ p, (verifyInternal cfg P C junk me msg aad pay want).params = some p →
        (¬ Has 1 v.protEntries ∧ p.alg = 0 ∧ Spec.Opt.decodeOnly me.flags = true) ∨
        ∃ i, param 1 v.protEntries = some (.int i) ∧ (p.alg = i ↔ -2 ^ 31 ≤ i) ∧
          ∃ n : Nat, p.alg = i + n * 2 ^ 32 := by
  obtain ⟨v, h1, h2, h3⟩ := C21_alg_partial cfg P C junk me msg aad pay want hP h
  refine ⟨v, h1, h2, fun p hp => (h3 p hp).imp id ?_⟩
  rintro ⟨i, a, ⟨b1, b2, b3⟩, c, d⟩
  refine ⟨i, a, ⟨fun e => by omega, fun e => d (by omega)⟩, ((p.alg - i) / 4294967296).toNat, ?_⟩
  have : 0 ≤ (p.alg - i) / 4294967296 := by omega
  omega

/-! ## C22 -/

/-- Two option words that differ in UNKNOWN_CRIT_ALLOWED only, which the second has. -/
structure CritAdded (f f' : Nat) : Prop where
  off : Spec.Opt.unknownCritAllowed f = false
  on : Spec.Opt.unknownCritAllowed f' = true
  kid : Spec.Opt.requireKid f' = Spec.Opt.requireKid f
  req : Spec.Opt.tagRequired f' = Spec.Opt.tagRequired f
  proh : Spec.Opt.tagProhibited f' = Spec.Opt.tagProhibited f
  short : Spec.Opt.allowShortCircuit f' = Spec.Opt.allowShortCircuit f
  decode : Spec.Opt.decodeOnly f' = Spec.Opt.decodeOnly f

/-- **C22 (exactly).** For all octets: without UNKNOWN_CRIT_ALLOWED the result is UNKNOWN_CRITICAL_PARAMETER if what
precedes that check finds nothing wrong and crit lists a parameter that is present and not processed — of the integers in
crit only those before the first 0 count —, and in every other case it is the result with UNKNOWN_CRIT_ALLOWED. -/
theorem C22_exact (f' : Nat) (hP : P.maxTags ≤ 4) (hl : P.Local) (hargs : ArgsOk aad pay)
    (hf : CritAdded me.flags f') :
    (verifyInternal cfg P C junk me msg aad pay want).res =
      match lookedAt cfg P msg pay f' with
      | .ok f =>
        if f.known.blocked then .error .unknownCriticalParameter
        else (verifyInternal cfg P C junk { me with flags := f' } msg aad pay want).res
      | .error _ => (verifyInternal cfg P C junk { me with flags := f' } msg aad pay want).res := by
  rw [C94_all_octets cfg P C junk me msg aad pay want hP hl hargs,
    C94_all_octets cfg P C junk { me with flags := f' } msg aad pay want hP hl hargs]
  have hpol : ∀ ts, TagPolicy f' ts ↔ TagPolicy me.flags ts := by
    intro ts
    unfold TagPolicy
    rw [hf.req, hf.proh]
  unfold verifyAll lookedAt
  by_cases hlen : maxMessage < msg.length
  · simp only [if_pos hlen]
  simp only [if_neg hlen]
  cases messageAt P msg with
  | error e => rfl
  | ok q =>
    obtain ⟨ts, xs, last, fin⟩ := q
    simp only [hpol]
    by_cases h0 : ¬ TagPolicy me.flags ts.reverse
    · simp only [if_pos h0]
    simp only [if_neg h0]
    cases readAll P cfg.disableContentType pay.octets xs last fin with
    | error e => rfl
    | ok f =>
      simp only
      by_cases h1 : Spec.Opt.requireKid f' = true ∧ f.known.kid = none
      · simp only [if_pos h1]
        unfold settle
        rw [if_pos h1, if_pos (by rw [← hf.kid]; exact h1)]
      have h1' : ¬ (Spec.Opt.requireKid me.flags = true ∧ f.known.kid = none) := by rw [← hf.kid]; exact h1
      have hon : ¬ (Spec.Opt.unknownCritAllowed f' = false ∧ f.known.blocked) := by simp [hf.on]
      simp only [if_neg h1, if_neg hon]
      unfold settle
      simp only
      rw [if_neg h1', if_neg h1, if_neg hon]
      by_cases hb : f.known.blocked
      · rw [if_pos ⟨hf.off, hb⟩, if_pos hb]
      · rw [if_neg (fun h => hb h.2), if_neg hb]
        simp only [hf.short, hf.decode]

/-- No options, and only this one. -/
example : CritAdded 0 32 := by constructor <;> decide

/-- crit with 70 alone and with 4, 0, 70, and the parameter 70 present: refused, and accepted; with the option both
are accepted.  An empty crit is refused and no crit accepted,
with and without. -/
example :
    let p : Bytes → Bytes := fun crit =>
      toyMsg true [(.uint 1, .nint 6), (.uint 2, .arr (crit.map fun b => .uint b.toNat)), (.uint 70, .null)] [] [1]
    [p [70], p [4, 0, 70], p [], toyMsg false es256Hdr [] [1]].map (fun m =>
        ((toyVerify 0 m).res, (toyVerify 32 m).res)) =
      [(.error .unknownCriticalParameter, .ok ()), (.ok (), .ok ()), (.error .critParameter, .error .critParameter),
        (.ok (), .ok ())] := by
  decide +kernel

end TCose.Props
