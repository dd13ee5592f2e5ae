import Verif.Lemmas.Refuse
import Verif.Lemmas.VerifySafe

/-!
# Refused headers, whatever follows
-/

namespace TCose
open Spec

def Lvl.ext (x : Bytes) : Lvl → Lvl
  | .arr left => .arr left
  | .map start cnt => .map (start.ext x) cnt
  | .wrap o => .wrap (o.ext x)

/-- The decoder with `x` behind the input; only for a decoder that is not inside a
wrapped string. -/
def Dec.ext (x : Bytes) (d : Dec) : Dec :=
  { d with cur := d.cur.ext x, lvls := d.lvls.map (Lvl.ext x) }

theorem Dec.room_ext (x : Bytes) (d : Dec) : (d.ext x).room = d.room := by
  simp [Dec.room, Dec.ext]

theorem Dec.atEnd_ext (x : Bytes) (d : Dec) : (d.ext x).atEnd = d.atEnd := by
  obtain ⟨cur, lvls, err, tags⟩ := d
  unfold Dec.atEnd Dec.ext
  cases lvls with
  | nil => rfl
  | cons l ls =>
    cases l with
    | arr n => rcases n with _ | _ | n <;> rfl
    | map => rfl
    | wrap => rfl

theorem Dec.fetch_ext {P : QParams} {x : Bytes} {d : Dec} {r : Except QErr Itm} {c1 : Cur}
    (h : d.fetch P = (r, c1)) (hs : ∀ e, r = .error e → e.stable) :
    (d.ext x).fetch P = (r, c1.ext x) := by
  unfold Dec.fetch at h ⊢
  rw [Dec.atEnd_ext]
  split at h
  · cases h; exact absurd rfl (hs _ rfl).2.1
  · rename_i hc
    have hc' : ¬ (d.atEnd || (d.ext x).cur.rest.isEmpty) = true := by
      simp only [Bool.or_eq_true, List.isEmpty_iff, not_or] at hc ⊢
      exact ⟨hc.1, by simp [Dec.ext, Cur.ext, hc.2]⟩
    rw [if_neg hc']
    show (match entry P false (d.cur.ext x) with
      | (.error e, c1) => (Except.error e, c1)
      | (.ok (_, it), c1) =>
        match it.err with
        | some e => (.error e, c1)
        | none => (.ok it, c1)) = _
    cases hen : entry P false d.cur with
    | mk r0 c0 =>
      rw [hen] at h
      cases r0 with
      | error e =>
        obtain ⟨rfl, rfl⟩ := Prod.mk.inj h
        rw [entry_err hen (hs _ rfl)]
      | ok q =>
        rw [entry_ext hen]
        obtain ⟨l, it⟩ := q
        simp only at h ⊢
        cases hi : it.err with
        | some e =>
          rw [hi] at h
          obtain ⟨rfl, rfl⟩ := Prod.mk.inj h
          rfl
        | none =>
          rw [hi] at h
          obtain ⟨rfl, rfl⟩ := Prod.mk.inj h
          rfl

theorem openLvl_ext {x : Bytes} {n : Option Nat} {c : Cur} (h : n ≠ none ∨ c.rest ≠ []) :
    Dec.openLvl n (c.ext x) = ((Dec.openLvl n c).1, (Dec.openLvl n c).2.ext x) := by
  unfold Dec.openLvl
  cases n with
  | some k => rfl
  | none =>
    have hne : c.rest ≠ [] := h.resolve_left (fun h => h rfl)
    have hh : (c.ext x).rest.head? = c.rest.head? := head_ext hne
    have hlen : 1 ≤ c.rest.length := by
      cases hc : c.rest with
      | nil => exact absurd hc hne
      | cons a t => simp
    simp only [hh]
    split
    · rw [Cur.ext_adv hlen]
    · rfl

theorem openLvl_none_nil {c : Cur} (h : c.rest = []) : Dec.openLvl none c = (none, c) := by
  unfold Dec.openLvl
  simp [h]

theorem itemDone_ext {x : Bytes} {ls : List Lvl} {c : Cur} (hne : c.rest ≠ []) :
    Dec.itemDone (ls.map (Lvl.ext x)) (c.ext x) =
      ((Dec.itemDone ls c).1.map (Lvl.ext x), (Dec.itemDone ls c).2.ext x) := by
  have hh : (c.ext x).rest.head? = c.rest.head? := head_ext hne
  have hlen : 1 ≤ c.rest.length := by
    cases hc : c.rest with
    | nil => exact absurd hc hne
    | cons a t => simp
  cases ls with
  | nil => rfl
  | cons l ls =>
    cases l with
    | arr n =>
      cases n with
      | none =>
        simp only [List.map_cons, Lvl.ext, Dec.itemDone, hh]
        split
        · rw [Cur.ext_adv hlen]; rfl
        · rfl
      | some n => rfl
    | map => rfl
    | wrap => rfl

theorem Dec.done_ext {x : Bytes} {d : Dec} {c : Cur} (h : c.rest ≠ []) :
    (d.ext x).done (c.ext x) = (d.done c).ext x := by
  unfold Dec.done Dec.ext
  simp only [itemDone_ext h]

theorem Dec.done_nil {d : Dec} {c : Cur} (h : c.rest = []) : (d.done c).cur.rest = [] := by
  unfold Dec.done
  simp only
  generalize d.lvls = ls
  cases ls with
  | nil => exact h
  | cons l ls =>
    cases l with
    | arr n =>
      cases n with
      | none => simp [Dec.itemDone, h]
      | some n => exact h
    | map => exact h
    | wrap => exact h

theorem Dec.mapSearch_ext {P : QParams} {x : Bytes} {d : Dec} {σ : Type} {qs : List (Int × QTyp)}
    {cb : σ → Option Val → σ × Bool} {s s' : σ} {r : Except QErr Found}
    (h : d.mapSearch P qs cb s = (r, s')) (hs : ∀ e, r = .error e → e.stable) :
    (d.ext x).mapSearch P qs cb s = (extF x r, s') := by
  have hroom := Dec.room_ext x d
  unfold Dec.mapSearch at h ⊢
  rw [hroom]
  unfold Dec.ext
  simp only
  cases hl : d.lvls with
  | nil => rw [hl] at h; obtain ⟨rfl, rfl⟩ := Prod.mk.inj h; rfl
  | cons l ls =>
    rw [hl] at h
    cases l with
    | arr => obtain ⟨rfl, rfl⟩ := Prod.mk.inj h; rfl
    | wrap => obtain ⟨rfl, rfl⟩ := Prod.mk.inj h; rfl
    | map start cnt =>
      simp only [List.map_cons, Lvl.ext]
      by_cases h0 : cnt = some 0
      · subst h0
        obtain ⟨rfl, rfl⟩ := Prod.mk.inj h; rfl
      · have hgen : ∀ (c : Cur), (match (Lvl.map c cnt :: ls : List Lvl) with
            | .map _ (some 0) :: _ => ((.ok [] : Except QErr Found), s)
            | .map start cnt :: _ =>
              match searchLoop P d.room qs cb (start.rest.length + 1) cnt start [] s with
              | (.error e, s) => (.error e, s)
              | (.ok (found, _), s) => (.ok found, s)
            | _ => (.error .mapNotEntered, s)) =
            match searchLoop P d.room qs cb (c.rest.length + 1) cnt c [] s with
              | (.error e, s) => (.error e, s)
              | (.ok (found, _), s) => (.ok found, s) := by
          intro c
          rcases cnt with _ | _ | n
          · rfl
          · exact absurd rfl h0
          · rfl
        have h1 : (match searchLoop P d.room qs cb (start.rest.length + 1) cnt start [] s with
              | (.error e, s) => ((.error e : Except QErr Found), s)
              | (.ok (found, _), s) => (.ok found, s)) = (r, s') := by
          rw [← h, ← hgen start]
          rcases cnt with _ | _ | n <;> rfl
        have h2 : ∀ ls', (match (Lvl.map (start.ext x) cnt :: ls' : List Lvl) with
            | .map _ (some 0) :: _ => ((.ok [] : Except QErr Found), s)
            | .map start cnt :: _ =>
              match searchLoop P d.room qs cb (start.rest.length + 1) cnt start [] s with
              | (.error e, s) => (.error e, s)
              | (.ok (found, _), s) => (.ok found, s)
            | _ => (.error .mapNotEntered, s)) = (extF x r, s') := by
          intro ls'
          rcases cnt with _ | _ | n
          case some.zero => exact absurd rfl h0
          all_goals
            simp only
            cases hsl : searchLoop P d.room qs cb (start.rest.length + 1) _ start [] s with
            | mk r0 s0 =>
              rw [hsl] at h1
              have hle : start.rest.length + 1 ≤ (start.ext x).rest.length + 1 := by simp [Cur.ext]
              cases r0 with
              | error e =>
                obtain ⟨rfl, rfl⟩ := Prod.mk.inj h1
                have := searchLoop_ext (x := x) hle hsl (by intro e' he'; cases he'; exact hs _ rfl)
                change searchLoop P d.room qs cb _ _ _ [] s = _ at this
                rw [this]
                rfl
              | ok q =>
                obtain ⟨g, c'⟩ := q
                obtain ⟨rfl, rfl⟩ := Prod.mk.inj h1
                have := searchLoop_ext (x := x) hle hsl (by intro e' he'; cases he')
                change searchLoop P d.room qs cb _ _ _ [] s = _ at this
                rw [this]
                rfl
        have h3 := h2 (ls.map (Lvl.ext x))
        rcases cnt with _ | _ | n
        · exact h3
        · exact absurd rfl h0
        · exact h3

theorem Dec.mapSearch_stable {P : QParams} {d : Dec} {σ τ : Type} {qs qs' : List (Int × QTyp)}
    {cb : σ → Option Val → σ × Bool} {cb' : τ → Option Val → τ × Bool} {s s' : σ} {f : Found}
    (h : d.mapSearch P qs cb s = (.ok f, s')) (t t' : τ) (e : QErr)
    (h2 : d.mapSearch P qs' cb' t = (.error e, t')) : e.stable := by
  unfold Dec.mapSearch at h h2
  cases hl : d.lvls with
  | nil => rw [hl] at h; cases h
  | cons l ls =>
    rw [hl] at h h2
    cases l with
    | arr => cases h
    | wrap => cases h
    | map start cnt =>
      rcases cnt with _ | _ | n
      case some.zero => cases h2
      all_goals
        simp only at h h2
        cases hsl : searchLoop P d.room qs cb (start.rest.length + 1) _ start [] s with
        | mk r0 s0 =>
          rw [hsl] at h
          cases r0 with
          | error e => cases h
          | ok q =>
            obtain ⟨g, c'⟩ := q
            cases hsl2 : searchLoop P d.room qs' cb' (start.rest.length + 1) _ start [] t with
            | mk r1 s1 =>
              rw [hsl2] at h2
              cases r1 with
              | ok q => cases h2
              | error e' =>
                obtain ⟨h3, -⟩ := Prod.mk.inj h2
                cases h3
                exact searchLoop_stable hsl _ _ _ _ hsl2

theorem copyParams_ext (cfg : Config) (prot : Bool) (x : Bytes) (f : Found) (p : Params) :
    copyParams cfg prot (f.ext x) p = copyParams cfg prot f p := by
  have key : ∀ i, (Found.ext x f).lookup i = (f.lookup i).map fun p => (p.1, p.2.ext x) :=
    fun i => Found.lookup_ext x i f
  have h1 : ∀ p, takeAlg prot (f.ext x) p = takeAlg prot f p := by
    intro p; unfold takeAlg; rw [key]
    rcases f.lookup 1 with _ | ⟨v, c⟩
    · rfl
    · cases v <;> rfl
  have h2 : ∀ p, takeKid (f.ext x) p = takeKid f p := by
    intro p; unfold takeKid; rw [key]
    rcases f.lookup 4 with _ | ⟨v, c⟩
    · rfl
    · cases v <;> rfl
  have h3 : ∀ p, takeIv (f.ext x) p = takeIv f p := by
    intro p; unfold takeIv; rw [key]
    rcases f.lookup 5 with _ | ⟨v, c⟩
    · rfl
    · cases v <;> rfl
  have h4 : ∀ p, takePartialIv (f.ext x) p = takePartialIv f p := by
    intro p; unfold takePartialIv; rw [key]
    rcases f.lookup 6 with _ | ⟨v, c⟩
    · rfl
    · cases v <;> rfl
  have h5 : ∀ p, takeContentType cfg (f.ext x) p = takeContentType cfg f p := by
    intro p; unfold takeContentType; rw [key]
    rcases f.lookup 3 with _ | ⟨v, c⟩
    · rfl
    · cases v <;> rfl
  unfold copyParams
  simp only [h1, h2, h3, h4, h5]

end TCose
