import Verif.Lemmas.Cut

/-!
# The reference program with more steps than octets

As many steps as there are octets are enough: with more the program computes the same.
-/

namespace TCose
open Spec

theorem tagsAt_more : ∀ (f g : Nat) (b : Bytes), b.length ≤ f → b.length ≤ g → tagsAt f b = tagsAt g b := by
  intro f
  induction f with
  | zero =>
    intro g b hf _
    have : b = [] := List.length_eq_zero_iff.mp (by omega)
    subst this
    cases g <;> rfl
  | succ f ih =>
    intro g b hf hg
    cases g with
    | zero =>
      have : b = [] := List.length_eq_zero_iff.mp (by omega)
      subst this
      rfl
    | succ g =>
      rw [tagsAt, tagsAt]
      cases e : headAt b with
      | none => rfl
      | some h =>
        have := rest_lt e
        simp only
        rw [ih g h.rest (by omega) (by omega)]

theorem tagNums_more : ∀ (f g : Nat) (b : Bytes), b.length ≤ f → b.length ≤ g → tagNums f b = tagNums g b := by
  intro f
  induction f with
  | zero =>
    intro g b hf _
    have : b = [] := List.length_eq_zero_iff.mp (by omega)
    subst this
    cases g <;> rfl
  | succ f ih =>
    intro g b hf hg
    cases g with
    | zero =>
      have : b = [] := List.length_eq_zero_iff.mp (by omega)
      subst this
      rfl
    | succ g =>
      rw [tagNums, tagNums]
      cases e : headAt b with
      | none => rfl
      | some h =>
        have := rest_lt e
        simp only
        rw [ih g h.rest (by omega) (by omega)]

theorem parse_more {t d f g : Nat} {b : Bytes} (hf : b.length ≤ f) (hg : b.length ≤ g) :
    parse t f d b = parse t g d b := by
  have half : ∀ {f g : Nat}, b.length ≤ f → b.length ≤ g → ∀ q, parse t f d b = some q → parse t g d b = some q := by
    intro f g _ hg q hq
    obtain ⟨x, r⟩ := q
    obtain ⟨a, rfl, h2⟩ := parse_sound _ _ _ _ _ hq
    exact parse_complete h2 g (by simp at hg; omega) r
  cases e : parse t f d b with
  | some q => exact (half hf hg q e).symm
  | none =>
    cases e' : parse t g d b with
    | none => rfl
    | some q => rw [half hg hf q e'] at e; cases e

theorem parse_shorter {t d f : Nat} {b r : Bytes} {x : Item} (h : parse t f d b = some (x, r)) :
    r.length < b.length := by
  obtain ⟨a, rfl, h2⟩ := parse_sound _ _ _ _ _ h
  have := h2.first.length
  simp; omega

theorem tagsAt_length (f : Nat) (b : Bytes) : (tagsAt f b).2.length ≤ b.length := by
  obtain ⟨ts, h, -, -, h3⟩ := tagsAt_back f b
  have := congrArg List.length h3
  simp at this
  omega

theorem loneAt_more {t f g : Nat} {b : Bytes} (hf : b.length ≤ f) (hg : b.length ≤ g) :
    loneAt t f b = loneAt t g b := by
  unfold loneAt
  rw [tagsAt_more f g b hf hg]

theorem piece_shorter {b r : Bytes} {h : Hd} (e : headAt b = some h) (hp : h.piece = some r) :
    r.length < b.length := by
  have := rest_lt e
  unfold Hd.piece Hd.string at hp
  split at hp
  · split at hp
    · cases hp
    · cases hp; simp; omega
  · split at hp
    · split at hp
      · cases hp; omega
      · cases hp
    · split at hp
      · split at hp
        · cases hp; omega
        · cases hp
      · split at hp
        · cases hp
        · cases hp; omega

theorem loneAt_shorter {t f : Nat} {b r : Bytes} (h : loneAt t f b = some r) : r.length < b.length := by
  have hl := tagsAt_length f b
  unfold loneAt at h
  split at h
  · cases h
  · rename_i hd e
    have := rest_lt e
    split at h
    · cases h; omega
    · split at h
      · cases h; omega
      · split at h
        · have := piece_shorter e h; omega
        · cases h

theorem entryAt_more {t d f g f' g' : Nat} {b : Bytes} (hf : b.length ≤ f) (hg : b.length ≤ g)
    (hf' : b.length ≤ f') (hg' : b.length ≤ g') :
    entryAt t f (parse t f' d) b = entryAt t g (parse t g' d) b := by
  unfold entryAt
  rw [loneAt_more hf hg, parse_more hf' hg']
  cases loneAt t g b with
  | some r => rfl
  | none =>
    simp only
    cases e : parse t g' d b with
    | none => rfl
    | some q =>
      obtain ⟨k, r⟩ := q
      have := parse_shorter e
      simp only
      rw [parse_more (f := f') (g := g') (b := r) (by omega) (by omega)]

theorem entryAt_shorter {t d f f' : Nat} {b r : Bytes} {x : Item × Item}
    (h : entryAt t f (parse t f' d) b = some (x, r)) : r.length < b.length := by
  unfold entryAt at h
  split at h
  · rename_i e
    cases h
    exact loneAt_shorter e
  · split at h
    · cases h
    · rename_i e
      have := parse_shorter e
      split at h
      · split at h
        · cases h
        · rename_i e'
          have := parse_shorter e'
          cases h
          omega
      · cases h

theorem front_more {α : Type} {p q : Bytes → Option (α × Bytes)} {n : Nat}
    (hpq : ∀ b : Bytes, b.length ≤ n → p b = q b) (hs : ∀ b x r, q b = some (x, r) → r.length < b.length) :
    ∀ (f g : Nat) (b : Bytes), b.length ≤ n → b.length < f → b.length < g → front p f b = front q g b := by
  intro f
  induction f with
  | zero => intro g b _ h; omega
  | succ f ih =>
    intro g b hn hf hg
    obtain ⟨g, rfl⟩ : ∃ g', g = g' + 1 := ⟨g - 1, by omega⟩
    rw [front, front, hpq b hn]
    cases e : q b with
    | none => rfl
    | some y =>
      obtain ⟨x, r⟩ := y
      have := hs b x r e
      simp only
      rw [ih g r (by omega) (by omega) (by omega)]

theorem front_length {α : Type} {q : Bytes → Option (α × Bytes)} (hs : ∀ b x r, q b = some (x, r) → r.length < b.length) :
    ∀ (g : Nat) (b : Bytes), (front q g b).2.length ≤ b.length := by
  intro g
  induction g with
  | zero => intro b; exact Nat.le_refl _
  | succ g ih =>
    intro b
    rw [front]
    cases e : q b with
    | none => exact Nat.le_refl _
    | some y =>
      obtain ⟨x, r⟩ := y
      have := hs b x r e
      have := ih r
      simp only
      omega

theorem stopEntry_more {f g n : Nat} {p q : Bytes → Stop} {b : Bytes} (hpq : ∀ b : Bytes, b.length ≤ n → p b = q b)
    (hn : b.length ≤ n) (hf : b.length ≤ f) (hg : b.length ≤ g) : stopEntry f p b = stopEntry g q b := by
  unfold stopEntry
  rw [tagsAt_more f g b hf hg]
  have hl := tagsAt_length g b
  cases e : headAt (tagsAt g b).2 with
  | none => rfl
  | some h =>
    simp only
    cases h.stop with
    | some s => rfl
    | none =>
      simp only
      split
      · rfl
      · cases e' : h.piece with
        | none => rfl
        | some r =>
          have := piece_shorter e e'
          simp only
          rw [hpq r (by omega)]
          unfold headStop
          rw [tagsAt_more f g r (by omega) (by omega)]

theorem stopItem_more {t : Nat} : ∀ (f g d : Nat) (b : Bytes), b.length ≤ f → b.length ≤ g →
    stopItem t f d b = stopItem t g d b := by
  intro f
  induction f with
  | zero =>
    intro g d b hf _
    have : b = [] := List.length_eq_zero_iff.mp (by omega)
    subst this
    cases g <;> rfl
  | succ f ih =>
    intro g d b hf hg
    cases g with
    | zero =>
      have : b = [] := List.length_eq_zero_iff.mp (by omega)
      subst this
      rfl
    | succ g =>
      rw [stopItem, stopItem]
      cases e : headAt b with
      | none => rfl
      | some h =>
        have hlt := rest_lt e
        simp only
        cases h.stop with
        | some s => rfl
        | none =>
          simp only
          split
          · cases d with
            | zero => rfl
            | succ d =>
              simp only
              rw [front_more (n := h.rest.length) (p := parse t f d) (q := parse t g d)
                (fun b hb => parse_more (by omega) (by omega)) (fun b x r h => parse_shorter h)
                (f + 1) (g + 1) h.rest (by omega) (by omega) (by omega)]
              have := front_length (q := parse t g d) (fun b x r h => parse_shorter h) (g + 1) h.rest
              unfold stopOr
              rw [ih g d _ (by omega) (by omega)]
          · split
            · cases d with
              | zero => rfl
              | succ d =>
                simp only
                rw [front_more (n := h.rest.length) (p := entryAt t f (parse t f d)) (q := entryAt t g (parse t g d))
                  (fun b hb => entryAt_more (by omega) (by omega) (by omega) (by omega))
                  (fun b x r h => entryAt_shorter h)
                  (f + 1) (g + 1) h.rest (by omega) (by omega) (by omega)]
                have := front_length (q := entryAt t g (parse t g d)) (fun b x r h => entryAt_shorter h) (g + 1) h.rest
                unfold stopOr
                rw [stopEntry_more (f := f) (g := g) (n := h.rest.length) (q := stopItem t g d) (fun b hb => ih g d b (by omega) (by omega))
                  (by omega) (by omega) (by omega)]
            · split
              · exact ih g d h.rest (by omega) (by omega)
              · rfl

end TCose
