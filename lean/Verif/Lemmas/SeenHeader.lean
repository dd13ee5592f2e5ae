import Verif.Lemmas.Seen
import Verif.Lemmas.Returned

/-!
# Header parameters, item by item
-/

namespace TCose
open Spec

theorem valuesOf_append (i : Int) (a b : List (Item × Item)) :
    valuesOf i (a ++ b) = valuesOf i a ++ valuesOf i b := by
  unfold valuesOf
  rw [List.filterMap_append]

theorem values_cases {P : QParams} {r : Nat} {es : List Entry} {ps : List (Item × Item)}
    (h : Each (Shows P r true) es ps) {i : Int} (hi : i ≤ 9223372036854775807)
    (once : (es.filter (fun e => e.key = some i)).length ≤ 1) :
    (valuesOf i ps = [] ∧ ∀ e ∈ es, e.label ≠ some (.int i)) ∨
    ∃ e ∈ es, e.label = some (.int i) ∧ ∃ x, valuesOf i ps = [x] ∧ ValShows P r e x := by
  have h1 := each_valuesOf h hi
  have heq : es.filter (fun e => decide (e.key = some i)) =
      es.filter (fun e => decide (e.label = some (.int i))) := by
    congr 1
    funext e
    exact decide_eq_decide.mpr key_iff
  rw [heq] at once
  cases hf : es.filter (fun e => decide (e.label = some (.int i))) with
  | nil =>
    rw [hf] at h1
    refine .inl ⟨each_nil h1, ?_⟩
    rw [List.filter_eq_nil_iff] at hf
    intro e he hl
    exact hf e he (by simpa using hl)
  | cons e rest =>
    have hrest : rest = [] := by
      rw [hf] at once
      cases rest with
      | nil => rfl
      | cons a b => simp only [List.length_cons] at once; omega
    subst hrest
    rw [hf] at h1
    obtain ⟨x, xs, hx, h2, h3⟩ := each_cons h1
    have := each_nil h3
    subst this
    have hmem : e ∈ es.filter (fun e => decide (e.label = some (.int i))) := by rw [hf]; simp
    rw [List.mem_filter] at hmem
    exact .inr ⟨e, hmem.1, by simpa using hmem.2, x, hx, h2⟩

/-- A byte-string parameter, over both headers. -/
theorem bstr_seen {P : QParams} {r1 r2 : Nat} {pe ue : List Entry} {pp up : List (Item × Item)}
    (hp : Each (Shows P r1 true) pe pp) (hu : Each (Shows P r2 true) ue up) {i : Int}
    (hi : i ≤ 9223372036854775807)
    (o1 : (pe.filter (fun e => e.key = some i)).length ≤ 1)
    (o2 : (ue.filter (fun e => e.key = some i)).length ≤ 1) {g1 g2 : Option Str}
    (n1 : (∀ e ∈ pe, e.label ≠ some (.int i)) → g1 = none)
    (h1 : ∀ e ∈ pe, e.label = some (.int i) → ∃ s, e.itm.val = .bstr s ∧ g1 = some s)
    (n2 : (∀ e ∈ ue, e.label ≠ some (.int i)) → g2 = g1)
    (h2 : ∀ e ∈ ue, e.label = some (.int i) → g1 = none ∧ ∃ s, e.itm.val = .bstr s ∧ g2 = some s) :
    valuesOf i (pp ++ up) = g2.toList.map fun s => Item.bstr s.bytes := by
  rw [valuesOf_append]
  rcases values_cases hp hi o1 with ⟨a1, a2⟩ | ⟨e, he, hl, x, a1, a2⟩
  · rw [a1, List.nil_append]
    have g1n := n1 a2
    rcases values_cases hu hi o2 with ⟨b1, b2⟩ | ⟨e, he, hl, x, b1, b2⟩
    · rw [b1, n2 b2, g1n]; rfl
    · obtain ⟨-, s, hs, hg⟩ := h2 e he hl
      rw [b1, b2.bstr hs, hg]; rfl
  · obtain ⟨s, hs, hg⟩ := h1 e he hl
    rw [a1, a2.bstr hs]
    rcases values_cases hu hi o2 with ⟨b1, b2⟩ | ⟨e, he, hl, x, b1, b2⟩
    · rw [b1, n2 b2, hg]; rfl
    · rw [(h2 e he hl).1] at hg; cases hg

/-! ## Clean items -/

theorem clean_bare : ∀ x : Item, x.clean = x.bare.clean := by
  intro x
  fun_induction Item.bare x with
  | case1 n x ih => rw [Item.clean]; exact ih
  | case2 x _ => rfl

theorem clean_number {x : Item} (h : x.bare.number ≠ none) : x.clean = true := by
  rw [clean_bare]
  cases hx : x.bare <;> rw [hx] at h <;> first | rfl | exact absurd rfl h

theorem clean_text {x : Item} (h : x.bare.text ≠ none) : x.clean = true := by
  rw [clean_bare]
  cases hx : x.bare <;> rw [hx] at h <;> first | rfl | exact absurd rfl h

theorem cleanAll_of {xs : List Item} (h : ∀ x ∈ xs, x.clean = true) : cleanAll xs = true := by
  induction xs with
  | nil => rfl
  | cons x xs ih =>
    rw [cleanAll, Bool.and_eq_true]
    exact ⟨h x (by simp), ih fun y hy => h y (by simp [hy])⟩

theorem cleanPairs_of {kvs : List (Item × Item)}
    (h : ∀ kv ∈ kvs, kv.1.clean = true ∧ kv.2.clean = true) : cleanPairs kvs = true := by
  induction kvs with
  | nil => rfl
  | cons x xs ih =>
    obtain ⟨k, v⟩ := x
    rw [cleanPairs, Bool.and_eq_true, Bool.and_eq_true]
    exact ⟨h (k, v) (by simp), ih fun y hy => h y (by simp [hy])⟩

theorem clean_tagged (ts : List Nat) (x : Item) : (tagged ts x).clean = x.clean := by
  induction ts with
  | nil => rfl
  | cons t ts ih => exact ih

theorem mem_valuesOf {i : Int} {kvs : List (Item × Item)} {kv : Item × Item} (h : kv ∈ kvs)
    (hk : kv.1.bare.number = some i) : kv.2.bare ∈ valuesOf i kvs := by
  unfold valuesOf
  rw [List.mem_filterMap]
  exact ⟨kv, h, by rw [if_pos hk]⟩

end TCose
