import Verif.Lemmas.SignSize

/-! Helper lemmas: the copy loop of short-circuit signing. -/

namespace TCose

theorem scLoop_get {h : Bytes} (hh : h ≠ []) {n : Nat} : ∀ {fuel i : Nat} {buf b : Bytes},
    buf.length = n → i % h.length = 0 →
    (∀ j, j < i → j < n → buf[j]? = h[j % h.length]?) →
    scLoop h n fuel i buf = some b → ∀ j, j < n → b[j]? = h[j % h.length]? := by
  have hp : 0 < h.length := List.length_pos_iff.mpr hh
  have done : ∀ {i : Nat} {buf b : Bytes}, ¬ i < n →
      (∀ j, j < i → j < n → buf[j]? = h[j % h.length]?) → some buf = some b →
      ∀ j, j < n → b[j]? = h[j % h.length]? := by
    intro i buf b hi hinv hs j hj
    injection hs with hs; subst hs
    exact hinv j (by omega) hj
  intro fuel
  induction fuel with
  | zero =>
    intro i buf b hb hm hinv hs
    unfold scLoop at hs
    split at hs
    · cases hs
    · rename_i hi; exact done hi hinv hs
  | succ f ih =>
    intro i buf b hb hm hinv hs
    unfold scLoop at hs
    split at hs
    · rename_i hi
      simp only [] at hs
      refine ih ?_ ?_ ?_ hs
      · simp only [List.length_append, List.length_take, List.length_drop]
        split <;> omega
      · rw [Nat.add_mod_right]; exact hm
      · intro j hj hjn
        have hbi : (List.take i buf).length = i := by simp; omega
        by_cases hji : j < i
        · rw [List.append_assoc, List.getElem?_append_left (by omega), List.getElem?_take,
            if_pos hji]
          exact hinv j hji hjn
        · have hmod : j % h.length = j - i := by
            have : j = (j - i) + i := by omega
            rw [this, Nat.add_mod, hm, Nat.add_zero, Nat.mod_mod]
            rw [Nat.mod_eq_of_lt (by omega)]; omega
          rw [hmod, List.append_assoc, List.getElem?_append_right (by omega), hbi]
          rw [List.getElem?_append_left (by simp only [List.length_take]; split <;> omega)]
          rw [List.getElem?_take, if_pos (by split <;> omega)]
    · rename_i hi; exact done hi hinv hs

end TCose
