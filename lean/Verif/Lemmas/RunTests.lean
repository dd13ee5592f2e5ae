import Verif.TestCode.RunTests
import Verif.Spec.Decimal

/-! Helper lemmas for the test runner's number formatting. -/

namespace TCose.RunTests
open TCose

def appendAll (o : OutBuf) (bs : Bytes) : OutBuf := bs.foldl OutBuf.append o

/-- Digits the loop emits. -/
def loopDigits (n num : Nat) (did : Bool) : Bytes :=
  if n = 0 then []
  else if num / n ≠ 0 ∨ did then
    UInt8.ofNat (0x30 + num / n) :: loopDigits (n / 10) (num - num / n * n) true
  else loopDigits (n / 10) num did
termination_by n
decreasing_by all_goals omega

theorem digitLoop_eq (n num : Nat) (did : Bool) (o : OutBuf) :
    digitLoop n num did o
      = (did || !(loopDigits n num did).isEmpty, appendAll o (loopDigits n num did)) := by
  fun_induction digitLoop n num did o with
  | case1 num did o =>
    rw [loopDigits]; simp [appendAll]
  | case2 n num did o hn h ih =>
    have he : loopDigits n num did = UInt8.ofNat (0x30 + num / n) ::
        loopDigits (n / 10) (num - num / n * n) true := by
      rw [loopDigits, if_neg hn, if_pos h]
    rw [ih, he]
    simp [appendAll]
  | case3 n num did o hn h ih =>
    have he : loopDigits n num did = loopDigits (n / 10) num did := by
      rw [loopDigits, if_neg hn, if_neg h]
    rw [ih, he]

/-- Fixed number of digits. -/
def pad : Nat → Nat → Bytes
  | 0, _ => []
  | k + 1, num => pad k (num / 10) ++ [UInt8.ofNat (0x30 + num % 10)]

theorem pad_length (k num : Nat) : (pad k num).length = k := by
  induction k generalizing num with
  | zero => rfl
  | succ k ih => simp [pad, ih]

theorem pad_msd (k num : Nat) (h : num < 10 ^ (k + 1)) :
    pad (k + 1) num = UInt8.ofNat (0x30 + num / 10 ^ k) :: pad k (num % 10 ^ k) := by
  induction k generalizing num with
  | zero =>
    have : num % 10 = num := Nat.mod_eq_of_lt (by simpa using h)
    simp [pad, this]
  | succ k ih =>
    have h1 : num / 10 < 10 ^ (k + 1) := by
      rw [Nat.pow_succ] at h; omega
    have e1 : num / 10 / 10 ^ k = num / 10 ^ (k + 1) := by
      rw [Nat.div_div_eq_div_mul, Nat.pow_succ, Nat.mul_comm]
    have e2 : num % 10 ^ (k + 1) / 10 = num / 10 % 10 ^ k := by
      rw [Nat.pow_succ, Nat.mul_comm, Nat.mod_mul_right_div_self]
    have e3 : num % 10 ^ (k + 1) % 10 = num % 10 :=
      Nat.mod_mod_of_dvd _ ⟨10 ^ k, by rw [Nat.pow_succ, Nat.mul_comm]⟩
    rw [pad, ih _ h1, e1]
    conv => rhs; rw [pad, e2, e3]
    rfl

theorem pow_div_ten (k : Nat) : 10 ^ (k + 1) / 10 = 10 ^ k := by
  rw [Nat.pow_succ]; omega

theorem loopDigits_true (k num : Nat) (h : num < 10 ^ (k + 1)) :
    loopDigits (10 ^ k) num true = pad (k + 1) num := by
  induction k generalizing num with
  | zero =>
    rw [loopDigits, if_neg (by simp), if_pos (.inr rfl), pad_msd _ _ h]
    rw [loopDigits, if_pos (by simp)]
    rfl
  | succ k ih =>
    have hp : 0 < 10 ^ (k + 1) := Nat.pow_pos (by omega)
    rw [loopDigits, if_neg (by omega), if_pos (.inr rfl), pad_msd _ _ h, pow_div_ten]
    have : num - num / 10 ^ (k + 1) * 10 ^ (k + 1) = num % 10 ^ (k + 1) := by
      have := Nat.div_add_mod num (10 ^ (k + 1))
      rw [Nat.mul_comm] at this
      omega
    rw [this, ih _ (Nat.mod_lt _ hp)]

theorem decimal_pad (k num : Nat) (h : num < 10 ^ (k + 1)) (hl : 10 ^ k ≤ num ∨ k = 0) :
    Spec.decimal num = pad (k + 1) num := by
  induction k generalizing num with
  | zero =>
    have : num < 10 := by simpa using h
    rw [Spec.decimal, if_pos this, pad, pad, Nat.mod_eq_of_lt this]
    rfl
  | succ k ih =>
    have h10 : 10 ≤ num := by
      rcases hl with h | h
      · have : 10 ^ 1 ≤ 10 ^ (k + 1) := Nat.pow_le_pow_right (by omega) (by omega)
        omega
      · omega
    rw [Spec.decimal, if_neg (by omega), pad]
    have h1 : num / 10 < 10 ^ (k + 1) := by
      rw [Nat.pow_succ] at h; omega
    have h2 : 10 ^ k ≤ num / 10 ∨ k = 0 := by
      rcases hl with h | h
      · left; rw [Nat.pow_succ] at h; omega
      · omega
    rw [ih _ h1 h2]

theorem loopDigits_false (k num : Nat) (h : num < 10 ^ (k + 1)) :
    loopDigits (10 ^ k) num false = if num = 0 then [] else Spec.decimal num := by
  induction k with
  | zero =>
    by_cases h0 : num = 0
    · subst h0; rw [loopDigits]; simp [loopDigits]
    · rw [if_neg h0, decimal_pad 0 num h (.inr rfl), loopDigits, if_neg (by simp),
        if_pos (.inl (by simpa using h0)), pad_msd _ _ h]
      rw [loopDigits, if_pos (by simp)]
      rfl
  | succ k ih =>
    have hp : 0 < 10 ^ (k + 1) := Nat.pow_pos (by omega)
    by_cases hge : 10 ^ (k + 1) ≤ num
    · have hne : num / 10 ^ (k + 1) ≠ 0 := by
        have := Nat.div_pos hge hp
        omega
      have ht : loopDigits (10 ^ (k + 1)) num false = loopDigits (10 ^ (k + 1)) num true := by
        have hn : 10 ^ (k + 1) ≠ 0 := by omega
        have e1 : ∀ d, loopDigits (10 ^ (k + 1)) num d
            = UInt8.ofNat (0x30 + num / 10 ^ (k + 1)) ::
              loopDigits (10 ^ (k + 1) / 10) (num - num / 10 ^ (k + 1) * 10 ^ (k + 1)) true := by
          intro d
          rw [loopDigits, if_neg hn, if_pos (.inl hne)]
        rw [e1, e1]
      rw [ht, loopDigits_true _ _ h, if_neg (by omega), decimal_pad _ _ h (.inl hge)]
    · have hz : num / 10 ^ (k + 1) = 0 := Nat.div_eq_of_lt (by omega)
      rw [loopDigits, if_neg (by omega), if_neg (by simp [hz]), pow_div_ten]
      exact ih (by omega)

theorem appendAll_append (o : OutBuf) (a b : Bytes) :
    appendAll o (a ++ b) = appendAll (appendAll o a) b := by
  simp [appendAll]

theorem append_err {o : OutBuf} (h : o.err = true) (bs : Bytes) : appendAll o bs = o := by
  induction bs with
  | nil => rfl
  | cons b bs ih =>
    show appendAll (o.append b) bs = o
    rw [OutBuf.append, if_pos h]; exact ih

theorem appendAll_spec (bs : Bytes) (o : OutBuf) (h : o.err = false) (hle : o.out.length ≤ o.cap) :
    (o.out.length + bs.length ≤ o.cap → appendAll o bs = { o with out := o.out ++ bs }) ∧
    (o.cap < o.out.length + bs.length → (appendAll o bs).err = true) := by
  induction bs generalizing o with
  | nil => exact ⟨fun _ => by simp [appendAll], fun h => by simp at h; omega⟩
  | cons b bs ih =>
    show (_ → appendAll (o.append b) bs = _) ∧ (_ → (appendAll (o.append b) bs).err = true)
    by_cases hc : o.out.length < o.cap
    · have he : o.append b = { o with out := o.out ++ [b] } := by
        rw [OutBuf.append, if_neg (by simp [h]), if_pos hc]
      obtain ⟨h1, h2⟩ := ih { o with out := o.out ++ [b] } h (by simp; omega)
      rw [he]
      simp only [List.length_append, List.length_cons, List.length_nil] at h1 h2 ⊢
      refine ⟨fun hh => ?_, fun hh => h2 (by omega)⟩
      rw [h1 (by omega)]
      simp
    · have he : o.append b = { o with err := true } := by
        rw [OutBuf.append, if_neg (by simp [h]), if_neg hc]
      rw [he, append_err rfl]
      simp only [List.length_cons]
      refine ⟨fun hh => ?_, fun _ => trivial⟩
      omega

theorem decimal_ne_nil (n : Nat) : Spec.decimal n ≠ [] := by
  rw [Spec.decimal]; split <;> simp

theorem decimal_length_le {n : Nat} (h : n < 1000000000) : (Spec.decimal n).length ≤ 9 := by
  have : ∀ k, n < 10 ^ (k + 1) → (Spec.decimal n).length ≤ k + 1 := by
    intro k
    induction k with
    | zero => intro h; rw [decimal_pad 0 n h (.inr rfl), pad_length]; omega
    | succ k ih =>
      intro h
      by_cases hge : 10 ^ (k + 1) ≤ n
      · rw [decimal_pad _ _ h (.inl hge), pad_length]; omega
      · have := ih (by omega); omega
  exact this 8 (by simpa using h)

end TCose.RunTests
