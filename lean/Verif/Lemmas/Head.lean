import Verif.Lemmas.Cbor

/-! Helper lemmas: heads can be read back; encodings are prefix-free. -/

namespace TCose

/-- Value of octets in network order. -/
def beVal : Bytes → Nat
  | [] => 0
  | b :: bs => b.toNat * 256 ^ bs.length + beVal bs

theorem beVal_lt (bs : Bytes) : beVal bs < 256 ^ bs.length := by
  induction bs with
  | nil => simp [beVal]
  | cons b bs ih =>
    have hb : b.toNat < 256 := b.toNat_lt
    simp only [beVal, List.length_cons, Nat.pow_succ]
    have : b.toNat * 256 ^ bs.length ≤ 255 * 256 ^ bs.length := Nat.mul_le_mul_right _ (by omega)
    omega

theorem beVal_beBytes (k n : Nat) : beVal (beBytes k n) = n % 256 ^ k := by
  induction k with
  | zero => simp [beBytes, beVal, Nat.mod_one]
  | succ k ih =>
    simp only [beBytes, beVal, ih, beBytes_length]
    have hn : (UInt8.ofNat (n / 256 ^ k)).toNat = n / 256 ^ k % 256 := by
      simp [UInt8.toNat_ofNat']
    rw [hn, Nat.pow_succ, Nat.mod_mul]
    rw [Nat.mul_comm]; omega

theorem append_inj_of_len {α : Type} {a b c d : List α} (h : a ++ b = c ++ d)
    (hl : a.length = c.length) : a = c ∧ b = d := List.append_inj h hl

theorem encodeHead_prefix_inj {m n n' : Nat} {x y : Bytes} (_hm : m < 8)
    (hn : n < 2 ^ 64) (hn' : n' < 2 ^ 64)
    (h : encodeHead m n ++ x = encodeHead m n' ++ y) : n = n' ∧ x = y := by
  have key : ∀ k, k ≤ 8 → ∀ a b : Nat, a < 256 ^ k → b < 256 ^ k → ∀ x y : Bytes,
      beBytes k a ++ x = beBytes k b ++ y → a = b ∧ x = y := by
    intro k _ a b ha hb x y hh
    obtain ⟨h1, h2⟩ := append_inj_of_len hh (by simp [beBytes_length])
    have := congrArg beVal h1
    rw [beVal_beBytes, beVal_beBytes, Nat.mod_eq_of_lt ha, Nat.mod_eq_of_lt hb] at this
    exact ⟨this, h2⟩
  have hib : ∀ a b : Nat, a < 28 → b < 28 → initialByte m a = initialByte m b → a = b := by
    intro a b ha hb hh
    have := congrArg UInt8.toNat hh
    simp only [initialByte, UInt8.toNat_ofNat'] at this
    omega
  unfold encodeHead at h
  repeat' split at h
  all_goals simp only [List.cons_append, List.cons.injEq, List.nil_append] at h
  all_goals obtain ⟨h1, h2⟩ := h
  all_goals try have h1 := hib _ _ (by omega) (by omega) h1
  all_goals try omega
  · exact ⟨h1, h2⟩
  · exact key 1 (by omega) _ _ (by omega) (by omega) _ _ h2
  · exact key 2 (by omega) _ _ (by omega) (by omega) _ _ h2
  · exact key 4 (by omega) _ _ (by omega) (by omega) _ _ h2
  · exact key 8 (by omega) _ _ (by omega) (by omega) _ _ h2

end TCose
