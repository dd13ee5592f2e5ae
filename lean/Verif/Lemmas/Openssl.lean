import Verif.Adapters.Openssl
import Verif.Spec.Der
import Verif.Spec.Openssl

/-!
# Lemmas about big-endian numbers and the OpenSSL adapter
-/

namespace TCose
open Spec Spec.Ossl

theorem netOrder_length (k n : Nat) : (netOrder k n).length = k := by simp [netOrder]

theorem netOrder_succ (k n : Nat) :
    netOrder (k + 1) n = netOrder k (n / 256) ++ [UInt8.ofNat n] := by
  simp only [netOrder, List.range_succ, List.map_append, List.map_cons, List.map_nil]
  congr 1
  · apply List.map_congr_left
    intro i hi
    rw [List.mem_range] at hi
    congr 1
    rw [Nat.div_div_eq_div_mul, show k + 1 - 1 - i = (k - 1 - i) + 1 by omega, Nat.pow_succ,
      Nat.mul_comm]
  · simp

namespace Ossl

theorem bin2bn_snoc (b : Bytes) (x : UInt8) : bin2bn (b ++ [x]) = bin2bn b * 256 + x.toNat := by
  simp [bin2bn]

theorem bin2bn_netOrder (k : Nat) : ∀ n, bin2bn (netOrder k n) = n % 256 ^ k := by
  induction k with
  | zero => intro n; simp [netOrder, bin2bn, Nat.mod_one]
  | succ k ih =>
    intro n
    rw [netOrder_succ, bin2bn_snoc, ih, UInt8.toNat_ofNat', Nat.pow_succ 256, Nat.mul_comm (256 ^ k),
      Nat.mod_mul]
    omega

theorem bin2bn_lt (b : Bytes) : bin2bn b < 256 ^ b.length := by
  obtain ⟨k, hk⟩ : ∃ k, b.length = k := ⟨_, rfl⟩
  induction k generalizing b with
  | zero =>
    have : b = [] := List.length_eq_zero_iff.mp hk
    subst this; simp [bin2bn]
  | succ k ih =>
    have hb : b ≠ [] := by intro h; subst h; simp at hk
    rw [← List.dropLast_concat_getLast hb, bin2bn_snoc]
    have h1 := ih b.dropLast (by simp [hk])
    have h2 := (b.getLast hb).toNat_lt
    simp only [List.length_append, List.length_dropLast, List.length_cons, List.length_nil, hk,
      Nat.add_sub_cancel, Nat.pow_succ] at h1 ⊢
    omega

theorem netOrder_bin2bn (b : Bytes) : netOrder b.length (bin2bn b) = b := by
  obtain ⟨k, hk⟩ : ∃ k, b.length = k := ⟨_, rfl⟩
  induction k generalizing b with
  | zero =>
    have : b = [] := List.length_eq_zero_iff.mp hk
    subst this; rfl
  | succ k ih =>
    have hb : b ≠ [] := by intro h; subst h; simp at hk
    have h1 := ih b.dropLast (by simp [hk])
    have h2 := (b.getLast hb).toNat_lt
    have e : bin2bn b = bin2bn b.dropLast * 256 + (b.getLast hb).toNat := by
      rw [← bin2bn_snoc, List.dropLast_concat_getLast hb]
    rw [hk, netOrder_succ, e]
    rw [List.length_dropLast, hk, Nat.add_sub_cancel] at h1
    rw [show (bin2bn b.dropLast * 256 + (b.getLast hb).toNat) / 256 = bin2bn b.dropLast by omega, h1]
    have : UInt8.ofNat (bin2bn b.dropLast * 256 + (b.getLast hb).toNat) = b.getLast hb := by
      apply UInt8.toNat_inj.mp
      rw [UInt8.toNat_ofNat']; omega
    rw [this, List.dropLast_concat_getLast hb]

theorem bn2bin_pos {n : Nat} (h : n ≠ 0) : bn2bin n = bn2bin (n / 256) ++ [UInt8.ofNat n] := by
  rw [bn2bin]; simp [h]

theorem bn2bin_zero : bn2bin 0 = [] := by rw [bn2bin]; simp

theorem bn2bin_length_le (k : Nat) : ∀ n, (bn2bin n).length ≤ k ↔ n < 256 ^ k := by
  induction k with
  | zero =>
    intro n
    by_cases h : n = 0
    · subst h; simp [bn2bin_zero]
    · rw [bn2bin_pos h]; simp; omega
  | succ k ih =>
    intro n
    by_cases h : n = 0
    · subst h; simp [bn2bin_zero, Nat.pow_pos]
    · rw [bn2bin_pos h, List.length_append, List.length_cons, List.length_nil]
      have := ih (n / 256)
      rw [Nat.div_lt_iff_lt_mul (by omega)] at this
      rw [Nat.pow_succ]
      omega

theorem pad_bn2bin (k : Nat) : ∀ n, n < 256 ^ k →
    List.replicate (k - (bn2bin n).length) 0 ++ bn2bin n = netOrder k n := by
  induction k with
  | zero =>
    intro n h
    have : n = 0 := by simpa using h
    subst this; simp [bn2bin_zero, netOrder]
  | succ k ih =>
    intro n h
    by_cases h0 : n = 0
    · subst h0
      have := ih 0 (Nat.pow_pos (by omega))
      rw [netOrder_succ, Nat.zero_div, ← this]
      simp [bn2bin_zero, List.replicate_succ']
    · have h1 : n / 256 < 256 ^ k := by
        rw [Nat.div_lt_iff_lt_mul (by omega)]; rwa [Nat.pow_succ] at h
      rw [netOrder_succ, ← ih _ h1, bn2bin_pos h0]
      simp

theorem keySize_eq (L : Lib) (k : Nat) : keySize L k = keyOctets L k := by
  unfold keySize keyOctets; split <;> omega

/-- Two writes into a zero-filled buffer that both fit in their half give the
fixed-width form. -/
theorem derToCose_spec {L : Lib} {k : Nat} {der : Bytes} {n r s : Nat}
    (hd : L.d2i der = some (r, s)) (hr : r < 256 ^ keyOctets L k) (hs : s < 256 ^ keyOctets L k) :
    (derToCose L k der n).1 =
      if 2 * keyOctets L k ≤ n then .sig (coseSig (keyOctets L k) r s)
      else if n < (bn2bin r).length + (bn2bin s).length then .null
      else .ub := by
  have lr := (bn2bin_length_le (keyOctets L k) r).mpr hr
  have ls := (bn2bin_length_le (keyOctets L k) s).mpr hs
  have pr := pad_bn2bin _ _ hr
  have ps := pad_bn2bin _ _ hs
  generalize hw : keyOctets L k = w at *
  unfold derToCose
  simp only [hd, keySize_eq, hw]
  by_cases hn : 2 * w ≤ n
  · rw [if_pos hn, if_neg (by omega)]
    have e1 : writeAt (List.replicate n 0) ((w : Int) - (bn2bin r).length) (bn2bin r) =
        some (netOrder w r ++ List.replicate (n - w) 0) := by
      unfold writeAt
      rw [if_pos (by simp; omega)]
      have : ((w : Int) - (bn2bin r).length).toNat = w - (bn2bin r).length := by omega
      rw [this, ← pr, List.take_replicate, List.drop_replicate]
      congr 3
      · congr 1; omega
      · congr 1; omega
    rw [e1]
    have e2 : writeAt (netOrder w r ++ List.replicate (n - w) 0) (2 * (w : Int) - (bn2bin s).length)
        (bn2bin s) = some (netOrder w r ++ netOrder w s ++ List.replicate (n - 2 * w) 0) := by
      unfold writeAt
      rw [if_pos (by simp [netOrder_length]; omega)]
      have : (2 * (w : Int) - (bn2bin s).length).toNat = w + (w - (bn2bin s).length) := by omega
      rw [this, ← ps]
      rw [List.take_append, List.drop_append, netOrder_length, List.take_of_length_le (by
        rw [netOrder_length]; omega), List.drop_eq_nil_of_le (by rw [netOrder_length]; omega),
        List.take_replicate, List.drop_replicate]
      rw [show min (w + (w - (bn2bin s).length) - w) (n - w) = w - (bn2bin s).length by omega,
        show n - w - (w + (w - (bn2bin s).length) + (bn2bin s).length - w) = n - 2 * w by omega]
      simp only [List.nil_append, List.append_assoc]
    simp only [e2]
    congr 1
    rw [List.take_append_of_le_length (by simp [netOrder_length]; omega), List.take_of_length_le (by
      simp [netOrder_length]; omega)]
    rfl
  · rw [if_neg hn]
    by_cases hn2 : n < (bn2bin r).length + (bn2bin s).length
    · rw [if_pos hn2, if_pos (by omega)]
    · rw [if_neg hn2, if_neg (by omega)]
      cases hw1 : writeAt (List.replicate n 0) ((w : Int) - (bn2bin r).length) (bn2bin r) with
      | none => rfl
      | some b =>
        have hb : b.length = n := by
          unfold writeAt at hw1
          split at hw1
          · rename_i hc
            injection hw1 with hw1
            subst hw1
            simp only [List.length_replicate] at hc
            simp only [List.length_append, List.length_take, List.length_drop, List.length_replicate]
            omega
          · cases hw1
        have : writeAt b (2 * (w : Int) - (bn2bin s).length) (bn2bin s) = none := by
          unfold writeAt
          rw [if_neg (by omega)]
        simp only [this]

end Ossl
end TCose
