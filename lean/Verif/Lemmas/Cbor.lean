import Verif.Cbor
import Verif.Spec.Cose
import Verif.TCose.Util

/-! Helper lemmas: the model's head encoder equals the specification's. -/

namespace TCose

theorem beBytes_length (k n : Nat) : (beBytes k n).length = k := by
  induction k with
  | zero => rfl
  | succ k ih => simp [beBytes, ih]

theorem beBytes_eq_netOrder (k n : Nat) : beBytes k n = Spec.netOrder k n := by
  induction k with
  | zero => rfl
  | succ k ih =>
    simp only [beBytes, Spec.netOrder, List.range_succ_eq_map, List.map_cons, List.map_map]
    congr 1
    rw [ih]
    simp only [Spec.netOrder]
    apply List.map_congr_left
    intro i hi
    simp only [Function.comp]
    congr 3
    omega

theorem encodeHead_eq_head (major n : Nat) : encodeHead major n = Spec.head major n := by
  unfold encodeHead Spec.head initialByte
  simp only [beBytes_eq_netOrder, Nat.mul_comm major 32, Nat.lt_iff_le_pred (show 0 < 24 by omega),
    Nat.lt_iff_le_pred (show 0 < 256 by omega), Nat.lt_iff_le_pred (show 0 < 65536 by omega),
    Nat.lt_iff_le_pred (show 0 < 4294967296 by omega)]

theorem encodeHead_length_pos (major n : Nat) : 0 < (encodeHead major n).length := by
  unfold encodeHead
  repeat' split
  all_goals simp

theorem encodeHead_length_le (major n : Nat) : (encodeHead major n).length ≤ 9 := by
  unfold encodeHead
  repeat' split
  all_goals simp [beBytes_length]

theorem encodeHead_length_congr (m m' n : Nat) :
    (encodeHead m n).length = (encodeHead m' n).length := by
  unfold encodeHead
  repeat' split
  all_goals simp [beBytes_length]

theorem contextString_eq : contextString = Spec.ascii "Signature1" := by decide

end TCose
