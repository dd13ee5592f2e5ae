import Verif.Lemmas.Sha256

/-!
SHA-256 in a form that the kernel can evaluate: the same computation as in
`Spec/Sha256.lean`, with every word computed once.
-/

namespace TCose.Spec.Sha256
open TCose

/-- `k w`, with `w` evaluated first. -/
def forceW {α : Type} (w : Word) (k : Word → α) : α :=
  match w.toNat with
  | 0 => k (BitVec.ofNat 32 0)
  | n + 1 => k (BitVec.ofNat 32 (n + 1))

theorem forceW_eq {α : Type} (w : Word) (k : Word → α) : forceW w k = k w := by
  have h : w = BitVec.ofNat 32 w.toNat := by simp
  unfold forceW
  generalize hn : w.toNat = n at h
  cases n <;> rw [h]

/-- Rounds with the constants `ks`, the next 16 words of the schedule and the working
variables. -/
def fastRounds : List Word → (w0 w1 w2 w3 w4 w5 w6 w7 w8 w9 w10 w11 w12 w13 w14 w15 : Word) →
    (a b c d e f g h : Word) → Vars
  | [], _, _, _, _, _, _, _, _, _, _, _, _, _, _, _, _, a, b, c, d, e, f, g, h => ⟨a, b, c, d, e, f, g, h⟩
  | k :: ks, w0, w1, w2, w3, w4, w5, w6, w7, w8, w9, w10, w11, w12, w13, w14, w15, a, b, c, d, e, f, g, h =>
    forceW (h + bigSigma1 e + Ch e f g + k + w0) fun t1 =>
    forceW (t1 + (bigSigma0 a + Maj a b c)) fun a' =>
    forceW (d + t1) fun e' =>
    forceW (sigma1 w14 + w9 + sigma0 w1 + w0) fun w16 =>
    fastRounds ks w1 w2 w3 w4 w5 w6 w7 w8 w9 w10 w11 w12 w13 w14 w15 w16 a' a b c e' e f g

theorem fastRounds_eq (M : Nat → Word) (H : Vars) : ∀ n t,
    fastRounds ((List.range' t n).map K) (W M t) (W M (t + 1)) (W M (t + 2)) (W M (t + 3)) (W M (t + 4))
      (W M (t + 5)) (W M (t + 6)) (W M (t + 7)) (W M (t + 8)) (W M (t + 9)) (W M (t + 10)) (W M (t + 11))
      (W M (t + 12)) (W M (t + 13)) (W M (t + 14)) (W M (t + 15)) (rounds M H t).a (rounds M H t).b
      (rounds M H t).c (rounds M H t).d (rounds M H t).e (rounds M H t).f (rounds M H t).g
      (rounds M H t).h = rounds M H (t + n)
  | 0, t => rfl
  | n + 1, t => by
    have hw : sigma1 (W M (t + 14)) + W M (t + 9) + sigma0 (W M (t + 1)) + W M t = W M (t + 16) := by
      rw [W.eq_1 M (t + 16), dif_neg (by omega)]
      simp only [Nat.add_sub_cancel, show t + 16 - 2 = t + 14 by omega, show t + 16 - 7 = t + 9 by omega,
        show t + 16 - 15 = t + 1 by omega]
    have ih := fastRounds_eq M H n (t + 1)
    rw [List.range'_succ, List.map_cons]
    unfold fastRounds
    simp only [forceW_eq]
    rw [hw]
    rw [show t + (n + 1) = t + 1 + n by omega, ← ih]
    rfl

/-- The constants as in the code's table, see `kWords_eq`. -/
def kWords : List Word := Bcon.k.map UInt32.toBitVec

theorem kWords_eq : kWords = (List.range' 0 64).map K := by
  apply List.ext_getElem
  · simp [kWords, Bcon.k_length]
  · intro i h1 h2
    have hi : i < 64 := by simpa using h2
    have := Bcon.k_eq i hi
    simp only [kWords, List.getElem_map, List.getElem_range', Nat.zero_add, Nat.one_mul]
    rw [← this, List.getD_eq_getElem?_getD, List.getElem?_eq_getElem (by rw [Bcon.k_length]; exact hi)]
    rfl

/-- One block. -/
def fastBlock (M : Nat → Word) (a b c d e f g h : Word) : Vars :=
  forceW (M 0) fun w0 => forceW (M 1) fun w1 => forceW (M 2) fun w2 => forceW (M 3) fun w3 =>
  forceW (M 4) fun w4 => forceW (M 5) fun w5 => forceW (M 6) fun w6 => forceW (M 7) fun w7 =>
  forceW (M 8) fun w8 => forceW (M 9) fun w9 => forceW (M 10) fun w10 => forceW (M 11) fun w11 =>
  forceW (M 12) fun w12 => forceW (M 13) fun w13 => forceW (M 14) fun w14 => forceW (M 15) fun w15 =>
  let v := fastRounds kWords w0 w1 w2 w3 w4 w5 w6 w7 w8 w9 w10 w11 w12 w13 w14 w15 a b c d e f g h
  ⟨v.a + a, v.b + b, v.c + c, v.d + d, v.e + e, v.f + f, v.g + g, v.h + h⟩

theorem fastBlock_eq (M : Nat → Word) (H : Vars) :
    fastBlock M H.a H.b H.c H.d H.e H.f H.g H.h = compress H M := by
  have hW : ∀ t, t < 16 → W M t = M t := fun t h => by rw [W, dif_pos h]
  unfold fastBlock compress
  simp only [forceW_eq]
  have h := fastRounds_eq M H 64 0
  simp only [Nat.zero_add] at h
  rw [hW 0 (by decide), hW 1 (by decide), hW 2 (by decide), hW 3 (by decide), hW 4 (by decide),
    hW 5 (by decide), hW 6 (by decide), hW 7 (by decide), hW 8 (by decide), hW 9 (by decide),
    hW 10 (by decide), hW 11 (by decide), hW 12 (by decide), hW 13 (by decide), hW 14 (by decide),
    hW 15 (by decide), ← kWords_eq] at h
  rw [show fastRounds kWords (M 0) (M 1) (M 2) (M 3) (M 4) (M 5) (M 6) (M 7) (M 8) (M 9) (M 10) (M 11)
    (M 12) (M 13) (M 14) (M 15) H.a H.b H.c H.d H.e H.f H.g H.h = _ from h]

/-- `n` blocks. -/
def fastProcess : Nat → Bytes → (a b c d e f g h : Word) → Vars
  | 0, _, a, b, c, d, e, f, g, h => ⟨a, b, c, d, e, f, g, h⟩
  | n + 1, p, a, b, c, d, e, f, g, h =>
    match fastBlock (words (p.take 64)) a b c d e f g h with
    | ⟨a, b, c, d, e, f, g, h⟩ =>
      forceW a fun a => forceW b fun b => forceW c fun c => forceW d fun d =>
      forceW e fun e => forceW f fun f => forceW g fun g => forceW h fun h =>
      fastProcess n (p.drop 64) a b c d e f g h

theorem fastProcess_eq : ∀ n p (H : Vars),
    fastProcess n p H.a H.b H.c H.d H.e H.f H.g H.h = process H n p
  | 0, _, _ => rfl
  | n + 1, p, H => by
    unfold fastProcess process
    rw [fastBlock_eq]
    simp only [forceW_eq]
    exact fastProcess_eq n (p.drop 64) _

/-- The initial hash value as in the code. -/
def h0Words : Vars :=
  ⟨0x6a09e667#32, 0xbb67ae85#32, 0x3c6ef372#32, 0xa54ff53a#32, 0x510e527f#32, 0x9b05688c#32,
   0x1f83d9ab#32, 0x5be0cd19#32⟩

theorem h0Words_eq : h0Words = H0 := (Bcon.init_eq []).symm ▸ rfl

/-- SHA-256 for evaluation in the kernel. -/
def fastSha (m : Bytes) : Bytes :=
  (fastProcess ((pad m).length / 64) (pad m) 0x6a09e667#32 0xbb67ae85#32 0x3c6ef372#32 0xa54ff53a#32
    0x510e527f#32 0x9b05688c#32 0x1f83d9ab#32 0x5be0cd19#32).bytes

theorem fastSha_eq (m : Bytes) : fastSha m = sha256 m := by
  unfold fastSha sha256
  rw [← h0Words_eq, ← fastProcess_eq]
  rfl

/-- The first example of FIPS 180-2, appendix B.1 (a test, not a proof). -/
example : sha256 [0x61, 0x62, 0x63] =
    [0xba, 0x78, 0x16, 0xbf, 0x8f, 0x01, 0xcf, 0xea, 0x41, 0x41, 0x40, 0xde, 0x5d, 0xae, 0x22, 0x23,
     0xb0, 0x03, 0x61, 0xa3, 0x96, 0x17, 0x7a, 0x9c, 0xb4, 0x10, 0xff, 0x61, 0xf2, 0x00, 0x15, 0xad] := by
  rw [← fastSha_eq]; decide +kernel

end TCose.Spec.Sha256
