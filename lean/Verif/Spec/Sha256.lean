import Verif.Basic

/-!
# Specification: SHA-256 (FIPS 180-4)

Written from the standard, on 32-bit words as bit vectors, without reference to
the code. The constants are not copied: they are computed as the standard
describes them, from the square and cube roots of the first primes.
-/

namespace TCose.Spec.Sha256
open TCose

abbrev Word := BitVec 32

/-! ## Constants (4.2.2, 5.3.3) -/

/-- The integer part of the `k`-th root of `n`, for `n < 2^(k*bits)`, digit by
digit in base 2. See `root_spec`. -/
def root (k : Nat) : Nat → Nat → Nat
  | 0, _ => 0
  | bits + 1, n =>
    let r := 2 * root k bits (n / 2 ^ k)
    if (r + 1) ^ k ≤ n then r + 1 else r

def isPrime (n : Nat) : Bool := 2 ≤ n && (List.range n).all (fun d => d < 2 || n % d != 0)

/-- The first 64 primes, see `primes_length`. -/
def primes : List Nat := (List.range 312).filter isPrime

/-- The first 32 bits of the fractional part of the `k`-th root of `p`. -/
def fracRoot (k p : Nat) : Word := BitVec.ofNat 32 (root k 40 (p * 2 ^ (32 * k)))

/-- 4.2.2: from the cube roots of the first 64 primes. -/
def K (t : Nat) : Word := fracRoot 3 (primes.getD t 0)

/-! ## Functions (4.1.2) -/

def Ch (x y z : Word) : Word := (x &&& y) ^^^ (~~~x &&& z)
def Maj (x y z : Word) : Word := (x &&& y) ^^^ (x &&& z) ^^^ (y &&& z)
def bigSigma0 (x : Word) : Word := x.rotateRight 2 ^^^ x.rotateRight 13 ^^^ x.rotateRight 22
def bigSigma1 (x : Word) : Word := x.rotateRight 6 ^^^ x.rotateRight 11 ^^^ x.rotateRight 25
def sigma0 (x : Word) : Word := x.rotateRight 7 ^^^ x.rotateRight 18 ^^^ (x >>> 3)
def sigma1 (x : Word) : Word := x.rotateRight 17 ^^^ x.rotateRight 19 ^^^ (x >>> 10)

/-! ## Hash computation (6.2.2) -/

/-- Eight words: a hash value or the working variables. -/
structure Vars where
  a : Word
  b : Word
  c : Word
  d : Word
  e : Word
  f : Word
  g : Word
  h : Word
  deriving DecidableEq

/-- 5.3.3: from the square roots of the first eight primes. -/
def H0 : Vars :=
  let i := fun t => fracRoot 2 (primes.getD t 0)
  ⟨i 0, i 1, i 2, i 3, i 4, i 5, i 6, i 7⟩

/-- Step 1, the message schedule of a block `M 0 … M 15`. -/
def W (M : Nat → Word) (t : Nat) : Word :=
  if _h : t < 16 then M t
  else sigma1 (W M (t - 2)) + W M (t - 7) + sigma0 (W M (t - 15)) + W M (t - 16)

/-- Step 3, one round. -/
def round (v : Vars) (k w : Word) : Vars :=
  let T1 := v.h + bigSigma1 v.e + Ch v.e v.f v.g + k + w
  let T2 := bigSigma0 v.a + Maj v.a v.b v.c
  ⟨T1 + T2, v.a, v.b, v.c, v.d + T1, v.e, v.f, v.g⟩

/-- The first `t` rounds. -/
def rounds (M : Nat → Word) (v : Vars) : Nat → Vars
  | 0 => v
  | t + 1 => round (rounds M v t) (K t) (W M t)

/-- Steps 1 to 4 for one block. -/
def compress (H : Vars) (M : Nat → Word) : Vars :=
  let v := rounds M H 64
  ⟨v.a + H.a, v.b + H.b, v.c + H.c, v.d + H.d, v.e + H.e, v.f + H.f, v.g + H.g, v.h + H.h⟩

/-! ## Padding and parsing (5.1.1, 5.2.1) -/

/-- Big-endian value of octets. -/
def beVal (b : Bytes) : Nat := b.foldl (fun a x => a * 256 + x.toNat) 0

/-- The number `n` in `k` octets, big endian. -/
def beBytes : Nat → Nat → Bytes
  | 0, _ => []
  | k + 1, n => beBytes k (n / 256) ++ [UInt8.ofNat n]

/-- 5.1.1 in octets: `0x80`, the least number of zeros that make the length
56 modulo 64, and the length in bits in eight octets. See `pad_length`. -/
def pad (m : Bytes) : Bytes :=
  m ++ [0x80] ++ List.replicate ((119 - m.length % 64) % 64) 0 ++ beBytes 8 (8 * m.length)

/-- 5.2.1: the words of a block of 64 octets. -/
def words (block : Bytes) (t : Nat) : Word :=
  BitVec.ofNat 32 (beVal ((block.drop (4 * t)).take 4))

/-- Processes `n` blocks from the start of `p`. -/
def process (H : Vars) : Nat → Bytes → Vars
  | 0, _ => H
  | n + 1, p => process (compress H (words (p.take 64))) n (p.drop 64)

def Vars.bytes (v : Vars) : Bytes :=
  [v.a, v.b, v.c, v.d, v.e, v.f, v.g, v.h].flatMap (fun w => beBytes 4 w.toNat)

/-- SHA-256 of a message of less than 2^61 octets. -/
def sha256 (m : Bytes) : Bytes := (process H0 ((pad m).length / 64) (pad m)).bytes

/-! ## The definitions mean what the standard says -/

theorem root_spec (k : Nat) (hk : 0 < k) : ∀ bits n, n < 2 ^ (k * bits) →
    root k bits n ^ k ≤ n ∧ n < (root k bits n + 1) ^ k := by
  intro bits
  induction bits with
  | zero =>
    intro n hn
    simp only [Nat.mul_zero, Nat.pow_zero] at hn
    have : n = 0 := by omega
    subst this
    simp only [root, Nat.zero_pow hk]
    exact ⟨Nat.le_refl _, by simp⟩
  | succ bits ih =>
    intro n hn
    have h2 : n / 2 ^ k < 2 ^ (k * bits) := by
      rw [Nat.div_lt_iff_lt_mul (Nat.pow_pos (by omega)), ← Nat.pow_add]
      rw [Nat.mul_succ] at hn
      exact hn
    obtain ⟨i1, i2⟩ := ih _ h2
    have hlo : (2 * root k bits (n / 2 ^ k)) ^ k ≤ n := by
      rw [Nat.mul_pow]
      exact Nat.le_trans (Nat.mul_le_mul_left _ i1) (Nat.mul_div_le _ _)
    have hhi : n < (2 * root k bits (n / 2 ^ k) + 1 + 1) ^ k := by
      have : 2 * root k bits (n / 2 ^ k) + 1 + 1 = 2 * (root k bits (n / 2 ^ k) + 1) := by omega
      rw [this, Nat.mul_pow]
      have := (Nat.div_lt_iff_lt_mul (k := 2 ^ k) (Nat.pow_pos (by omega))).mp i2
      rw [Nat.mul_comm]
      exact this
    simp only [root]
    split
    · rename_i hc
      exact ⟨hc, hhi⟩
    · rename_i hc
      exact ⟨hlo, by omega⟩

theorem primes_length : primes.length = 64 := by decide +kernel

theorem beBytes_length : ∀ k n, (beBytes k n).length = k := by
  intro k
  induction k with
  | zero => intro n; rfl
  | succ k ih => intro n; simp [beBytes, ih]

theorem pad_length (m : Bytes) : (pad m).length % 64 = 0 ∧ (pad m).length < m.length + 73 := by
  simp only [pad, List.length_append, List.length_replicate, List.length_cons, List.length_nil,
    beBytes_length]
  omega

end TCose.Spec.Sha256
