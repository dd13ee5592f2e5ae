import Verif.Basic

/-!
# Model of the bundled SHA-256, crypto_adapters/b_con_hash/sha256.c

`WORD` is `UInt32`, `BYTE` is `UInt8`, `unsigned long long` is `UInt64`
(sha256.h:19-20).  Assumed: `unsigned int` has 32 bits, and `data[j] << 24`
(sha256.c:52), which C leaves undefined for `data[j] ≥ 128` because `data[j]` is
promoted to `int`, gives the expected bit pattern as it does with every compiler
t_cose is used with.
-/

namespace TCose.Bcon
open TCose

/-- `ctx->state[8]` (sha256.h:26) and the working variables `a … h`
(sha256.c:49). -/
structure State where
  a : UInt32
  b : UInt32
  c : UInt32
  d : UInt32
  e : UInt32
  f : UInt32
  g : UInt32
  h : UInt32
  deriving Repr, DecidableEq

/-- `SHA256_CTX` (sha256.h:22-27).  `data` has 64 octets whatever they are.
`datalen` is a number: it never exceeds 64.  `ub` is not in the code: it records
a write outside `data`. -/
structure Ctx where
  data : Bytes
  datalen : Nat
  bitlen : UInt64
  state : State
  ub : Bool
  deriving Repr, DecidableEq

/-! ## Macros, sha256.c:25-32 -/

def rotright (a b : UInt32) : UInt32 := (a >>> b) ||| (a <<< (32 - b))
def ch (x y z : UInt32) : UInt32 := (x &&& y) ^^^ (~~~x &&& z)
def maj (x y z : UInt32) : UInt32 := (x &&& y) ^^^ (x &&& z) ^^^ (y &&& z)
def ep0 (x : UInt32) : UInt32 := rotright x 2 ^^^ rotright x 13 ^^^ rotright x 22
def ep1 (x : UInt32) : UInt32 := rotright x 6 ^^^ rotright x 11 ^^^ rotright x 25
def sig0 (x : UInt32) : UInt32 := rotright x 7 ^^^ rotright x 18 ^^^ (x >>> 3)
def sig1 (x : UInt32) : UInt32 := rotright x 17 ^^^ rotright x 19 ^^^ (x >>> 10)

/-- The table `k`, sha256.c:35-44. -/
def k : List UInt32 := [
  0x428a2f98,0x71374491,0xb5c0fbcf,0xe9b5dba5,0x3956c25b,0x59f111f1,0x923f82a4,0xab1c5ed5,
  0xd807aa98,0x12835b01,0x243185be,0x550c7dc3,0x72be5d74,0x80deb1fe,0x9bdc06a7,0xc19bf174,
  0xe49b69c1,0xefbe4786,0x0fc19dc6,0x240ca1cc,0x2de92c6f,0x4a7484aa,0x5cb0a9dc,0x76f988da,
  0x983e5152,0xa831c66d,0xb00327c8,0xbf597fc7,0xc6e00bf3,0xd5a79147,0x06ca6351,0x14292967,
  0x27b70a85,0x2e1b2138,0x4d2c6dfc,0x53380d13,0x650a7354,0x766a0abb,0x81c2c92e,0x92722c85,
  0xa2bfe8a1,0xa81a664b,0xc24b8b70,0xc76c51a3,0xd192e819,0xd6990624,0xf40e3585,0x106aa070,
  0x19a4c116,0x1e376c08,0x2748774c,0x34b0bcb5,0x391c0cb3,0x4ed8aa4a,0x5b9cca4f,0x682e6ff3,
  0x748f82ee,0x78a5636f,0x84c87814,0x8cc70208,0x90befffa,0xa4506ceb,0xbef9a3f7,0xc67178f2]

/-- `data[i]`; every index used is below 64. -/
def octet (data : Bytes) (i : Nat) : UInt32 := (data.getD i 0).toUInt32

/-- The first loop of `sha256_transform`, sha256.c:51-52, after `n` iterations:
`m[0] … m[n-1]`. -/
def load (data : Bytes) : Nat → List UInt32
  | 0 => []
  | i + 1 => load data i ++
    [(octet data (4 * i) <<< 24) ||| (octet data (4 * i + 1) <<< 16) |||
      (octet data (4 * i + 2) <<< 8) ||| octet data (4 * i + 3)]

/-- The body of the second loop, sha256.c:54, for `i = m.length`. -/
def extendOne (m : List UInt32) : List UInt32 :=
  m ++ [sig1 (m.getD (m.length - 2) 0) + m.getD (m.length - 7) 0 +
    sig0 (m.getD (m.length - 15) 0) + m.getD (m.length - 16) 0]

/-- The second loop, sha256.c:53-54, after `n` iterations. -/
def extend (m : List UInt32) : Nat → List UInt32
  | 0 => m
  | n + 1 => extendOne (extend m n)

/-- The body of the third loop, sha256.c:66-75, with `ki` for `k[i]` and `mi` for
`m[i]`. -/
def roundOne (v : State) (ki mi : UInt32) : State :=
  let t1 := v.h + ep1 v.e + ch v.e v.f v.g + ki + mi
  let t2 := ep0 v.a + maj v.a v.b v.c
  { h := v.g, g := v.f, f := v.e, e := v.d + t1, d := v.c, c := v.b, b := v.a, a := t1 + t2 }

/-- The third loop, sha256.c:65-76, after `n` iterations. -/
def roundsC (m : List UInt32) (v : State) : Nat → State
  | 0 => v
  | i + 1 => roundOne (roundsC m v i) (k.getD i 0) (m.getD i 0)

/-- `sha256_transform`, sha256.c:47-86; `data` is always `ctx->data`. -/
def transform (s : State) (data : Bytes) : State :=
  let m := extend (load data 16) 48
  let v := roundsC m s 64
  ⟨s.a + v.a, s.b + v.b, s.c + v.c, s.d + v.d, s.e + v.e, s.f + v.f, s.g + v.g, s.h + v.h⟩

/-- `sha256_init`, sha256.c:88-100; `junk` is what is in `data` before. -/
def init (junk : Bytes) : Ctx :=
  { data := junk, datalen := 0, bitlen := 0, ub := false
    state := ⟨0x6a09e667, 0xbb67ae85, 0x3c6ef372, 0xa54ff53a, 0x510e527f, 0x9b05688c, 0x1f83d9ab,
      0x5be0cd19⟩ }

/-- `ctx->data[i] = b`. -/
def Ctx.put (c : Ctx) (i : Nat) (b : UInt8) : Ctx :=
  if i < 64 then { c with data := c.data.set i b } else { c with ub := true }

/-- The body of the loop in `sha256_update`, sha256.c:107-113. -/
def step (c : Ctx) (b : UInt8) : Ctx :=
  let c := c.put c.datalen b
  let c := { c with datalen := c.datalen + 1 }
  if c.datalen = 64 then
    { c with state := transform c.state c.data, bitlen := c.bitlen + 512, datalen := 0 }
  else c

/-- The loop of `sha256_update`, sha256.c:106-114. The counter has 32 bits, the
length 64. `none`: not finished after `fuel` tests of the loop condition. -/
def updateLoop (data : Bytes) : (fuel : Nat) → (i : UInt32) → Ctx → Option Ctx
  | 0, _, _ => none
  | fuel + 1, i, c =>
    if i.toNat < data.length then updateLoop data fuel (i + 1) (step c (data.getD i.toNat 0))
    else some c

/-- `sha256_update`, sha256.c:102-115. `none`: it never returns; see
`update_none` for why this fuel decides that. -/
def update (c : Ctx) (data : Bytes) : Option Ctx := updateLoop data (data.length + 1) 0 c

/-- `while (i < end) ctx->data[i++] = 0x00;` with `n = end - i`, sha256.c:126-127,
131-132, and `memset`, sha256.c:134. -/
def Ctx.zeros (c : Ctx) (i : Nat) : Nat → Ctx
  | 0 => c
  | n + 1 => (c.put i 0).zeros (i + 1) n

/-- `state[j] >> (24 - i * 8)) & 0xff` for `i = 0 … 3`, sha256.c:151-160. -/
def wordOut (w : UInt32) : Bytes :=
  [(w >>> 24).toUInt8, (w >>> 16).toUInt8, (w >>> 8).toUInt8, w.toUInt8]

def State.out (s : State) : Bytes :=
  wordOut s.a ++ wordOut s.b ++ wordOut s.c ++ wordOut s.d ++ wordOut s.e ++ wordOut s.f ++
    wordOut s.g ++ wordOut s.h

/-- The padding in `sha256_final`, sha256.c:121-135. -/
def padCtx (c : Ctx) : Ctx :=
  let i := c.datalen
  if c.datalen < 56 then (c.put i 0x80).zeros (i + 1) (56 - (i + 1))
  else
    let c := (c.put i 0x80).zeros (i + 1) (64 - (i + 1))
    let c := { c with state := transform c.state c.data }
    c.zeros 0 56

/-- The length in `sha256_final`, sha256.c:138-146. -/
def putLen (c : Ctx) : Ctx :=
  let c := { c with bitlen := c.bitlen + UInt64.ofNat (c.datalen * 8) }
  let c := c.put 63 c.bitlen.toUInt8
  let c := c.put 62 (c.bitlen >>> 8).toUInt8
  let c := c.put 61 (c.bitlen >>> 16).toUInt8
  let c := c.put 60 (c.bitlen >>> 24).toUInt8
  let c := c.put 59 (c.bitlen >>> 32).toUInt8
  let c := c.put 58 (c.bitlen >>> 40).toUInt8
  let c := c.put 57 (c.bitlen >>> 48).toUInt8
  c.put 56 (c.bitlen >>> 56).toUInt8

/-- `sha256_final`, sha256.c:117-161: the context afterwards and the 32 octets
written to `hash`. -/
def final (c : Ctx) : Ctx × Bytes :=
  let c := putLen (padCtx c)
  let c := { c with state := transform c.state c.data }
  (c, c.state.out)

end TCose.Bcon
