import Verif.Spec.Openssl
import Verif.Lemmas.Openssl

/-!
# A library for non-vacuity examples about the OpenSSL adapter

Not a model of anything in /repo: it meets the contracts of `Spec.Openssl`, with
real DER signatures of made-up numbers.
-/

namespace TCose.Ossl
open Spec Spec.Ossl

/-- One DER element with the given tag: contents and what follows. -/
def tlv (tag : UInt8) (b : Bytes) : Option (Bytes × Bytes) :=
  match b with
  | t :: l :: rest =>
    if t ≠ tag then none
    else if l < 128 then
      if rest.length < l.toNat then none else some (rest.take l.toNat, rest.drop l.toNat)
    else if l = 0x81 then
      match rest with
      | n :: rest =>
        if rest.length < n.toNat then none else some (rest.take n.toNat, rest.drop n.toNat)
      | [] => none
    else if l = 0x82 then
      match rest with
      | n :: m :: rest =>
        if rest.length < n.toNat * 256 + m.toNat then none
        else some (rest.take (n.toNat * 256 + m.toNat), rest.drop (n.toNat * 256 + m.toNat))
      | _ => none
    else none
  | _ => none

def derDecode (b : Bytes) : Option (Nat × Nat) :=
  match tlv 0x30 b with
  | some (c, []) =>
    match tlv 0x02 c with
    | some (r, c) =>
      match tlv 0x02 c with
      | some (s, []) => some (bin2bn r, bin2bn s)
      | _ => none
    | none => none
  | _ => none

theorem tlv_enc (tag : UInt8) (c rest : Bytes) (h : c.length < 65536) :
    tlv tag (tag :: derLen c.length ++ (c ++ rest)) = some (c, rest) := by
  unfold derLen
  by_cases h1 : c.length < 128
  · have e : (UInt8.ofNat c.length).toNat = c.length := by
      rw [UInt8.toNat_ofNat']; omega
    have e2 : UInt8.ofNat c.length < 128 := by
      rw [UInt8.lt_iff_toNat_lt, e]; exact h1
    simp only [if_pos h1, tlv, List.cons_append, List.nil_append, if_pos e2, e]
    simp
  · by_cases h2 : c.length < 256
    · have e : (UInt8.ofNat c.length).toNat = c.length := by
        rw [UInt8.toNat_ofNat']; omega
      simp only [if_neg h1, if_pos h2, tlv, List.cons_append, List.nil_append, e]
      simp
    · have e : netOrder 2 c.length = [UInt8.ofNat (c.length / 256), UInt8.ofNat c.length] := by
        simp [netOrder, List.range_succ]
      have e1 : (UInt8.ofNat (c.length / 256)).toNat * 256 + (UInt8.ofNat c.length).toNat =
          c.length := by
        rw [UInt8.toNat_ofNat', UInt8.toNat_ofNat']; omega
      simp only [if_neg h1, if_neg h2, tlv, e, List.cons_append, List.nil_append, e1]
      simp

theorem lt_intLen (n : Nat) : n < 256 ^ intLen n := by
  have h := Nat.lt_log2_self (n := n)
  unfold intLen
  rw [show (256 : Nat) = 2 ^ 8 from rfl, ← Nat.pow_mul]
  exact Nat.lt_of_lt_of_le h (Nat.pow_le_pow_right (by omega) (by omega))

theorem intLen_le {n w : Nat} (h : n < 256 ^ w) : intLen n ≤ w + 1 := by
  unfold intLen
  by_cases h0 : n = 0
  · subst h0; simp
  · rw [show (256 : Nat) = 2 ^ 8 from rfl, ← Nat.pow_mul, ← Nat.log2_lt h0] at h
    omega

theorem derLen_length (n : Nat) : (derLen n).length ≤ 3 ∧ (n < 256 → (derLen n).length ≤ 2) ∧
    (n < 128 → (derLen n).length = 1) ∧ 1 ≤ (derLen n).length := by
  unfold derLen
  split
  · simp
  · split
    · simp; omega
    · simp [netOrder_length]; omega

theorem derInt_length (n : Nat) :
    (derInt n).length = 1 + (derLen (intLen n)).length + intLen n := by
  simp [derInt, netOrder_length]; omega

theorem derDecode_derSig {r s : Nat} (h : intLen r + intLen s < 65000) :
    derDecode (derSig r s) = some (r, s) := by
  have hr := derInt_length r
  have hs := derInt_length s
  have lr := derLen_length (intLen r)
  have ls := derLen_length (intLen s)
  unfold derDecode derSig
  have e1 := tlv_enc 0x30 (derInt r ++ derInt s) [] (by simp only [List.length_append]; omega)
  rw [List.append_nil] at e1
  rw [e1]
  have e2 := tlv_enc 0x02 (netOrder (intLen r) r) (derInt s) (by rw [netOrder_length]; omega)
  have e3 := tlv_enc 0x02 (netOrder (intLen s) s) [] (by rw [netOrder_length]; omega)
  rw [netOrder_length, ← List.append_assoc] at e2
  rw [netOrder_length, List.append_nil] at e3
  simp only [show derInt r = 0x02 :: derLen (intLen r) ++ netOrder (intLen r) r from rfl, e2]
  simp only [show derInt s = 0x02 :: derLen (intLen s) ++ netOrder (intLen s) s from rfl, e3]
  rw [bin2bn_netOrder, bin2bn_netOrder, Nat.mod_eq_of_lt (lt_intLen r), Nat.mod_eq_of_lt (lt_intLen s)]

/-- The DER form of numbers of `w` ≤ 66 octets has at most 2 `w` + 9 octets. -/
theorem derSig_length {r s w : Nat} (hr : r < 256 ^ w) (hs : s < 256 ^ w) (hw : w ≤ 66) :
    (derSig r s).length ≤ 2 * w + 9 := by
  have h1 := intLen_le hr
  have h2 := intLen_le hs
  have h3 := (derLen_length (intLen r)).2.2.1 (by omega)
  have h4 := (derLen_length (intLen s)).2.2.1 (by omega)
  have h5 := derInt_length r
  have h6 := derInt_length s
  have h7 := (derLen_length (derInt r ++ derInt s).length).2.1 (by rw [List.length_append]; omega)
  unfold derSig
  simp only [List.cons_append, List.length_cons, List.length_append] at h7 ⊢
  omega

/-! ## The library -/

/-- The digest of the demo library. -/
def demoDigest (alg : Int) (b : Bytes) : Bytes :=
  List.replicate (digestLen alg) (b.foldl (fun a x => a * 3 + x + 1) 7)

/-- The numbers of a demo signature of a hash, below 256^32; the first begins with a
zero octet. -/
def demoR (h : Bytes) : Nat := bin2bn h % 256 ^ 31
def demoS (h : Bytes) : Nat := (bin2bn h + 1) % 256 ^ 32

/-- A library with keys of `bits` bits. -/
def demoLib (bits : Nat) : Lib where
  bits _ := bits
  size _ := 64
  d2i := derDecode
  i2d r s := some (derSig r s)
  bnR := true
  bnS := true
  sigNew := true
  set0 := 1
  ctxNew := true
  signInit := 1
  verifyInit := 1
  setPadding := 1
  setMd := 1
  setMgf1 := 1
  setSalt := 1
  pkeySign _ pc h n :=
    match pc with
    | .plain =>
      if n < (derSig (demoR h) (demoS h)).length then (0, []) else (1, derSig (demoR h) (demoS h))
    | _ => if n < 64 then (0, []) else (1, List.replicate 64 (h.headD 0))
  pkeyVerify _ pc sig h :=
    match pc with
    | .plain => if sig = derSig (demoR h) (demoS h) then 1 else 0
    | _ => if sig = List.replicate 64 (h.headD 0) then 1 else 0
  mdCtxNew := true
  Md := Int × Bytes
  digestByNid _ := true
  digestInit alg := (1, (alg, []))
  digestUpdate md u := (1, (md.1, md.2 ++ u))
  digestFinal md := (1, demoDigest md.1 md.2)
  dsInit := 1
  digestSign _ m n := if n < 64 then (0, []) else (1, List.replicate 64 (m.foldl (· + ·) 1))
  dvInit := 1
  digestVerify _ sig m := if sig = List.replicate 64 (m.foldl (· + ·) 1) then 1 else 0

theorem demo_works (bits : Nat) : Works (demoLib bits) := by
  constructor <;> rfl

theorem demo_digests (bits : Nat) :
    Digests (demoLib bits) demoDigest (fun md alg b => md = (alg, b)) where
  init := fun alg _ => rfl
  update := fun md alg b u h _ => by subst h; rfl
  final := fun md alg b h _ => by subst h; rfl

theorem demoR_lt (h : Bytes) : demoR h < 256 ^ 32 :=
  Nat.lt_trans (Nat.mod_lt _ (by decide)) (by decide)

theorem demoS_lt (h : Bytes) : demoS h < 256 ^ 32 := Nat.mod_lt _ (by decide)

theorem demo_pkeySign {bits k n : Nat} {pc : PkeyCfg} {h s : Bytes}
    (hs : (demoLib bits).pkeySign k pc h n = (1, s)) :
    (pc = .plain ∧ s = derSig (demoR h) (demoS h) ∧ s.length ≤ n) ∨
    (pc ≠ .plain ∧ s = List.replicate 64 (h.headD 0) ∧ s.length ≤ n) := by
  cases pc with
  | plain =>
    simp only [demoLib] at hs
    split at hs
    · cases hs
    · injection hs with _ hs; subst hs; left; exact ⟨rfl, rfl, by omega⟩
  | pss md mgf1 sl =>
    simp only [demoLib] at hs
    split at hs
    · cases hs
    · injection hs with _ hs; subst hs; right; exact ⟨by simp, rfl, by simp; omega⟩

theorem demo_digestSign {bits k n : Nat} {m s : Bytes}
    (hs : (demoLib bits).digestSign k m n = (1, s)) :
    s = List.replicate 64 (m.foldl (· + ·) 1) ∧ s.length ≤ n := by
  simp only [demoLib] at hs
  split at hs
  · cases hs
  · injection hs with _ hs; subst hs; exact ⟨rfl, by simp; omega⟩

theorem demo_fits (bits : Nat) : Fits (demoLib bits) where
  pkey := fun k pc h n s hs => by rcases demo_pkeySign hs with h | h <;> exact h.2.2
  digest := fun k m n s hs => (demo_digestSign hs).2

theorem demo_d2i (h : Bytes) : derDecode (derSig (demoR h) (demoS h)) = some (demoR h, demoS h) := by
  have h1 := intLen_le (demoR_lt h)
  have h2 := intLen_le (demoS_lt h)
  exact derDecode_derSig (by omega)

theorem demo_sizes (bits k : Nat) : Sizes (demoLib bits) k 32 where
  pss := fun md h n s hs => by
    rcases demo_pkeySign hs with h | h
    · exact absurd h.1 (by simp)
    · rw [h.2.1]; simp [demoLib]
  eddsa := fun m n s hs => by rw [(demo_digestSign hs).1]; simp [demoLib]
  ecdsa := fun h n der hs => by
    rcases demo_pkeySign hs with h' | h'
    · rw [h'.2.1]; exact ⟨_, _, demo_d2i h, demoR_lt h, demoS_lt h⟩
    · exact absurd rfl h'.1

theorem demo_verifies (bits sk pk : Nat) : Verifies (demoLib bits) sk pk 32 where
  i2d := fun r s => rfl
  ecdsa := fun h n der hs => by
    rcases demo_pkeySign hs with h' | h'
    · rw [h'.2.1]; exact ⟨_, _, demo_d2i h, demoR_lt h, demoS_lt h, by simp [demoLib]⟩
    · exact absurd rfl h'.1
  pss := fun md h n s hs => by
    rcases demo_pkeySign hs with h' | h'
    · exact absurd h'.1 (by simp)
    · rw [h'.2.1]; simp [demoLib]
  eddsa := fun m n s hs => by rw [(demo_digestSign hs).1]; simp [demoLib]

end TCose.Ossl
