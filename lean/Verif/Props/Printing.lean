import Verif.TestCode.PrintSizes
import Verif.Props.TestRunner
import Verif.Spec.Examples

/-!
# C80, C81: what the programs print of octets and sizes
-/

namespace TCose.Props
open TCose ExampleCode RunTests Spec.Examples

/-! ## C80 -/

/-- An octet in hexadecimal, and a space. -/
def hex (z : UInt8) : Bytes :=
  let d := "0123456789abcdef".toList.map fun c => UInt8.ofNat c.toNat
  [d.getD (z.toNat / 16) 0, d.getD (z.toNat % 16) 0, 0x20]

/-- Eight octets a line, with four spaces before them. -/
def hexLines (b : Bytes) : Bytes :=
  (List.range (b.length / 8 + 1)).flatMap fun j =>
    [0x20, 0x20, 0x20, 0x20] ++ ((b.drop (8 * j)).take 8).flatMap hex ++ [0x0a]

theorem hexText_eq (z : UInt8) : hexText z = hex z := by
  have h : ∀ n < 256, hexText (UInt8.ofNat n) = hex (UInt8.ofNat n) := by decide +kernel
  have := h z.toNat z.toNat_lt
  rwa [UInt8.ofNat_toNat] at this

theorem dumpLoop_append (c d : Bytes) : ∀ i, dumpLoop i (c ++ d) = dumpLoop i c ++ dumpLoop (i + c.length) d := by
  induction c with
  | nil => intro i; rfl
  | cons z c ih =>
    intro i
    simp only [List.cons_append, dumpLoop, ih, List.length_cons, List.append_assoc]
    rw [show i + 1 + c.length = i + (c.length + 1) by omega]

theorem dumpLoop_short (b : Bytes) : ∀ i, i % 8 + b.length < 8 → dumpLoop i b = b.flatMap hex := by
  induction b with
  | nil => intro i _; rfl
  | cons z b ih =>
    intro i h
    simp only [List.length_cons] at h
    simp only [dumpLoop, List.flatMap_cons, hexText_eq]
    rw [if_neg (by omega), ih (i + 1) (by omega), List.append_nil]

theorem dumpLoop_eight {c : Bytes} (hc : c.length = 8) {i : Nat} (hi : i % 8 = 0) :
    dumpLoop i c = c.flatMap hex ++ [0x0a, 0x20, 0x20, 0x20, 0x20] := by
  have hne : c ≠ [] := fun h => by rw [h] at hc; cases hc
  rw [← List.dropLast_concat_getLast hne, dumpLoop_append, dumpLoop_short _ _ (by simp; omega)]
  have h7 : (i + c.dropLast.length) % 8 = 7 := by simp; omega
  simp only [dumpLoop, if_pos h7, List.flatMap_append, List.flatMap_cons, List.flatMap_nil, hexText_eq,
    List.append_nil, List.append_assoc]

theorem dumpLoop_lines : ∀ n i (b : Bytes), b.length / 8 = n → i % 8 = 0 →
    [0x20, 0x20, 0x20, 0x20] ++ dumpLoop i b ++ [0x0a] = hexLines b := by
  intro n
  induction n with
  | zero =>
    intro i b hb hi
    unfold hexLines
    rw [hb, dumpLoop_short b i (by omega)]
    simp [List.take_of_length_le (show b.length ≤ 8 by omega)]
  | succ n ih =>
    intro i b hb hi
    have hlen : (b.take 8).length = 8 := by rw [List.length_take]; omega
    have hd : (b.drop 8).length / 8 = n := by rw [List.length_drop]; omega
    have hsplit : dumpLoop i b = dumpLoop i (b.take 8 ++ b.drop 8) := by rw [List.take_append_drop]
    rw [hsplit, dumpLoop_append, dumpLoop_eight hlen hi, hlen]
    have h := ih (i + 8) (b.drop 8) hd (by omega)
    unfold hexLines at h ⊢
    rw [hd] at h
    rw [hb, List.range_succ_eq_map, List.flatMap_cons, List.flatMap_map]
    simp only [List.drop_drop] at h
    rw [show (List.range (n + 1)).flatMap (fun j => [0x20, 0x20, 0x20, 0x20] ++
      ((b.drop (8 * j.succ)).take 8).flatMap hex ++ [0x0a]) = _ from (h.trans (by
        congr 1; funext j; rw [show 8 + 8 * j = 8 * j.succ by omega])).symm]
    simp

theorem readHex_space (r : Bytes) {c : UInt8} (h : c = 0x20 ∨ c = 0x0a) : readHex (c :: r) = readHex r := by
  cases r with
  | nil => simp [readHex, h]
  | cons d r => simp only [readHex, if_pos h]

theorem readHex_hex (z : UInt8) (r : Bytes) : readHex (hex z ++ r) = (readHex r).map (z :: ·) := by
  have h : ∀ n < 256, ∃ c d, hex (UInt8.ofNat n) = [c, d, 0x20] ∧ ¬ (c = 0x20 ∨ c = 0x0a) ∧
      hexVal c = some (n / 16) ∧ hexVal d = some (n % 16) := by
    intro n hn
    refine ⟨_, _, rfl, ?_⟩
    have : ∀ n < 256, ¬ ((hex (UInt8.ofNat n)).getD 0 0 = 0x20 ∨ (hex (UInt8.ofNat n)).getD 0 0 = 0x0a) ∧
      hexVal ((hex (UInt8.ofNat n)).getD 0 0) = some (n / 16) ∧
      hexVal ((hex (UInt8.ofNat n)).getD 1 0) = some (n % 16) := by decide +kernel
    exact this n hn
  obtain ⟨c, d, h1, h2, h3, h4⟩ := h z.toNat z.toNat_lt
  rw [UInt8.ofNat_toNat] at h1
  rw [h1]
  simp only [List.cons_append, List.nil_append, readHex, if_neg h2, h3, h4]
  rw [readHex_space _ (.inl rfl), Nat.div_add_mod, UInt8.ofNat_toNat]

theorem readHex_all (b r : Bytes) : readHex (b.flatMap hex ++ r) = (readHex r).map (b ++ ·) := by
  induction b with
  | nil => simp
  | cons z b ih =>
    rw [List.flatMap_cons, List.append_assoc, readHex_hex, ih, Option.map_map]
    rfl

theorem readHex_loop (b : Bytes) : ∀ i r, readHex (dumpLoop i b ++ r) = (readHex r).map (b ++ ·) := by
  induction b with
  | nil => intro i r; simp [dumpLoop]
  | cons z b ih =>
    intro i r
    have hz : ∀ x, readHex ((if i % 8 = 7 then [0x0a, 0x20, 0x20, 0x20, 0x20] else []) ++ x) = readHex x := by
      intro x
      split
      · simp only [List.cons_append, List.nil_append]
        rw [readHex_space _ (.inr rfl), readHex_space _ (.inl rfl), readHex_space _ (.inl rfl),
          readHex_space _ (.inl rfl), readHex_space _ (.inl rfl)]
      · rfl
    simp only [dumpLoop, List.append_assoc, hexText_eq]
    rw [readHex_hex, hz, ih, Option.map_map]
    rfl

/-- **C80.** `print_useful_buf` prints the label, the number of octets in decimal, and lines of
eight octets in hexadecimal, from which the octets can be read back. -/
theorem C80_dump (label : Option Bytes) (b : Bytes) :
    printUsefulBuf label b = label.getD [] ++ [0x20, 0x20, 0x20, 0x20] ++ Spec.decimal b.length ++
      " bytes\n".toUTF8.toList ++ hexLines b ∧
    readHex (hexLines b) = some b := by
  have h := dumpLoop_lines _ 0 b rfl rfl
  constructor
  · unfold printUsefulBuf
    rw [← h, show ascii "    " = [0x20, 0x20, 0x20, 0x20] by decide +kernel,
      show ascii " bytes\n" = " bytes\n".toUTF8.toList by decide +kernel,
      show ascii "\n" = [0x0a] by decide +kernel]
    simp only [List.append_assoc]
  · rw [← h]
    simp only [List.cons_append, List.nil_append]
    rw [readHex_space _ (.inl rfl), readHex_space _ (.inl rfl), readHex_space _ (.inl rfl),
      readHex_space _ (.inl rfl), readHex_loop]
    simp [readHex]

/-- Two buffers of the same label that are printed alike are the same. -/
theorem C80_injective {label : Option Bytes} {b c : Bytes} (h : hexLines b = hexLines c) : b = c := by
  have h1 := (C80_dump label b).2
  rw [h, (C80_dump label c).2] at h1
  exact (Option.some.inj h1).symm

/-- Nine octets. -/
example : printUsefulBuf (some (ascii "X:\n")) [0, 1, 2, 3, 4, 5, 6, 0xfe, 0xff] =
    ascii "X:\n    9 bytes\n    00 01 02 03 04 05 06 fe \n    ff \n" := by
  rw [(C80_dump _ _).1]
  simp [Spec.decimal]
  decide +kernel

/-! ## C81 -/

theorem fputsAll_append (a b : List Line) :
    fputsAll (a ++ b) = (fputsAll a).bind fun x => (fputsAll b).map (x ++ ·) := by
  induction a with
  | nil => simp [fputsAll]
  | cons l a ih =>
    obtain ⟨s, nl⟩ := l
    cases s with
    | ub => rfl
    | str s =>
      simp only [List.cons_append, fputsAll, ih]
      cases fputsAll a <;> cases fputsAll b <;> simp

/-- One line of C81. -/
theorem C81_line (what : Bytes) {n : Nat} (h : n ≤ 999999999) :
    fputsAll (printSize what n) = some (what ++ [0x20] ++ Spec.decimal n ++ [0x0a]) := by
  unfold printSize
  have hc : castInt32 n = n := by unfold castInt32; omega
  rw [hc, C59_number_partial (n : Int) (by omega) (by omega), if_neg (by omega), if_pos]
  · unfold Spec.signedDecimal
    rw [if_neg (by omega)]
    simp [fputsAll]
  · have := decimal_length_le (n := n) (by omega)
    unfold Spec.signedDecimal
    rw [if_neg (by omega)]
    simp
    omega

/-- **C81.** `PrintSizesTCose` prints five lines with a name and a size in decimal, and an empty
line, if the sizes are below a thousand million. -/
theorem C81_sizes {a b c d e : Nat} (ha : a ≤ 999999999) (hb : b ≤ 999999999) (hc : c ≤ 999999999)
    (hd : d ≤ 999999999) (he : e ≤ 999999999) :
    fputsAll (printSizes a b c d e) = some (
      "sizeof(struct t_cose_sign1_ctx) ".toUTF8.toList ++ Spec.decimal a ++ [0x0a] ++
      "sizeof(struct t_cose_signing_key) ".toUTF8.toList ++ Spec.decimal b ++ [0x0a] ++
      "sizeof(struct t_cose_crypto_hash) ".toUTF8.toList ++ Spec.decimal c ++ [0x0a] ++
      "sizeof(struct t_cose_parameters) ".toUTF8.toList ++ Spec.decimal d ++ [0x0a] ++
      "sizeof(struct t_cose_sign1_verify_ctx) ".toUTF8.toList ++ Spec.decimal e ++ [0x0a, 0x0a]) := by
  unfold printSizes
  simp only [fputsAll_append, C81_line _ ha, C81_line _ hb, C81_line _ hc, C81_line _ hd, C81_line _ he,
    Option.bind_some, Option.map_some, fputsAll]
  rw [show "sizeof(struct t_cose_sign1_ctx) ".toUTF8.toList = "sizeof(struct t_cose_sign1_ctx)".toUTF8.toList ++ [0x20]
      by decide +kernel,
    show "sizeof(struct t_cose_signing_key) ".toUTF8.toList = "sizeof(struct t_cose_signing_key)".toUTF8.toList ++ [0x20]
      by decide +kernel,
    show "sizeof(struct t_cose_crypto_hash) ".toUTF8.toList = "sizeof(struct t_cose_crypto_hash)".toUTF8.toList ++ [0x20]
      by decide +kernel,
    show "sizeof(struct t_cose_parameters) ".toUTF8.toList = "sizeof(struct t_cose_parameters)".toUTF8.toList ++ [0x20]
      by decide +kernel,
    show "sizeof(struct t_cose_sign1_verify_ctx) ".toUTF8.toList = "sizeof(struct t_cose_sign1_verify_ctx)".toUTF8.toList ++ [0x20]
      by decide +kernel]
  simp

/-- The condition is needed: a larger size is printed as `XXX`, or as a negative number. -/
theorem C81_large : fputsAll (printSize [0x78] 1000000000) = some "x XXX\n".toUTF8.toList ∧
    fputsAll (printSize [0x78] 4294967295) = some "x -1\n".toUTF8.toList ∧
    fputsAll (printSize [0x78] 2147483648) = none := by
  unfold printSize
  rw [show castInt32 (1000000000 : Nat) = 1000000000 by decide,
    show castInt32 (4294967295 : Nat) = -1 by decide, show castInt32 (2147483648 : Nat) = -2147483648 by decide,
    C59_number_partial 1000000000 (by decide) (by decide), C59_number_partial (-1) (by decide) (by decide),
    C59_int_min]
  simp only [Spec.signedDecimal]
  simp [Spec.decimal]
  decide +kernel

example := C81_sizes (a := 120) (b := 16) (c := 24) (d := 96) (e := 200) (by decide) (by decide) (by decide)
  (by decide) (by decide)

end TCose.Props
