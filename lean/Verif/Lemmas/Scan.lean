import Verif.Lemmas.ReadBack

/-!
# A necessary condition for well-formed CBOR

`scan` reads octets as CBOR, after the pseudocode in RFC 8949 appendix C.  Whatever
encodes an item, it accepts (`encodes_scan`), so octets it refuses encode nothing.
-/

namespace TCose
open Spec

/-- Outcome of `scan`. -/
inductive Scan where
  | fits (rest : Bytes)
  | bad
  | fuel
  deriving DecidableEq, Repr

/-- Major type, additional information, argument, and what follows the head. -/
def scanHead : Bytes → Option (Nat × Nat × Nat × Bytes)
  | [] => none
  | h :: r =>
    let a := h.toNat % 32
    let k := if a < 24 ∨ a = 31 then 0 else 2 ^ (a - 24)
    if 28 ≤ a ∧ a ≤ 30 then none
    else if r.length < k then none
    else some (h.toNat / 32, a, if a < 24 then a else beVal (r.take k), r.drop k)

/-- Reads the octets as CBOR with the given numbers of items to come in the open
containers (`none`: until a break). Strings of indefinite length are read as arrays of
indefinite length; an odd number of items in a map of indefinite length is not
noticed. -/
def scan : Nat → List (Option Nat) → Bytes → Scan
  | 0, _, _ => .fuel
  | _ + 1, [], b => .fits b
  | f + 1, l :: st, b =>
    if l = some 0 then scan f st b
    else if l = none ∧ b.head? = some 0xff then scan f st b.tail
    else
      match scanHead b with
      | none => .bad
      | some (m, a, n, r) =>
        if a = 31 then
          if m = 2 ∨ m = 3 ∨ m = 4 ∨ m = 5 then scan f (none :: l.map (· - 1) :: st) r else .bad
        else if m = 2 ∨ m = 3 then
          if r.length < n then .bad else scan f (l.map (· - 1) :: st) (r.drop n)
        else if m = 4 then scan f (some n :: l.map (· - 1) :: st) r
        else if m = 5 then scan f (some (2 * n) :: l.map (· - 1) :: st) r
        else if m = 6 then scan f (some 1 :: l.map (· - 1) :: st) r
        else if m = 7 ∧ a = 24 ∧ n < 32 then .bad
        else scan f (l.map (· - 1) :: st) r

/-- More fuel does not change an outcome. -/
theorem scan_mono : ∀ (f : Nat) (st : List (Option Nat)) (b : Bytes), scan f st b ≠ .fuel →
    scan (f + 1) st b = scan f st b := by
  intro f
  induction f with
  | zero => intro st b h; exact absurd rfl h
  | succ f ih =>
    intro st b h
    cases st with
    | nil => rfl
    | cons l st =>
      rw [scan] at h
      rw [scan, scan]
      by_cases h0 : l = some 0
      · rw [if_pos h0] at h ⊢; rw [if_pos h0]; exact ih _ _ h
      · rw [if_neg h0] at h ⊢; rw [if_neg h0]
        by_cases hb : l = none ∧ b.head? = some 0xff
        · rw [if_pos hb] at h ⊢; rw [if_pos hb]; exact ih _ _ h
        · rw [if_neg hb] at h ⊢; rw [if_neg hb]
          cases hs : scanHead b with
          | none => rfl
          | some q =>
            obtain ⟨m, a, n, r⟩ := q
            rw [hs] at h
            simp only at h ⊢
            repeat' (split <;> rename_i hc <;> simp only [hc, if_true, if_false] at h ⊢)
            all_goals first | rfl | exact ih _ _ h

theorem scan_add {f : Nat} {st : List (Option Nat)} {b : Bytes} (h : scan f st b ≠ .fuel) :
    ∀ k, scan (f + k) st b = scan f st b := by
  intro k
  induction k with
  | zero => rfl
  | succ k ih => rw [← Nat.add_assoc, scan_mono _ _ _ (by rw [ih]; exact h), ih]

theorem scanHead_headOf {m n : Nat} {hb : Bytes} (h : HeadOf m n hb) (hm : m ≤ 7) (r : Bytes) :
    ∃ a, a < 28 ∧ (a = 24 → hb.length = 2) ∧ scanHead (hb ++ r) = some (m, a, n, r) ∧
      (hb ++ r).head? ≠ some 0xff := by
  cases h with
  | direct hn =>
    have ht : (UInt8.ofNat (32 * m + n)).toNat = 32 * m + n := by
      rw [UInt8.toNat_ofNat']; omega
    have ha : (UInt8.ofNat (32 * m + n)).toNat % 32 = n := by rw [ht]; omega
    have hq : (UInt8.ofNat (32 * m + n)).toNat / 32 = m := by rw [ht]; omega
    refine ⟨n, by omega, fun hc => by omega, ?_, ?_⟩
    · have hk : (if n < 24 ∨ n = 31 then 0 else 2 ^ (n - 24)) = 0 := if_pos (.inl hn)
      simp only [List.cons_append, List.nil_append, scanHead, ha, hq]
      rw [hk, if_neg (by omega), if_neg (by omega), if_pos hn]
      rfl
    · intro hc
      simp only [List.cons_append, List.head?_cons, Option.some.injEq] at hc
      rw [hc] at ha
      have : n = 31 := by rw [← ha]; rfl
      omega
  | wide k hk hn =>
    have ht : (UInt8.ofNat (32 * m + (24 + k))).toNat = 32 * m + (24 + k) := by
      rw [UInt8.toNat_ofNat']; omega
    have ha : (UInt8.ofNat (32 * m + (24 + k))).toNat % 32 = 24 + k := by rw [ht]; omega
    have hq : (UInt8.ofNat (32 * m + (24 + k))).toNat / 32 = m := by rw [ht]; omega
    refine ⟨24 + k, by omega, fun hc => ?_, ?_, ?_⟩
    · have : k = 0 := by omega
      subst this
      simp [netOrder_length]
    · simp only [List.cons_append, scanHead, ha, hq]
      have hk2 : (if 24 + k < 24 ∨ 24 + k = 31 then 0 else 2 ^ (24 + k - 24)) = 2 ^ k := by
        rw [if_neg (by omega)]
        congr 1
        omega
      rw [hk2, if_neg (by omega), if_neg (by simp [netOrder_length]), if_neg (by omega)]
      have h4 : List.take (2 ^ k) (netOrder (2 ^ k) n ++ r) = netOrder (2 ^ k) n := by
        rw [List.take_append_of_le_length (by simp [netOrder_length]),
          List.take_of_length_le (by simp [netOrder_length])]
      have h5 : List.drop (2 ^ k) (netOrder (2 ^ k) n ++ r) = r := by
        have := List.drop_left (l₁ := netOrder (2 ^ k) n) (l₂ := r)
        rwa [netOrder_length] at this
      rw [h4, h5, ← beBytes_eq_netOrder, beVal_beBytes, Nat.mod_eq_of_lt hn]
    · intro hc
      simp only [List.cons_append, List.head?_cons, Option.some.injEq] at hc
      rw [hc] at ha
      have : 24 + k = 31 := by rw [← ha]; rfl
      omega

/-- One step of `scan` over a head. -/
theorem scan_head {m n : Nat} {hb : Bytes} (h : HeadOf m n hb) (hm : m ≤ 7) (r : Bytes)
    {l : Option Nat} (hl : l ≠ some 0) (st : List (Option Nat)) (f : Nat) :
    ∃ a, a < 28 ∧ (a = 24 → hb.length = 2) ∧ scan (f + 1) (l :: st) (hb ++ r) =
      if m = 2 ∨ m = 3 then
        if r.length < n then .bad else scan f (l.map (· - 1) :: st) (r.drop n)
      else if m = 4 then scan f (some n :: l.map (· - 1) :: st) r
      else if m = 5 then scan f (some (2 * n) :: l.map (· - 1) :: st) r
      else if m = 6 then scan f (some 1 :: l.map (· - 1) :: st) r
      else if m = 7 ∧ a = 24 ∧ n < 32 then .bad
      else scan f (l.map (· - 1) :: st) r := by
  obtain ⟨a, h1, h2, h3, h4⟩ := scanHead_headOf h hm r
  refine ⟨a, h1, h2, ?_⟩
  rw [scan, if_neg hl, if_neg (fun hc => h4 hc.2), h3]
  simp only
  rw [if_neg (by omega)]

/-- The octets are passed as one of the items to come. -/
def Passes (b : Bytes) : Prop :=
  ∀ (l : Option Nat) (st : List (Option Nat)) (r : Bytes), l ≠ some 0 →
    ∃ s, ∀ f, scan (f + s) (l :: st) (b ++ r) = scan f (l.map (· - 1) :: st) r

/-- The octets are passed as `k` of the items to come. -/
def PassesN (k : Nat) (b : Bytes) : Prop :=
  ∀ (l : Option Nat) (st : List (Option Nat)) (r : Bytes), (∀ n, l = some n → k ≤ n) →
    ∃ s, ∀ f, scan (f + s) (l :: st) (b ++ r) = scan f (l.map (· - k) :: st) r

theorem passesN_nil : PassesN 0 [] := by
  intro l st r _
  refine ⟨0, fun f => ?_⟩
  cases l <;> rfl

theorem Passes.cons {b b' : Bytes} {k : Nat} (h : Passes b) (h' : PassesN k b') :
    PassesN (k + 1) (b ++ b') := by
  intro l st r hl
  obtain ⟨s, hs⟩ := h l st (b' ++ r) (fun hc => by have := hl _ hc; omega)
  obtain ⟨s', hs'⟩ := h' (l.map (· - 1)) st r (by
    intro n hn
    cases l with
    | none => cases hn
    | some m => simp only [Option.map_some, Option.some.injEq] at hn; have := hl _ rfl; omega)
  refine ⟨s' + s, fun f => ?_⟩
  rw [List.append_assoc, ← Nat.add_assoc, hs, hs']
  congr 2
  cases l with
  | none => rfl
  | some m => simp only [Option.map_some]; congr 1; omega

theorem passes_flat {m n : Nat} {hb : Bytes} (h : HeadOf m n hb) (hm : m = 0 ∨ m = 1) : Passes hb := by
  intro l st r hl
  refine ⟨1, fun f => ?_⟩
  obtain ⟨a, -, -, h3⟩ := scan_head h (by omega) r hl st f
  rw [h3, if_neg (by omega), if_neg (by omega), if_neg (by omega), if_neg (by omega),
    if_neg (by omega)]

theorem passes_str {m : Nat} {s hb : Bytes} (h : HeadOf m s.length hb) (hm : m = 2 ∨ m = 3) :
    Passes (hb ++ s) := by
  intro l st r hl
  refine ⟨1, fun f => ?_⟩
  obtain ⟨a, -, -, h3⟩ := scan_head h (by omega) (s ++ r) hl st f
  rw [List.append_assoc, h3, if_pos hm, if_neg (by simp)]
  congr 1
  simp

theorem scan_zero (f : Nat) (st : List (Option Nat)) (b : Bytes) :
    scan (f + 1) (some 0 :: st) b = scan f st b := by
  rw [scan, if_pos rfl]

theorem passes_cont {m n k : Nat} {hb body : Bytes} (h : HeadOf m n hb)
    (hm : (m = 4 ∧ k = n) ∨ (m = 5 ∧ k = 2 * n) ∨ (m = 6 ∧ k = 1)) (hb' : PassesN k body) :
    Passes (hb ++ body) := by
  intro l st r hl
  obtain ⟨s, hs⟩ := hb' (some k) (l.map (· - 1) :: st) r (by intro n hn; cases hn; omega)
  refine ⟨1 + s + 1, fun f => ?_⟩
  obtain ⟨a, -, -, h3⟩ := scan_head h (by omega) (body ++ r) hl st (f + (1 + s))
  have hk : Option.map (· - k) (some k) = some 0 := by simp
  rw [hk] at hs
  have : scan (f + (1 + s)) (some k :: l.map (· - 1) :: st) (body ++ r) =
      scan f (l.map (· - 1) :: st) r := by
    rw [← Nat.add_assoc, hs, scan_zero]
  rw [List.append_assoc, ← Nat.add_assoc, h3, if_neg (by omega)]
  rcases hm with ⟨rfl, rfl⟩ | ⟨rfl, rfl⟩ | ⟨rfl, rfl⟩
  · rw [if_pos rfl]; exact this
  · rw [if_neg (by omega), if_pos rfl]; exact this
  · rw [if_neg (by omega), if_neg (by omega), if_pos rfl]; exact this

theorem passes_indef {h : UInt8} {k : Nat} {body : Bytes} (hh : h = 0x9f ∨ h = 0xbf)
    (hb : PassesN k body) : Passes (h :: (body ++ [0xff])) := by
  intro l st r hl
  obtain ⟨s, hs⟩ := hb none (l.map (· - 1) :: st) ([0xff] ++ r) (by intro n hn; cases hn)
  refine ⟨1 + s + 1, fun f => ?_⟩
  have hsc : ∃ m, (m = 4 ∨ m = 5) ∧ ∀ q, scanHead (h :: q) = some (m, 31, 0, q) := by
    rcases hh with rfl | rfl
    · exact ⟨4, .inl rfl, fun q => by simp [scanHead, beVal]⟩
    · exact ⟨5, .inr rfl, fun q => by simp [scanHead, beVal]⟩
  obtain ⟨m, hm, hsc⟩ := hsc
  have hne : h ≠ 0xff := by rcases hh with rfl | rfl <;> decide
  rw [← Nat.add_assoc, List.cons_append, scan, if_neg hl, if_neg (by
    intro hc
    have := hc.2
    simp only [List.head?_cons, Option.some.injEq] at this
    exact hne this), hsc]
  simp only
  rw [if_pos trivial, if_pos (by omega), List.append_assoc, ← Nat.add_assoc, hs]
  show scan (f + 1) (none :: _) (0xff :: r) = _
  rw [scan, if_neg (by simp), if_pos ⟨rfl, rfl⟩]
  rfl

theorem passes_seven {n : Nat} {hb : Bytes} (h : HeadOf 7 n hb)
    (hn : hb.length = 2 → 32 ≤ n) : Passes hb := by
  intro l st r hl
  refine ⟨1, fun f => ?_⟩
  obtain ⟨a, h1, h2, h3⟩ := scan_head h (by omega) r hl st f
  rw [h3, if_neg (by omega), if_neg (by omega), if_neg (by omega), if_neg (by omega), if_neg]
  rintro ⟨-, ha, hlt⟩
  have := hn (h2 ha)
  omega

theorem passes_float {b : Bytes} {k : Nat} (h1 : 1 ≤ k) (h2 : k ≤ 3) (h3 : b.length = 2 ^ k) :
    Passes (UInt8.ofNat (0xf8 + k) :: b) := by
  have hh : HeadOf 7 (beVal b) (UInt8.ofNat (0xf8 + k) :: b) := by
    have := HeadOf.wide (m := 7) (n := beVal b) k (by omega) (by rw [← h3]; exact beVal_lt b)
    rw [← h3, ← octetsVal_eq_beVal, netOrder_octetsVal] at this
    rw [show 32 * 7 + (24 + k) = 0xf8 + k by omega, octetsVal_eq_beVal] at this
    exact this
  refine passes_seven hh ?_
  intro hl
  simp only [List.length_cons, h3] at hl
  have : 2 ^ 1 ≤ 2 ^ k := Nat.pow_le_pow_right (by omega) h1
  omega

mutual
theorem encodes_passes : ∀ {x : Item} {b : Bytes}, Encodes x b → Passes b
  | _, _, .uint h => passes_flat h (.inl rfl)
  | _, _, .nint h => passes_flat h (.inr rfl)
  | _, _, .bstr h => passes_str h (.inl rfl)
  | _, _, .tstr h => passes_str h (.inr rfl)
  | _, _, .arr h hs => passes_cont h (.inl ⟨rfl, rfl⟩) (encodesAll_passes hs)
  | _, _, .arrIndef hs => passes_indef (.inl rfl) (encodesAll_passes hs)
  | _, _, .map h hs => passes_cont h (.inr (.inl ⟨rfl, rfl⟩)) (encodesPairs_passes hs)
  | _, _, .mapIndef hs => passes_indef (.inr rfl) (encodesPairs_passes hs)
  | _, _, .tag h hx => by
    have := (encodes_passes hx).cons passesN_nil
    rw [List.append_nil] at this
    exact passes_cont h (.inr (.inr ⟨rfl, rfl⟩)) this
  | _, _, .null => passes_seven (n := 22) (HeadOf.direct (by omega)) (by simp)
  | _, _, .simple h1 _ => passes_seven (HeadOf.direct (m := 7) h1) (by simp)
  | _, _, .simple8 (n := n) h1 h2 => by
    have := HeadOf.wide (m := 7) (n := n) 0 (by omega) (by simpa using h2)
    have hb : netOrder (2 ^ 0) n = [UInt8.ofNat n] := by simp [netOrder, List.range_succ]
    rw [hb] at this
    exact passes_seven this (fun _ => h1)
  | _, _, .float k h1 h2 h3 => passes_float h1 h2 h3
theorem encodesAll_passes : ∀ {xs : List Item} {bss : List Bytes}, EncodesAll xs bss →
    PassesN xs.length bss.flatten
  | _, _, .nil => passesN_nil
  | _, _, .cons h hs => (encodes_passes h).cons (encodesAll_passes hs)
theorem encodesPairs_passes : ∀ {kvs : List (Item × Item)} {bss : List Bytes},
    EncodesPairs kvs bss → PassesN (2 * kvs.length) bss.flatten
  | _, _, .nil => passesN_nil
  | _, _, .cons hk hv hs => by
    have := (encodes_passes hk).cons ((encodes_passes hv).cons (encodesPairs_passes hs))
    rw [List.length_cons, List.flatten_cons, List.append_assoc]
    exact this
end

/-- **Octets that encode an item are read to the end.** -/
theorem encodes_scan {x : Item} {b : Bytes} (h : Encodes x b) :
    ∃ s, ∀ k, scan (s + k) [some 1] b = .fits [] := by
  obtain ⟨s, hs⟩ := encodes_passes h (some 1) [] [] (by simp)
  refine ⟨2 + s, fun k => ?_⟩
  have h1 : scan (2 + s) [some 1] b = .fits [] := by
    rw [List.append_nil] at hs
    rw [hs 2]
    rfl
  rw [scan_add (by rw [h1]; simp), h1]

theorem not_encodes_of_scan {b : Bytes} {f : Nat} (h : scan f [some 1] b = .bad) :
    ¬ ∃ x, Encodes x b := by
  rintro ⟨x, hx⟩
  obtain ⟨s, hs⟩ := encodes_scan hx
  have h1 := scan_add (k := s) (by rw [h]; simp : scan f [some 1] b ≠ .fuel)
  rw [h, Nat.add_comm, hs] at h1
  cases h1

end TCose
