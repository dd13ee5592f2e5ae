import Verif.Spec.Parse
import Verif.Lemmas.ReadBack
import Verif.Lemmas.ReadRun
import Verif.Lemmas.DecodeMsg

/-! Helper lemmas: `parse` reads what `Reads` says. -/

namespace TCose
open Spec

theorem octetsNum_eq (b : Bytes) : octetsNum b = octetsVal b := rfl

theorem headAt_of {m n : Nat} {h : Bytes} (hh : HeadOf m n h) (hm : m < 8) (r : Bytes) :
    ∃ ai, ai < 28 ∧ headAt (h ++ r) = some ⟨m, ai, n, r⟩ := by
  cases hh with
  | direct hn =>
    have ht : (UInt8.ofNat (32 * m + n)).toNat = 32 * m + n := by
      rw [UInt8.toNat_ofNat']; omega
    have ha : (UInt8.ofNat (32 * m + n)).toNat % 32 = n := by rw [ht]; omega
    have hq : (UInt8.ofNat (32 * m + n)).toNat / 32 = m := by rw [ht]; omega
    refine ⟨n, by omega, ?_⟩
    simp only [List.cons_append, List.nil_append, headAt, ha, hq]
    rw [if_pos (.inl hn)]
  | wide k hk hn =>
    have ht : (UInt8.ofNat (32 * m + (24 + k))).toNat = 32 * m + (24 + k) := by
      rw [UInt8.toNat_ofNat']; omega
    have ha : (UInt8.ofNat (32 * m + (24 + k))).toNat % 32 = 24 + k := by rw [ht]; omega
    have hq : (UInt8.ofNat (32 * m + (24 + k))).toNat / 32 = m := by rw [ht]; omega
    refine ⟨24 + k, by omega, ?_⟩
    simp only [List.cons_append, headAt, ha, hq, Nat.add_sub_cancel_left]
    rw [if_neg (by omega), if_neg (by simp [netOrder])]
    have h4 : List.take (2 ^ k) (netOrder (2 ^ k) n ++ r) = netOrder (2 ^ k) n := by
      rw [List.take_append_of_le_length (by simp [netOrder]),
        List.take_of_length_le (by simp [netOrder])]
    have h5 : List.drop (2 ^ k) (netOrder (2 ^ k) n ++ r) = r := by
      have := List.drop_left (l₁ := netOrder (2 ^ k) n) (l₂ := r)
      rwa [show (netOrder (2 ^ k) n).length = 2 ^ k by simp [netOrder]] at this
    rw [h4, h5, octetsNum_eq, octetsVal_eq_beVal, ← beBytes_eq_netOrder, beVal_beBytes,
      Nat.mod_eq_of_lt hn]

theorem first_octet (b : UInt8) : UInt8.ofNat (32 * (b.toNat / 32) + b.toNat % 32) = b := by
  rw [Nat.div_add_mod]
  exact UInt8.ofNat_toNat

theorem headAt_back {b : Bytes} {h : Hd} (e : headAt b = some h) :
    h.major < 8 ∧ h.ai < 32 ∧
    ((h.ai < 28 ∧ ∃ hb, HeadOf h.major h.arg hb ∧ b = hb ++ h.rest) ∨
     (28 ≤ h.ai ∧ h.arg = h.ai ∧ b = UInt8.ofNat (32 * h.major + h.ai) :: h.rest)) := by
  cases b with
  | nil => cases e
  | cons b r =>
    have hb := b.toNat_lt
    simp only [headAt] at e
    by_cases h1 : b.toNat % 32 < 24 ∨ 28 ≤ b.toNat % 32
    · rw [if_pos h1] at e
      cases e
      refine ⟨by simp only; omega, by simp only; omega, ?_⟩
      simp only
      rcases h1 with h1 | h1
      · refine .inl ⟨by omega, [b], ?_, rfl⟩
        have := HeadOf.direct (m := b.toNat / 32) h1
        rwa [first_octet] at this
      · exact .inr ⟨h1, trivial, by rw [first_octet]⟩
    · rw [if_neg h1] at e
      by_cases h2 : r.length < 2 ^ (b.toNat % 32 - 24)
      · rw [if_pos h2] at e; cases e
      · rw [if_neg h2] at e
        cases e
        refine ⟨by simp only; omega, by simp only; omega, .inl ⟨by simp only; omega, ?_⟩⟩
        simp only
        refine ⟨b :: r.take (2 ^ (b.toNat % 32 - 24)), ?_, by simp⟩
        have hl : (r.take (2 ^ (b.toNat % 32 - 24))).length = 2 ^ (b.toNat % 32 - 24) := by
          rw [List.length_take]; omega
        have := HeadOf.wide (m := b.toNat / 32) (n := octetsNum (r.take (2 ^ (b.toNat % 32 - 24))))
          (b.toNat % 32 - 24) (by omega) (by
            have := beVal_lt (r.take (2 ^ (b.toNat % 32 - 24)))
            rw [hl] at this
            rw [octetsNum_eq, octetsVal_eq_beVal]; exact this)
        rw [show 24 + (b.toNat % 32 - 24) = b.toNat % 32 by omega, first_octet, octetsNum_eq] at this
        have e := netOrder_octetsVal (r.take (2 ^ (b.toNat % 32 - 24)))
        rw [hl] at e
        rwa [e] at this

/-- Octets that are passed although they begin no item. -/
theorem headAt_notCbor {b : Bytes} (h : NotCbor b) (r : Bytes) :
    ∃ hd, headAt (b ++ r) = some hd ∧ hd.notCbor = true ∧ hd.rest = r ∧ ¬ (hd.major = 6 ∧ hd.ai < 28) := by
  cases h with
  | @reserved b h1 h2 =>
    refine ⟨_, by simp only [List.cons_append, List.nil_append, headAt]; rw [if_pos (.inr h1)], ?_, rfl, ?_⟩
    · simp [Hd.notCbor, h1, h2]
    · simp only; omega
  | indef h =>
    rcases h with rfl | rfl | rfl
    · exact ⟨⟨0, 31, 31, r⟩, rfl, rfl, rfl, by simp⟩
    · exact ⟨⟨1, 31, 31, r⟩, rfl, rfl, rfl, by simp⟩
    · exact ⟨⟨6, 31, 31, r⟩, rfl, rfl, rfl, by simp⟩
  | @simple n h =>
    refine ⟨⟨7, 24, n.toNat, r⟩, ?_, by simp [Hd.notCbor, h], rfl, by simp⟩
    simp [headAt, octetsNum]

theorem notCbor_back {b : Bytes} {h : Hd} (e : headAt b = some h) (hn : h.notCbor = true) :
    ∃ a, b = a ++ h.rest ∧ NotCbor a := by
  obtain ⟨h1, h2, h3⟩ := headAt_back e
  simp only [Hd.notCbor, Bool.or_eq_true, Bool.and_eq_true, decide_eq_true_eq, beq_iff_eq] at hn
  rcases h3 with ⟨h3, hb, h4, h5⟩ | ⟨h3, h4, h5⟩
  · rcases hn with (hn | hn) | hn
    · omega
    · omega
    · obtain ⟨⟨hm, ha⟩, hg⟩ := hn
      -- the head is of two octets
      cases b with
      | nil => cases e
      | cons b r =>
        simp only [headAt] at e
        have hbl := b.toNat_lt
        by_cases q1 : b.toNat % 32 < 24 ∨ 28 ≤ b.toNat % 32
        · rw [if_pos q1] at e; cases e; simp only at ha; omega
        · rw [if_neg q1] at e
          split at e
          · cases e
          rename_i q2
          cases e
          simp only at hm ha hg
          have hb8 : b = 0xf8 := by
            apply UInt8.toNat_inj.mp
            show b.toNat = 248
            omega
          subst hb8
          cases r with
          | nil => exact absurd (by decide) q2
          | cons n r =>
            refine ⟨[0xf8, n], rfl, .simple ?_⟩
            simpa [octetsNum] using hg
  · rcases hn with (hn | hn) | hn
    · refine ⟨[_], h5, .reserved ?_ ?_⟩
      all_goals rw [UInt8.toNat_ofNat']; omega
    · refine ⟨[_], h5, .indef ?_⟩
      obtain ⟨ha, hm⟩ := hn
      rw [ha]
      rcases hm with (hm | hm) | hm <;> rw [hm]
      · exact .inl rfl
      · exact .inr (.inl rfl)
      · exact .inr (.inr rfl)
    · omega

/-! ## Tags -/

theorem headOf_pos {m n : Nat} {h : Bytes} (hh : HeadOf m n h) : 0 < h.length := by
  cases hh <;> simp

theorem tagsAt_of {ts : List Nat} {h : Bytes} (hh : TagHeads ts h) : ∀ (f : Nat) (r : Bytes),
    h.length ≤ f → (∀ hd, headAt r = some hd → ¬ (hd.major = 6 ∧ hd.ai < 28)) →
    tagsAt f (h ++ r) = (ts.length, r) := by
  induction hh with
  | nil =>
    intro f r _ hr
    cases f with
    | zero => rfl
    | succ f =>
      simp only [List.nil_append, tagsAt]
      cases e : headAt r with
      | none => rfl
      | some hd => simp only; rw [if_neg (hr hd e)]; rfl
  | @cons n ts h r' h1 h2 ih =>
    intro f r hf hr
    have hp := headOf_pos h1
    rw [List.length_append] at hf
    cases f with
    | zero => omega
    | succ f =>
      obtain ⟨ai, ha, e⟩ := headAt_of h1 (by omega) (r' ++ r)
      rw [List.append_assoc, tagsAt, e]
      simp only
      rw [if_pos ⟨trivial, ha⟩, ih f r (by omega) hr]
      rfl

theorem tagsAt_back : ∀ (f : Nat) (b : Bytes), ∃ ts h, TagHeads ts h ∧
    (tagsAt f b).1 = ts.length ∧ b = h ++ (tagsAt f b).2 := by
  intro f
  induction f with
  | zero => intro b; exact ⟨[], [], .nil, rfl, rfl⟩
  | succ f ih =>
    intro b
    rw [tagsAt]
    cases e : headAt b with
    | none => exact ⟨[], [], .nil, rfl, rfl⟩
    | some hd =>
      simp only
      by_cases hc : hd.major = 6 ∧ hd.ai < 28
      · rw [if_pos hc]
        obtain ⟨ts, h, h1, h2, h3⟩ := ih hd.rest
        obtain ⟨-, -, ⟨-, hb, g1, g2⟩ | ⟨g1, -⟩⟩ := headAt_back e
        · rw [hc.1] at g1
          refine ⟨hd.arg :: ts, hb ++ h, .cons g1 h1, by simp [h2], ?_⟩
          rw [List.append_assoc, ← h3]; exact g2
        · omega
      · rw [if_neg hc]
        exact ⟨[], [], .nil, rfl, rfl⟩

/-! ## What is passed in the place of a label -/

theorem string_of {h : Hd} {s r : Bytes} (ha : h.ai ≠ 31) (hn : h.arg = s.length) (hr : h.rest = s ++ r) :
    h.string = some (s, r) := by
  unfold Hd.string
  rw [hr, hn, if_neg]
  · simp
  · simp [ha]

theorem string_back {h : Hd} {s : Bytes × Bytes} (e : h.string = some s) :
    h.ai ≠ 31 ∧ h.arg = s.1.length ∧ h.rest = s.1 ++ s.2 := by
  unfold Hd.string at e
  split at e
  · cases e
  rename_i hc
  cases e
  rw [not_or] at hc
  exact ⟨hc.1, by simp only [List.length_take]; omega, by simp⟩

theorem piece_of {b : Bytes} (h : Piece b) (r : Bytes) :
    ∃ hd, headAt (b ++ r) = some hd ∧ (hd.notCbor = true → hd.rest = r) ∧
      (hd.major = 1 → hd.rest = r) ∧ hd.piece = some r ∧ ¬ (hd.major = 6 ∧ hd.ai < 28) := by
  cases h with
  | @head m n h hm hh =>
    obtain ⟨ai, ha, e⟩ := headAt_of hh (by omega) r
    refine ⟨_, e, fun _ => rfl, fun _ => rfl, ?_, ?_⟩
    · simp only [Hd.piece]
      rcases hm with rfl | rfl | rfl | ⟨rfl, h⟩ | ⟨rfl, h⟩ <;> simp <;> omega
    · simp only; omega
  | @str m s h hm hh =>
    obtain ⟨ai, ha, e⟩ := headAt_of hh (by omega) (s ++ r)
    rw [List.append_assoc]
    refine ⟨_, e, ?_, ?_, ?_, ?_⟩
    · intro hc
      simp only [Hd.notCbor, Bool.or_eq_true, Bool.and_eq_true, decide_eq_true_eq, beq_iff_eq] at hc
      omega
    · simp only; omega
    · simp only [Hd.piece]
      rw [if_pos hm, string_of (s := s) (r := r) (by simp only; omega) rfl rfl]
      rfl
    · simp only; omega
  | indef h =>
    rcases h with rfl | rfl | rfl
    · exact ⟨⟨4, 31, 31, r⟩, rfl, nofun, nofun, rfl, by simp⟩
    · exact ⟨⟨5, 31, 31, r⟩, rfl, nofun, nofun, rfl, by simp⟩
    · exact ⟨⟨7, 31, 31, r⟩, rfl, nofun, nofun, rfl, by simp⟩

theorem piece_back {b r : Bytes} {h : Hd} (e : headAt b = some h) (hn : h.notCbor = false)
    (hp : h.piece = some r) : ∃ a, b = a ++ r ∧ Piece a := by
  obtain ⟨h1, h2, h3⟩ := headAt_back e
  rw [Hd.piece] at hp
  by_cases q1 : h.major = 2 ∨ h.major = 3
  · rw [if_pos q1] at hp
    cases hs : h.string with
    | none => rw [hs] at hp; cases hp
    | some s =>
      rw [hs] at hp
      cases hp
      obtain ⟨k1, k2, k3⟩ := string_back hs
      rcases h3 with ⟨-, hb, g1, g2⟩ | ⟨g1, g2, -⟩
      · rw [k2] at g1
        exact ⟨hb ++ s.1, by rw [g2, k3]; simp, .str q1 g1⟩
      · simp only [Hd.notCbor, Bool.or_eq_false_iff, Bool.and_eq_false_iff, decide_eq_false_iff_not,
          beq_eq_false_iff_ne] at hn
        omega
  rw [if_neg q1] at hp
  have hai : h.ai < 28 ∨ (h.ai = 31 ∧ (h.major = 4 ∨ h.major = 5 ∨ h.major = 7) ∨ h.major = 6) := by
    simp only [Hd.notCbor, Bool.or_eq_false_iff, Bool.and_eq_false_iff, decide_eq_false_iff_not,
          beq_eq_false_iff_ne] at hn
    omega
  have fin : ∀ hm : (h.ai < 28 → h.major = 0 ∨ h.major = 1 ∨ h.major = 7 ∨ (h.major = 4 ∧ h.arg ≤ 65534) ∨
      (h.major = 5 ∧ h.arg ≤ 32767)) ∧ h.major ≠ 6, h.rest = r → ∃ a, b = a ++ r ∧ Piece a := by
    rintro ⟨hm, h6⟩ rfl
    rcases h3 with ⟨q, hb, g1, g2⟩ | ⟨g1, g2, g3⟩
    · exact ⟨hb, g2, .head (hm q) g1⟩
    · refine ⟨[_], g3, .indef ?_⟩
      have ha : h.ai = 31 := by omega
      rw [ha]
      have : h.major = 4 ∨ h.major = 5 ∨ h.major = 7 := by omega
      rcases this with hm | hm | hm <;> rw [hm]
      · exact .inl rfl
      · exact .inr (.inl rfl)
      · exact .inr (.inr rfl)
  by_cases q4 : h.major = 4
  · rw [if_pos q4] at hp
    split at hp
    · cases hp
      exact fin ⟨fun _ => by omega, by omega⟩ rfl
    · cases hp
  rw [if_neg q4] at hp
  by_cases q5 : h.major = 5
  · rw [if_pos q5] at hp
    split at hp
    · cases hp
      exact fin ⟨fun _ => by omega, by omega⟩ rfl
    · cases hp
  rw [if_neg q5] at hp
  by_cases q6 : h.major = 6
  · rw [if_pos q6] at hp; cases hp
  rw [if_neg q6] at hp
  cases hp
  exact fin ⟨fun _ => by omega, q6⟩ rfl

theorem loneAt_of {t : Nat} {a : Bytes} (h : LoneKey t a) {f : Nat} (hf : a.length ≤ f) (r : Bytes) :
    loneAt t f (a ++ r) = some r := by
  unfold loneAt
  cases h with
  | @bad ts h b h1 h2 =>
    obtain ⟨hd, e, h3, h4, h5⟩ := headAt_notCbor h2 r
    rw [List.length_append] at hf
    rw [List.append_assoc, tagsAt_of h1 f (b ++ r) (by omega) (by rw [e]; rintro _ ⟨⟩; exact h5)]
    simp only [e]
    rw [if_pos h3, h4]
  | @big ts n h b h1 h2 h3 =>
    obtain ⟨ai, ha, e⟩ := headAt_of h2 (by omega) r
    rw [List.length_append] at hf
    rw [List.append_assoc, tagsAt_of h1 f (b ++ r) (by omega) (by rw [e]; rintro _ ⟨⟩; simp)]
    simp only [e]
    split
    · rfl
    · rw [if_pos ⟨trivial, h3⟩]
  | @many ts h b h1 h2 h3 =>
    obtain ⟨hd, e, k1, k2, k3, k4⟩ := piece_of h3 r
    rw [List.length_append] at hf
    rw [List.append_assoc, tagsAt_of h1 f (b ++ r) (by omega) (by rw [e]; rintro _ ⟨⟩; exact k4)]
    simp only [e]
    split
    · rename_i hc; rw [k1 hc]
    · split
      · rename_i hc; rw [k2 hc.1]
      · first | exact k3 | rw [if_pos h2, k3]

theorem loneAt_back {t f : Nat} {b r : Bytes} (h : loneAt t f b = some r) :
    ∃ a, b = a ++ r ∧ LoneKey t a := by
  unfold loneAt at h
  obtain ⟨ts, hb, h1, h2, h3⟩ := tagsAt_back f b
  split at h
  · cases h
  rename_i hd e
  split at h
  · rename_i hn
    cases h
    obtain ⟨a, g1, g2⟩ := notCbor_back e hn
    exact ⟨hb ++ a, by rw [List.append_assoc, ← g1]; exact h3, .bad h1 g2⟩
  rename_i hn
  have hn' : hd.notCbor = false := by simpa using hn
  split at h
  · rename_i hc
    cases h
    obtain ⟨-, -, ⟨-, hb', g1, g2⟩ | ⟨g1, g2, -⟩⟩ := headAt_back e
    · rw [hc.1] at g1
      exact ⟨hb ++ hb', by rw [List.append_assoc, ← g2]; exact h3, .big h1 g1 hc.2⟩
    · have := (headAt_back e).2.1
      omega
  split at h
  · rename_i hc
    rw [h2] at hc
    obtain ⟨a, g1, g2⟩ := piece_back e hn' h
    exact ⟨hb ++ a, by rw [List.append_assoc, ← g1]; exact h3, .many h1 hc g2⟩
  · cases h

theorem tagList_tagged (ts : List Nat) (x : Item) : (tagged ts x).tagList = ts ++ x.tagList := by
  induction ts with
  | nil => rfl
  | cons n ts ih =>
    show n :: (tagged ts x).tagList = _
    rw [ih]; rfl

theorem label_is_bare {x : Item} (h : x.isLabel = true) : x.bare = x ∧ x.tagList = [] := by
  cases x <;> first | exact ⟨rfl, rfl⟩ | cases h

theorem tagged_label {x : Item} (h : x.isLabel = true) (ts : List Nat) :
    (tagged ts x).bare = x ∧ (tagged ts x).tagList = ts := by
  refine ⟨?_, by rw [tagList_tagged, (label_is_bare h).2, List.append_nil]⟩
  induction ts with
  | nil => exact (label_is_bare h).1
  | cons n ts ih => exact ih

theorem isKey_iff {t : Nat} {k : Item} : isKey t k = true ↔ IsKey t k := by
  unfold isKey
  rw [Bool.and_eq_true, Bool.and_eq_true, decide_eq_true_eq]
  constructor
  · rintro ⟨⟨h1, h2⟩, h3⟩
    refine ⟨k.tagList, k.bare, (Item.tagged_bare k).symm, h1, h2, ?_⟩
    intro n hn
    rw [hn] at h3
    simpa [Item.tooLow] using h3
  · rintro ⟨ts, k0, rfl, h1, h2, h3⟩
    obtain ⟨e1, e2⟩ := tagged_label h2 ts
    rw [e1, e2]
    refine ⟨⟨h1, h2⟩, ?_⟩
    cases k0 <;> first | rfl | skip
    have := h3 _ rfl
    simp [Item.tooLow]
    omega

theorem key_not_lone {t d : Nat} {k : Item} {a : Bytes} (hk : IsKey t k) (h : Reads t d k a) {f : Nat}
    (hf : a.length ≤ f) (r : Bytes) : loneAt t f (a ++ r) = none := by
  obtain ⟨ts, k0, rfl, h1, h2, h3⟩ := hk
  obtain ⟨tb, b0, rfl, g1, g2⟩ := reads_tagged ts h
  rw [List.length_append] at hf
  have key : ∃ hd, headAt (b0 ++ r) = some hd ∧ hd.major < 4 ∧ hd.ai < 28 ∧
      (hd.major = 1 → hd.arg ≤ 9223372036854775807) := by
    cases g2 with
    | uint hh =>
      obtain ⟨ai, ha, e⟩ := headAt_of hh (by omega) r
      exact ⟨_, e, by simp, ha, by simp⟩
    | nint hh =>
      obtain ⟨ai, ha, e⟩ := headAt_of hh (by omega) r
      exact ⟨_, e, by simp, ha, fun _ => h3 _ rfl⟩
    | @bstr _ s h hh =>
      obtain ⟨ai, ha, e⟩ := headAt_of hh (by omega) (s ++ r)
      rw [List.append_assoc]
      exact ⟨_, e, by simp, ha, by simp⟩
    | @tstr _ s h hh =>
      obtain ⟨ai, ha, e⟩ := headAt_of hh (by omega) (s ++ r)
      rw [List.append_assoc]
      exact ⟨_, e, by simp, ha, by simp⟩
    | arr0 | arr | arrIndef | map0 | map | mapIndef | tag | null | simple | simple8 | float | notCbor =>
      cases h2
  obtain ⟨hd, e, k1, k2, k3⟩ := key
  unfold loneAt
  rw [List.append_assoc, tagsAt_of g1 f (b0 ++ r) (by omega) (by rw [e]; rintro _ ⟨⟩; omega)]
  simp only [e]
  rw [if_neg, if_neg, if_neg (by omega)]
  · rintro ⟨q1, q2⟩
    have := k3 q1
    omega
  · simp only [Hd.notCbor, Bool.or_eq_true, Bool.and_eq_true, decide_eq_true_eq, beq_iff_eq]
    omega

/-! ## The program follows the rules -/

/-- `p` reads `x` from `s`, whatever follows. -/
def ReadsBy {α : Type} (p : Bytes → Option (α × Bytes)) (x : α) (s : Bytes) : Prop :=
  FirstOk s ∧ ∀ r, p (s ++ r) = some (x, r)

/-- `p` reads the things from the strings, one each. -/
inductive ReadsByAll {α : Type} (p : Bytes → Option (α × Bytes)) : List α → List Bytes → Prop where
  | nil : ReadsByAll p [] []
  | cons {x : α} {xs : List α} {s : Bytes} {bss : List Bytes} : ReadsBy p x s → ReadsByAll p xs bss →
      ReadsByAll p (x :: xs) (s :: bss)

theorem times_of {α : Type} {p : Bytes → Option (α × Bytes)} {xs : List α} {bss : List Bytes}
    (h : ReadsByAll p xs bss) (r : Bytes) : times p xs.length (bss.flatten ++ r) = some (xs, r) := by
  induction h with
  | nil => rfl
  | cons h1 h2 ih =>
    rw [List.length_cons, times, List.flatten_cons, List.append_assoc, h1.2]
    simp only
    rw [ih]

theorem toBreak_of {α : Type} {p : Bytes → Option (α × Bytes)} {xs : List α} {bss : List Bytes}
    (h : ReadsByAll p xs bss) (r : Bytes) : ∀ f, bss.flatten.length < f →
      toBreak p f (bss.flatten ++ ([0xff] ++ r)) = some (xs, r) := by
  induction h with
  | nil =>
    intro f hf
    cases f with
    | zero => simp at hf
    | succ f => rfl
  | @cons x xs s bss h1 h2 ih =>
    intro f hf
    obtain ⟨a, l, rfl, hne⟩ := h1.1
    rw [List.flatten_cons, List.length_append, List.length_cons] at hf
    cases f with
    | zero => omega
    | succ f =>
      rw [toBreak, if_neg (by simpa using hne), List.flatten_cons, List.append_assoc, h1.2]
      simp only
      rw [ih f (by omega)]

theorem times_back {α : Type} {p : Bytes → Option (α × Bytes)} {Q : α → Bytes → Prop}
    (hp : ∀ b x r, p b = some (x, r) → ∃ a, b = a ++ r ∧ Q x a) : ∀ (n : Nat) (b : Bytes) (xs : List α)
    (r : Bytes), times p n b = some (xs, r) → xs.length = n ∧ ∃ bss : List Bytes, b = bss.flatten ++ r ∧
      bss.length = xs.length ∧ ∀ q ∈ xs.zip bss, Q q.1 q.2 := by
  intro n
  induction n with
  | zero =>
    intro b xs r h
    cases h
    exact ⟨rfl, [], rfl, rfl, nofun⟩
  | succ n ih =>
    intro b xs r h
    rw [times] at h
    split at h
    · cases h
    rename_i x r1 e
    split at h
    · cases h
    rename_i xs' r2 e2
    cases h
    obtain ⟨a, rfl, h1⟩ := hp _ _ _ e
    obtain ⟨h2, bss, rfl, h3, h4⟩ := ih _ _ _ e2
    refine ⟨by simp [h2], a :: bss, by simp, by simp [h3], ?_⟩
    intro q hq
    rcases List.mem_cons.mp hq with rfl | hq
    · exact h1
    · exact h4 q hq

theorem toBreak_back {α : Type} {p : Bytes → Option (α × Bytes)} {Q : α → Bytes → Prop}
    (hp : ∀ b x r, p b = some (x, r) → ∃ a, b = a ++ r ∧ Q x a) : ∀ (f : Nat) (b : Bytes) (xs : List α)
    (r : Bytes), toBreak p f b = some (xs, r) → ∃ bss : List Bytes, b = bss.flatten ++ ([0xff] ++ r) ∧
      bss.length = xs.length ∧ ∀ q ∈ xs.zip bss, Q q.1 q.2 := by
  intro f
  induction f with
  | zero => intro b xs r h; cases h
  | succ f ih =>
    intro b xs r h
    rw [toBreak] at h
    split at h
    · rename_i hb
      cases h
      cases b with
      | nil => cases hb
      | cons b r =>
        cases hb
        exact ⟨[], rfl, rfl, nofun⟩
    split at h
    · cases h
    rename_i x r1 e
    split at h
    · cases h
    rename_i xs' r2 e2
    cases h
    obtain ⟨a, rfl, h1⟩ := hp _ _ _ e
    obtain ⟨bss, rfl, h3, h4⟩ := ih _ _ _ e2
    refine ⟨a :: bss, by simp, by simp [h3], ?_⟩
    intro q hq
    rcases List.mem_cons.mp hq with rfl | hq
    · exact h1
    · exact h4 q hq

theorem readsAll_of_zip {t d : Nat} : ∀ {xs : List Item} {bss : List Bytes}, bss.length = xs.length →
    (∀ q ∈ xs.zip bss, Reads t d q.1 q.2) → ReadsAll t d xs bss
  | [], [], _, _ => .nil
  | x :: xs, b :: bss, hl, h => .cons (h (x, b) (by simp))
      (readsAll_of_zip (by simpa using hl) fun q hq => h q (by simp [hq]))

/-- One entry of a map. -/
def PairReads (t d : Nat) (kv : Item × Item) (s : Bytes) : Prop :=
  (∃ a b, s = a ++ b ∧ IsKey t kv.1 ∧ Reads t d kv.1 a ∧ Reads t d kv.2 b) ∨
  (kv = (notItem, notItem) ∧ LoneKey t s)

theorem readsPairs_of_zip {t d : Nat} : ∀ {kvs : List (Item × Item)} {bss : List Bytes},
    bss.length = kvs.length → (∀ q ∈ kvs.zip bss, PairReads t d q.1 q.2) → ReadsPairs t d kvs bss
  | [], [], _, _ => .nil
  | (k, v) :: kvs, b :: bss, hl, h => by
    have ih := readsPairs_of_zip (t := t) (d := d) (kvs := kvs) (bss := bss) (by simpa using hl)
      fun q hq => h q (by simp [hq])
    rcases h ((k, v), b) (by simp) with ⟨a, c, h1, h2, h3, h4⟩ | ⟨h1, h2⟩
    · simp only at h1 h2 h3 h4
      subst h1
      exact .cons h2 h3 h4 ih
    · cases h1
      exact .lone h2 ih

theorem parse_sound {t : Nat} : ∀ (f d : Nat) (b : Bytes) (x : Item) (r : Bytes),
    parse t f d b = some (x, r) → ∃ a, b = a ++ r ∧ Reads t d x a := by
  intro f
  induction f with
  | zero => intro d b x r h; cases h
  | succ f ih =>
    intro d b x r h
    have hentry : ∀ d b kv r, entryAt t f (parse t f d) b = some (kv, r) →
        ∃ a, b = a ++ r ∧ PairReads t d kv a := by
      intro d b kv r h
      unfold entryAt at h
      split at h
      · rename_i r' e
        cases h
        obtain ⟨a, h1, h2⟩ := loneAt_back e
        exact ⟨a, h1, .inr ⟨rfl, h2⟩⟩
      split at h
      · cases h
      rename_i k r1 e1
      split at h
      · rename_i hk
        split at h
        · cases h
        rename_i v r2 e2
        cases h
        obtain ⟨a, rfl, h1⟩ := ih _ _ _ _ e1
        obtain ⟨c, rfl, h2⟩ := ih _ _ _ _ e2
        exact ⟨a ++ c, by simp, .inl ⟨a, c, rfl, isKey_iff.mp hk, h1, h2⟩⟩
      · cases h
    rw [parse] at h
    cases e : headAt b with
    | none => rw [e] at h; cases h
    | some hd =>
      rw [e] at h
      simp only at h
      by_cases hn : hd.notCbor = true
      · rw [if_pos hn] at h
        cases h
        obtain ⟨a, h1, h2⟩ := notCbor_back e hn
        exact ⟨a, h1, .notCbor h2⟩
      rw [if_neg hn] at h
      simp only [Hd.notCbor, Bool.or_eq_true, Bool.and_eq_true, decide_eq_true_eq, beq_iff_eq,
        not_or, not_and] at hn
      obtain ⟨⟨hn1, hn2⟩, hn3⟩ := hn
      obtain ⟨hm8, ha32, hb⟩ := headAt_back e
      by_cases q0 : hd.major = 0
      · rw [if_pos q0] at h
        cases h
        rcases hb with ⟨-, hb, g1, g2⟩ | ⟨g1, -⟩
        · rw [q0] at g1; exact ⟨hb, g2, .uint g1⟩
        · have := hn2 (by omega); omega
      rw [if_neg q0] at h
      by_cases q1 : hd.major = 1
      · rw [if_pos q1] at h
        cases h
        rcases hb with ⟨-, hb, g1, g2⟩ | ⟨g1, -⟩
        · rw [q1] at g1; exact ⟨hb, g2, .nint g1⟩
        · have := hn2 (by omega); omega
      rw [if_neg q1] at h
      by_cases q2 : hd.major = 2
      · rw [if_pos q2] at h
        cases hs : hd.string with
        | none => rw [hs] at h; cases h
        | some s =>
          rw [hs] at h
          cases h
          obtain ⟨k1, k2, k3⟩ := string_back hs
          rcases hb with ⟨-, hb, g1, g2⟩ | ⟨g1, -⟩
          · rw [q2, k2] at g1
            exact ⟨hb ++ s.1, by rw [g2, k3]; simp, .bstr g1⟩
          · omega
      rw [if_neg q2] at h
      by_cases q3 : hd.major = 3
      · rw [if_pos q3] at h
        cases hs : hd.string with
        | none => rw [hs] at h; cases h
        | some s =>
          rw [hs] at h
          cases h
          obtain ⟨k1, k2, k3⟩ := string_back hs
          rcases hb with ⟨-, hb, g1, g2⟩ | ⟨g1, -⟩
          · rw [q3, k2] at g1
            exact ⟨hb ++ s.1, by rw [g2, k3]; simp, .tstr g1⟩
          · omega
      rw [if_neg q3] at h
      by_cases q4 : hd.major = 4
      · rw [if_pos q4] at h
        by_cases qz : hd.arg = 0
        · rw [if_pos qz] at h
          cases h
          rcases hb with ⟨-, hb, g1, g2⟩ | ⟨g1, g2, -⟩
          · rw [q4, qz] at g1; exact ⟨hb, g2, .arr0 g1⟩
          · omega
        rw [if_neg qz] at h
        cases d with
        | zero => cases h
        | succ d =>
          simp only [Option.map_eq_some_iff] at h
          obtain ⟨⟨xs, r'⟩, h, heq⟩ := h
          cases heq
          by_cases qi : hd.ai = 31
          · rw [if_pos qi] at h
            obtain ⟨bss, h1, h2, h3⟩ := toBreak_back (ih d) _ _ _ _ h
            rcases hb with ⟨g1, -⟩ | ⟨-, -, g3⟩
            · omega
            rw [q4, qi] at g3
            refine ⟨0x9f :: (bss.flatten ++ [0xff]), ?_, .arrIndef (readsAll_of_zip h2 h3)⟩
            rw [g3, h1]
            simp
          · rw [if_neg qi] at h
            split at h
            · rename_i hle
              obtain ⟨h0, bss, h1, h2, h3⟩ := times_back (ih d) _ _ _ _ h
              rcases hb with ⟨-, hb, g1, g2⟩ | ⟨g1, -⟩
              · rw [q4, ← h0] at g1
                refine ⟨hb ++ bss.flatten, by rw [g2, h1]; simp, .arr (by rw [show xs.length = _ from h0]; exact hle) g1 (readsAll_of_zip h2 h3)⟩
              · omega
            · cases h
      rw [if_neg q4] at h
      by_cases q5 : hd.major = 5
      · rw [if_pos q5] at h
        by_cases qz : hd.arg = 0
        · rw [if_pos qz] at h
          cases h
          rcases hb with ⟨-, hb, g1, g2⟩ | ⟨g1, g2, -⟩
          · rw [q5, qz] at g1; exact ⟨hb, g2, .map0 g1⟩
          · omega
        rw [if_neg qz] at h
        cases d with
        | zero => cases h
        | succ d =>
          simp only [Option.map_eq_some_iff] at h
          obtain ⟨⟨xs, r'⟩, h, heq⟩ := h
          cases heq
          by_cases qi : hd.ai = 31
          · rw [if_pos qi] at h
            obtain ⟨bss, h1, h2, h3⟩ := toBreak_back (hentry d) _ _ _ _ h
            rcases hb with ⟨g1, -⟩ | ⟨-, -, g3⟩
            · omega
            rw [q5, qi] at g3
            refine ⟨0xbf :: (bss.flatten ++ [0xff]), ?_, .mapIndef (readsPairs_of_zip h2 h3)⟩
            rw [g3, h1]
            simp
          · rw [if_neg qi] at h
            split at h
            · rename_i hle
              obtain ⟨h0, bss, h1, h2, h3⟩ := times_back (hentry d) _ _ _ _ h
              rcases hb with ⟨-, hb, g1, g2⟩ | ⟨g1, -⟩
              · rw [q5, ← h0] at g1
                refine ⟨hb ++ bss.flatten, by rw [g2, h1]; simp, .map (by rw [show xs.length = _ from h0]; exact hle) g1 (readsPairs_of_zip h2 h3)⟩
              · omega
            · cases h
      rw [if_neg q5] at h
      by_cases q6 : hd.major = 6
      · rw [if_pos q6] at h
        simp only [Option.map_eq_some_iff] at h
        obtain ⟨⟨y, r'⟩, h, heq⟩ := h
        cases heq
        obtain ⟨a, h1, h2⟩ := ih _ _ _ _ h
        rcases hb with ⟨-, hb, g1, g2⟩ | ⟨g1, -⟩
        · rw [q6] at g1
          exact ⟨hb ++ a, by rw [g2, h1]; simp, .tag g1 h2⟩
        · have := hn2 (by omega); omega
      rw [if_neg q6] at h
      have q7 : hd.major = 7 := by omega
      by_cases qi : hd.ai = 31
      · rw [if_pos qi] at h; cases h
      rw [if_neg qi] at h
      -- the octets of the head, one by one
      cases b with
      | nil => cases e
      | cons b r0 =>
        have hbl := b.toNat_lt
        simp only [headAt] at e
        by_cases w1 : b.toNat % 32 < 24 ∨ 28 ≤ b.toNat % 32
        · rw [if_pos w1] at e
          cases e
          simp only at *
          rw [if_pos (by omega)] at h
          cases h
          have hb' : b = UInt8.ofNat (0xe0 + b.toNat % 32) := by
            have := first_octet b
            rw [q7] at this
            exact this.symm
          split
          · rename_i h22
            refine ⟨[b], rfl, ?_⟩
            rw [hb', h22]
            exact .null
          · rename_i h22
            refine ⟨[b], rfl, ?_⟩
            have := Reads.simple (t := t) (d := d) (n := b.toNat % 32) (by omega) h22
            rwa [← hb'] at this
        · rw [if_neg w1] at e
          split at e
          · cases e
          rename_i w2
          cases e
          simp only at *
          have hb' : b = UInt8.ofNat (0xf8 + (b.toNat % 32 - 24)) := by
            apply UInt8.toNat_inj.mp
            rw [UInt8.toNat_ofNat']
            omega
          by_cases w3 : b.toNat % 32 ≤ 24
          · rw [if_pos w3] at h
            have w4 : b.toNat % 32 = 24 := by omega
            rw [w4] at h hb' hn3 w2
            simp only [Nat.sub_self, Nat.pow_zero] at h hb' hn3 w2
            cases r0 with
            | nil => exact absurd (by decide) w2
            | cons n r0 =>
              have hv : octetsNum (List.take 1 (n :: r0)) = n.toNat := by simp [octetsNum]
              rw [hv] at h hn3
              have hn32 := hn3 ⟨q7, trivial⟩
              rw [if_neg (by omega)] at h
              cases h
              refine ⟨[b, n], rfl, ?_⟩
              have := Reads.simple8 (t := t) (d := d) (n := n.toNat) (by omega) n.toNat_lt
              rw [UInt8.ofNat_toNat] at this
              rw [hb']
              exact this
          · rw [if_neg w3] at h
            cases h
            refine ⟨b :: r0.take (2 ^ (b.toNat % 32 - 24)), by simp, ?_⟩
            have := Reads.float (t := t) (d := d) (b := r0.take (2 ^ (b.toNat % 32 - 24)))
              (b.toNat % 32 - 24) (by omega) (by omega) (by rw [List.length_take]; omega)
            rw [← hb'] at this
            exact this

theorem entryAt_of {t f : Nat} {p : Bytes → Option (Item × Bytes)} {d : Nat} {k v : Item} {a b : Bytes}
    (hk : IsKey t k) (h : Reads t d k a) (hf : a.length ≤ f) (h1 : ReadsBy p k a) (h2 : ReadsBy p v b) :
    ReadsBy (entryAt t f p) (k, v) (a ++ b) := by
  constructor
  · obtain ⟨x, l, rfl, hne⟩ := h1.1
    exact ⟨x, l ++ b, rfl, hne⟩
  · intro r
    unfold entryAt
    rw [List.append_assoc, key_not_lone hk h hf, h1.2]
    simp only
    rw [if_pos (isKey_iff.mpr hk), h2.2]

theorem entryAt_lone {t f : Nat} {p : Bytes → Option (Item × Bytes)} {a : Bytes} (h : LoneKey t a)
    (hf : a.length ≤ f) : ReadsBy (entryAt t f p) (notItem, notItem) a := by
  constructor
  · cases h with
    | @bad ts h b h1 h2 =>
      cases ts with
      | nil => cases h1; exact h2.first
      | cons n ts => exact h1.first nofun _
    | @big ts n h b h1 h2 h3 =>
      cases ts with
      | nil => cases h1; simpa using h2.first []
      | cons n ts => exact h1.first nofun _
    | @many ts h b h1 h2 h3 =>
      cases ts with
      | nil => simp at h2
      | cons n ts => exact h1.first nofun _
  · intro r
    unfold entryAt
    rw [loneAt_of h hf]

mutual
theorem parse_complete {t d : Nat} {x : Item} {b : Bytes} (h : Reads t d x b) (f : Nat) (hf : b.length ≤ f)
    (r : Bytes) : parse t f d (b ++ r) = some (x, r) := by
  have hpos := h.first.length
  obtain ⟨f, rfl⟩ : ∃ g, f = g + 1 := ⟨f - 1, by omega⟩
  rw [parse]
  cases h with
  | uint hh =>
    obtain ⟨ai, ha, e⟩ := headAt_of hh (by omega) r
    rw [e]
    simp [Hd.notCbor]
    omega
  | nint hh =>
    obtain ⟨ai, ha, e⟩ := headAt_of hh (by omega) r
    rw [e]
    simp [Hd.notCbor]
    omega
  | @bstr _ s h hh =>
    obtain ⟨ai, ha, e⟩ := headAt_of hh (by omega) (s ++ r)
    rw [List.append_assoc, e]
    simp only [string_of (h := ⟨2, ai, s.length, s ++ r⟩) (s := s) (r := r) (by simp only; omega) rfl rfl]
    simp [Hd.notCbor]
    omega
  | @tstr _ s h hh =>
    obtain ⟨ai, ha, e⟩ := headAt_of hh (by omega) (s ++ r)
    rw [List.append_assoc, e]
    simp only [string_of (h := ⟨3, ai, s.length, s ++ r⟩) (s := s) (r := r) (by simp only; omega) rfl rfl]
    simp [Hd.notCbor]
    omega
  | arr0 hh =>
    obtain ⟨ai, ha, e⟩ := headAt_of hh (by omega) r
    rw [e]
    simp [Hd.notCbor]
    omega
  | map0 hh =>
    obtain ⟨ai, ha, e⟩ := headAt_of hh (by omega) r
    rw [e]
    simp [Hd.notCbor]
    omega
  | @arr d xs h bss hn hh hall =>
    obtain ⟨ai, ha, e⟩ := headAt_of hh (by omega) (bss.flatten ++ r)
    have hp := headOf_pos hh
    rw [List.length_append] at hf
    rw [List.append_assoc, e]
    have hc : ¬ (Hd.notCbor ⟨4, ai, xs.length, bss.flatten ++ r⟩ = true) := by
      simp [Hd.notCbor]; omega
    by_cases hx : xs = []
    · subst hx
      cases hall
      simp only
      rw [if_neg hc]
      rfl
    have hx' : xs.length ≠ 0 := by simpa using hx
    have ih := times_of (parseAll_complete hall f (by omega)) r
    simp only
    rw [if_neg hc]
    simp only [Nat.reduceEqDiff, if_false, if_true]
    rw [if_neg hx', if_neg (by omega), if_pos hn, ih]
    rfl
  | @arrIndef d xs bss hall =>
    have e : headAt (0x9f :: (bss.flatten ++ [0xff]) ++ r) =
      some ⟨4, 31, 31, bss.flatten ++ ([0xff] ++ r)⟩ := by simp [headAt]
    rw [List.length_cons, List.length_append] at hf
    rw [e]
    have ih := toBreak_of (parseAll_complete hall f (by omega)) r (f + 1) (by omega)
    have hc : ¬ (Hd.notCbor ⟨4, 31, 31, bss.flatten ++ ([0xff] ++ r)⟩ = true) := by
      simp [Hd.notCbor]
    simp only
    rw [if_neg hc]
    simp only [Nat.reduceEqDiff, if_false, if_true]
    rw [ih]
    rfl
  | @map d xs h bss hn hh hall =>
    obtain ⟨ai, ha, e⟩ := headAt_of hh (by omega) (bss.flatten ++ r)
    have hp := headOf_pos hh
    rw [List.length_append] at hf
    rw [List.append_assoc, e]
    have hc : ¬ (Hd.notCbor ⟨5, ai, xs.length, bss.flatten ++ r⟩ = true) := by
      simp [Hd.notCbor]; omega
    by_cases hx : xs = []
    · subst hx
      cases hall
      simp only
      rw [if_neg hc]
      rfl
    have hx' : xs.length ≠ 0 := by simpa using hx
    have ih := times_of (parsePairs_complete hall f (by omega)) r
    simp only
    rw [if_neg hc]
    simp only [Nat.reduceEqDiff, if_false, if_true]
    rw [if_neg hx', if_neg (by omega), if_pos hn, ih]
    rfl
  | @mapIndef d xs bss hall =>
    have e : headAt (0xbf :: (bss.flatten ++ [0xff]) ++ r) =
      some ⟨5, 31, 31, bss.flatten ++ ([0xff] ++ r)⟩ := by simp [headAt]
    rw [List.length_cons, List.length_append] at hf
    rw [e]
    have ih := toBreak_of (parsePairs_complete hall f (by omega)) r (f + 1) (by omega)
    have hc : ¬ (Hd.notCbor ⟨5, 31, 31, bss.flatten ++ ([0xff] ++ r)⟩ = true) := by
      simp [Hd.notCbor]
    simp only
    rw [if_neg hc]
    simp only [Nat.reduceEqDiff, if_false, if_true]
    rw [ih]
    rfl
  | @tag _ n x h b hh hx =>
    obtain ⟨ai, ha, e⟩ := headAt_of hh (by omega) (b ++ r)
    have hp := headOf_pos hh
    rw [List.length_append] at hf
    rw [List.append_assoc, e]
    have ih := parse_complete hx f (by omega) r
    have hc : ¬ (Hd.notCbor ⟨6, ai, n, b ++ r⟩ = true) := by
      simp [Hd.notCbor]; omega
    simp only
    rw [if_neg hc]
    simp only [Nat.reduceEqDiff, if_false, if_true]
    rw [ih]
    rfl
  | null => rfl
  | @simple _ n h1 h2 =>
    have ht : (UInt8.ofNat (0xe0 + n)).toNat = 224 + n := by rw [UInt8.toNat_ofNat']; omega
    have e : headAt ([UInt8.ofNat (0xe0 + n)] ++ r) = some ⟨7, n, n, r⟩ := by
      simp only [List.cons_append, List.nil_append, headAt, ht]
      rw [if_pos (by omega), show (224 + n) / 32 = 7 by omega, show (224 + n) % 32 = n by omega]
    rw [e]
    have hc : ¬ (Hd.notCbor ⟨7, n, n, r⟩ = true) := by
      simp [Hd.notCbor]; omega
    simp only
    rw [if_neg hc]
    simp only [Nat.reduceEqDiff, if_false]
    rw [if_neg (by omega), if_pos (by omega), if_neg h2]
  | @simple8 _ n h1 h2 =>
    have e : headAt ([0xf8, UInt8.ofNat n] ++ r) = some ⟨7, 24, n, r⟩ := by
      simp [headAt, octetsNum]
      omega
    rw [e]
    have hc : ¬ (Hd.notCbor ⟨7, 24, n, r⟩ = true) := by
      simp [Hd.notCbor]; omega
    simp only
    rw [if_neg hc]
    simp only [Nat.reduceEqDiff, if_false]
    rw [if_pos (by omega), if_neg (by omega)]
  | @float _ b k h1 h2 h3 =>
    have ht : (UInt8.ofNat (0xf8 + k)).toNat = 248 + k := by rw [UInt8.toNat_ofNat']; omega
    have hdr : (b ++ r).drop (2 ^ k) = r := by
      rw [← h3]; simp
    have htk : (b ++ r).take (2 ^ k) = b := by
      rw [← h3]; simp
    have e : headAt (UInt8.ofNat (0xf8 + k) :: b ++ r) = some ⟨7, 24 + k, octetsNum b, r⟩ := by
      simp only [List.cons_append, headAt, ht]
      rw [if_neg (by omega), show (248 + k) / 32 = 7 by omega, show (248 + k) % 32 = 24 + k by omega,
        Nat.add_sub_cancel_left, hdr, htk, if_neg (by rw [List.length_append]; omega)]
    rw [e]
    have hc : ¬ (Hd.notCbor ⟨7, 24 + k, octetsNum b, r⟩ = true) := by
      simp [Hd.notCbor]; omega
    simp only
    rw [if_neg hc]
    simp only [Nat.reduceEqDiff, if_false]
    rw [if_neg (by omega), if_neg (by omega), Nat.add_sub_cancel_left]
    simp only [List.cons_append, List.drop_succ_cons, List.drop_zero, htk]
  | notCbor hn =>
    obtain ⟨hd, e, h1, h2, -⟩ := headAt_notCbor hn r
    rw [e]
    simp only
    rw [if_pos h1, h2]
theorem parseAll_complete {t d : Nat} {xs : List Item} {bss : List Bytes} (h : ReadsAll t d xs bss)
    (f : Nat) (hf : bss.flatten.length ≤ f) : ReadsByAll (parse t f d) xs bss := by
  cases h with
  | nil => exact .nil
  | cons h1 h2 =>
    rw [List.flatten_cons, List.length_append] at hf
    exact .cons ⟨h1.first, fun r => parse_complete h1 f (by omega) r⟩ (parseAll_complete h2 f (by omega))
theorem parsePairs_complete {t d : Nat} {kvs : List (Item × Item)} {bss : List Bytes}
    (h : ReadsPairs t d kvs bss) (f : Nat) (hf : bss.flatten.length ≤ f) :
    ReadsByAll (entryAt t f (parse t f d)) kvs bss := by
  cases h with
  | nil => exact .nil
  | cons h1 h2 h3 h4 =>
    rw [List.flatten_cons, List.length_append, List.length_append] at hf
    exact .cons (entryAt_of h1 h2 (by omega) ⟨h2.first, fun r => parse_complete h2 f (by omega) r⟩
      ⟨h3.first, fun r => parse_complete h3 f (by omega) r⟩) (parsePairs_complete h4 f (by omega))
  | lone h1 h2 =>
    rw [List.flatten_cons, List.length_append] at hf
    exact .cons (entryAt_lone h1 (by omega)) (parsePairs_complete h2 f (by omega))
end

/-- The program reads what the rules say. -/
theorem readItem_iff {t d : Nat} {b : Bytes} {x : Item} {r : Bytes} :
    readItem t d b = some (x, r) ↔ ∃ a, b = a ++ r ∧ Reads t d x a := by
  constructor
  · exact parse_sound _ _ _ _ _
  · rintro ⟨a, rfl, h⟩
    exact parse_complete h _ (by simp) r

/-- What is read is settled by the octets, also by what is at the front of some octets. -/
theorem Spec.Reads.unique {t d : Nat} {x y : Item} {a b r s : Bytes} (h : Reads t d x a)
    (h' : Reads t d y b) (e : a ++ r = b ++ s) : x = y ∧ a = b ∧ r = s := by
  have h1 := readItem_iff.mpr ⟨a, (rfl : a ++ r = a ++ r), h⟩
  have h2 := readItem_iff.mpr ⟨b, (rfl : b ++ s = b ++ s), h'⟩
  rw [e, h2] at h1
  cases h1
  exact ⟨rfl, List.append_cancel_right e, rfl⟩

end TCose
