import Verif.Lemmas.DecodeEnc
import Verif.Lemmas.VerifyMain
import Verif.Spec.Read

/-!
# Decoder: what was read is what `Spec.Reads` says

The converse of `Lemmas.DecodeEnc`: from successful decoder calls to the grammar.
-/

namespace TCose
open Spec

/-! ## Heads -/

theorem beVal_inj : ∀ {a b : Bytes}, a.length = b.length → beVal a = beVal b → a = b
  | [], [], _, _ => rfl
  | x :: a, y :: b, hl, hv => by
    have hl' : a.length = b.length := by simpa using hl
    have h1 := beVal_lt a
    have h2 := beVal_lt b
    simp only [beVal, hl'] at hv
    rw [hl'] at h1
    have hx : x.toNat = y.toNat := by
      have e1 : (x.toNat * 256 ^ b.length + beVal a) / 256 ^ b.length = x.toNat := by
        rw [Nat.mul_comm, Nat.mul_add_div (Nat.pow_pos (by omega)), Nat.div_eq_of_lt h1]; rfl
      have e2 : (y.toNat * 256 ^ b.length + beVal b) / 256 ^ b.length = y.toNat := by
        rw [Nat.mul_comm, Nat.mul_add_div (Nat.pow_pos (by omega)), Nat.div_eq_of_lt h2]; rfl
      rw [← e1, ← e2, hv]
    rw [hx] at hv
    have := UInt8.toNat_inj.mp hx
    rw [this, beVal_inj hl' (by omega)]

theorem netOrder_octetsVal (w : Bytes) : netOrder w.length (octetsVal w) = w := by
  rw [octetsVal_eq_beVal, ← beBytes_eq_netOrder]
  apply beVal_inj (by rw [beBytes_length])
  rw [beVal_beBytes, Nat.mod_eq_of_lt (beVal_lt w)]

theorem decodeHead_back {c c1 : Cur} {m ai arg : Nat} (h : decodeHead c = (.ok (m, ai, arg), c1)) :
    m < 8 ∧ ((ai < 24 ∧ arg = ai ∧ c.rest = UInt8.ofNat (32 * m + ai) :: c1.rest) ∨
      (24 ≤ ai ∧ ai < 28 ∧ ∃ w, w.length = 2 ^ (ai - 24) ∧ arg = octetsVal w ∧
        c.rest = UInt8.ofNat (32 * m + ai) :: (w ++ c1.rest)) ∨
      (ai = 31 ∧ arg = 31 ∧ c.rest = UInt8.ofNat (32 * m + 31) :: c1.rest)) := by
  unfold decodeHead at h
  cases hr : c.rest with
  | nil => rw [hr] at h; cases h
  | cons b r =>
    rw [hr] at h
    simp only at h
    have hb : b.toNat < 256 := b.toNat_lt
    have hbb : UInt8.ofNat (32 * (b.toNat / 32) + b.toNat % 32) = b := by
      rw [Nat.div_add_mod, UInt8.ofNat_toNat]
    by_cases h1 : b.toNat % 32 < 24
    · rw [if_pos h1] at h
      simp only [Prod.mk.injEq, Except.ok.injEq] at h
      obtain ⟨⟨rfl, rfl, rfl⟩, rfl⟩ := h
      exact ⟨by omega, .inl ⟨h1, rfl, by rw [hbb]⟩⟩
    · rw [if_neg h1] at h
      by_cases h2 : b.toNat % 32 < 28
      · rw [if_pos h2] at h
        by_cases h3 : r.length < 2 ^ (b.toNat % 32 - 24)
        · rw [if_pos h3] at h; cases h
        · rw [if_neg h3] at h
          simp only [Prod.mk.injEq, Except.ok.injEq] at h
          obtain ⟨⟨rfl, rfl, rfl⟩, rfl⟩ := h
          refine ⟨by omega, .inr (.inl ⟨by omega, h2, r.take (2 ^ (b.toNat % 32 - 24)), ?_, rfl, ?_⟩)⟩
          · rw [List.length_take]; omega
          · rw [hbb]
            simp only [Cur.adv, List.take_append_drop]
      · rw [if_neg h2] at h
        by_cases h3 : b.toNat % 32 < 31
        · rw [if_pos h3] at h; cases h
        · rw [if_neg h3] at h
          simp only [Prod.mk.injEq, Except.ok.injEq] at h
          obtain ⟨⟨rfl, rfl, rfl⟩, rfl⟩ := h
          have : b.toNat % 32 = 31 := by omega
          rw [this] at hbb
          exact ⟨by omega, .inr (.inr ⟨rfl, rfl, by rw [hbb]⟩)⟩

theorem decodeHead_back_error {c c1 : Cur} {e : QErr} (h : decodeHead c = (.error e, c1)) :
    e = .hitEnd ∨ (e = .unsupported ∧ ∃ b, c.rest = [b] ++ c1.rest ∧ NotCbor [b]) := by
  unfold decodeHead at h
  cases hr : c.rest with
  | nil => rw [hr] at h; simp only [Prod.mk.injEq, Except.error.injEq] at h; exact .inl h.1.symm
  | cons b r =>
    rw [hr] at h
    simp only at h
    by_cases h1 : b.toNat % 32 < 24
    · rw [if_pos h1] at h; cases h
    · rw [if_neg h1] at h
      by_cases h2 : b.toNat % 32 < 28
      · rw [if_pos h2] at h
        by_cases h3 : r.length < 2 ^ (b.toNat % 32 - 24)
        · rw [if_pos h3] at h
          simp only [Prod.mk.injEq, Except.error.injEq] at h
          exact .inl h.1.symm
        · rw [if_neg h3] at h; cases h
      · rw [if_neg h2] at h
        by_cases h3 : b.toNat % 32 < 31
        · rw [if_pos h3] at h
          simp only [Prod.mk.injEq, Except.error.injEq] at h
          obtain ⟨rfl, rfl⟩ := h
          exact .inr ⟨rfl, b, rfl, .reserved (by omega) (by omega)⟩
        · rw [if_neg h3] at h; cases h

/-- A head that is not of indefinite length. -/
theorem decodeHead_headOf {c c1 : Cur} {m ai arg : Nat} (h : decodeHead c = (.ok (m, ai, arg), c1))
    (ha : ai ≠ 31) : ∃ hb, HeadOf m arg hb ∧ c.rest = hb ++ c1.rest := by
  obtain ⟨-, ⟨h1, rfl, h3⟩ | ⟨h1, h2, w, hw, rfl, h3⟩ | ⟨h1, -⟩⟩ := decodeHead_back h
  · exact ⟨_, .direct h1, h3⟩
  · refine ⟨UInt8.ofNat (32 * m + ai) :: w, ?_, h3⟩
    have e : 24 + (ai - 24) = ai := by omega
    have := HeadOf.wide (m := m) (n := octetsVal w) (ai - 24) (by omega)
      (by rw [← hw, octetsVal_eq_beVal]; exact beVal_lt w)
    rw [e, ← hw, netOrder_octetsVal] at this
    exact this
  · exact absurd h1 ha

theorem decodeHead_indef {c c1 : Cur} {m arg : Nat} (h : decodeHead c = (.ok (m, 31, arg), c1)) :
    c.rest = [UInt8.ofNat (32 * m + 31)] ++ c1.rest := by
  obtain ⟨-, ⟨h1, -⟩ | ⟨-, h2, -⟩ | ⟨-, -, h3⟩⟩ := decodeHead_back h
  · omega
  · omega
  · exact h3

/-! ## Atoms -/

/-- The octets of an item without tags (of a container, its head). -/
def AtomBack : Val → Bytes → Prop
  | .int i, b => (∃ n, HeadOf 0 n b ∧ n ≤ 9223372036854775807 ∧ i = n) ∨
      ∃ n, HeadOf 1 n b ∧ n ≤ 9223372036854775807 ∧ i = -1 - (n : Int)
  | .uint n, b => HeadOf 0 n b ∧ 9223372036854775807 < n
  | .bstr s, b => ∃ h, HeadOf 2 s.bytes.length h ∧ b = h ++ s.bytes
  | .tstr s, b => ∃ h, HeadOf 3 s.bytes.length h ∧ b = h ++ s.bytes
  | .arr (some n), b => HeadOf 4 n b ∧ n ≤ 65534
  | .arr none, b => b = [0x9f]
  | .map (some n), b => HeadOf 5 n b ∧ n ≤ 32767
  | .map none, b => b = [0xbf]
  | .null, b => b = [0xf6]
  | .brk, b => b = [0xff]
  | .other, b => (∃ n, HeadOf 7 n b) ∧ ∃ x : Item, (∀ t d, Reads t d x b) ∧
      ((∃ n, x = .simple n) ∨ ∃ f, x = .float f)

theorem AtomBack.piece {v : Val} {b : Bytes} (h : AtomBack v b) : Piece b := by
  cases v with
  | int i =>
    rcases h with ⟨n, h, -⟩ | ⟨n, h, -⟩
    · exact .head (by omega) h
    · exact .head (by omega) h
  | uint n => exact .head (by omega) h.1
  | bstr s => obtain ⟨_, h, rfl⟩ := h; exact .str (by omega) h
  | tstr s => obtain ⟨_, h, rfl⟩ := h; exact .str (by omega) h
  | arr n =>
    cases n with
    | none => cases h; exact .indef (.inl rfl)
    | some n => exact .head (m := 4) (n := n) (by have := h.2; omega) h.1
  | map n =>
    cases n with
    | none => cases h; exact .indef (.inr (.inl rfl))
    | some n => exact .head (m := 5) (n := n) (by have := h.2; omega) h.1
  | null => cases h; exact .head (m := 7) (n := 22) (by omega) (HeadOf.direct (m := 7) (n := 22) (by omega))
  | brk => cases h; exact .indef (.inr (.inr rfl))
  | other => obtain ⟨⟨n, h⟩, -⟩ := h; exact .head (by omega) h

/-- What a call to `decodeAtom` says about the octets. -/
def AtomRes (c c1 : Cur) : Except QErr Atom → Prop
  | .ok (.tag n) => ∃ b, HeadOf 6 n b ∧ c.rest = b ++ c1.rest
  | .ok (.val v) => ∃ b, AtomBack v b ∧ c.rest = b ++ c1.rest
  | .error e => e.unrec = false → ∃ b, c.rest = b ++ c1.rest ∧
      (NotCbor b ∨ ∃ n, HeadOf 1 n b ∧ 9223372036854775807 < n)

theorem decodeStr_back {mk : Str → Val} {m ai arg : Nat} {c c1 c2 : Cur} {r : Except QErr Atom}
    (hh : decodeHead c = (.ok (m, ai, arg), c1)) (h : decodeStr mk ai arg c1 = (r, c2))
    (hmk : ∀ (s : Str) hb, HeadOf m s.bytes.length hb → AtomBack (mk s) (hb ++ s.bytes)) :
    AtomRes c c2 r := by
  unfold decodeStr at h
  by_cases ha : ai = 31
  · rw [if_pos ha] at h
    simp only [Prod.mk.injEq] at h
    obtain ⟨rfl, rfl⟩ := h
    intro hc; cases hc
  · rw [if_neg ha] at h
    by_cases hl : c1.rest.length < arg
    · rw [if_pos hl] at h
      simp only [Prod.mk.injEq] at h
      obtain ⟨rfl, rfl⟩ := h
      intro hc; cases hc
    · rw [if_neg hl] at h
      simp only [Prod.mk.injEq] at h
      obtain ⟨rfl, rfl⟩ := h
      obtain ⟨hb, h1, h2⟩ := decodeHead_headOf hh ha
      refine ⟨hb ++ c1.rest.take arg, ?_, ?_⟩
      · apply hmk ⟨c1.pos, c1.rest.take arg⟩
        simpa [List.length_take, Nat.min_eq_left (Nat.le_of_not_lt hl)] using h1
      · rw [h2, List.append_assoc]
        simp only [Cur.adv, List.take_append_drop]

theorem decodeType7_back {ai arg : Nat} {c c1 : Cur} (hh : decodeHead c = (.ok (7, ai, arg), c1)) :
    AtomRes c c1 (decodeType7 ai arg) := by
  unfold decodeType7
  by_cases h31 : ai = 31
  · rw [if_pos h31]
    subst h31
    exact ⟨_, rfl, decodeHead_indef hh⟩
  · rw [if_neg h31]
    by_cases h22 : ai = 22
    · rw [if_pos h22]
      subst h22
      obtain ⟨-, ⟨-, -, h3⟩ | ⟨h1, -⟩ | ⟨h1, -⟩⟩ := decodeHead_back hh
      · exact ⟨_, rfl, h3⟩
      · omega
      · omega
    · rw [if_neg h22]
      by_cases hbad : ai = 24 ∧ arg ≤ 31
      · rw [if_pos hbad]
        obtain ⟨rfl, hle⟩ := hbad
        obtain ⟨-, ⟨h1, -⟩ | ⟨-, -, w, hw, rfl, h3⟩ | ⟨h1, -⟩⟩ := decodeHead_back hh
        · omega
        · intro _
          match w, hw with
          | [n], _ =>
            refine ⟨[0xf8, n], h3, .inl (.simple ?_)⟩
            simp [octetsVal] at hle
            omega
        · omega
      · rw [if_neg hbad]
        obtain ⟨hb, h1, h2⟩ := decodeHead_headOf hh h31
        refine ⟨hb, ⟨⟨arg, h1⟩, ?_⟩, h2⟩
        obtain ⟨-, ⟨h1, rfl, h3⟩ | ⟨h1, h2', w, hw, rfl, h3⟩ | ⟨h1, -⟩⟩ := decodeHead_back hh
        · have : hb = [UInt8.ofNat (0xe0 + arg)] := by
            rw [h2] at h3
            exact List.append_cancel_right (bs := c1.rest) (by simpa using h3)
          rw [this]
          exact ⟨.simple arg, fun t d => .simple h1 h22, .inl ⟨_, rfl⟩⟩
        · have e : hb = UInt8.ofNat (32 * 7 + ai) :: w := by
            rw [h2] at h3
            exact List.append_cancel_right (bs := c1.rest) (by simpa using h3)
          rw [e]
          by_cases h24 : ai = 24
          · subst h24
            match w, hw with
            | [n], _ =>
              refine ⟨.simple n.toNat, fun t d => ?_, .inl ⟨_, rfl⟩⟩
              have hn : 32 ≤ n.toNat := by
                simp [octetsVal] at hbad
                omega
              have := Reads.simple8 (t := t) (d := d) hn n.toNat_lt
              rw [UInt8.ofNat_toNat] at this
              exact this
          · refine ⟨.float w, fun t d => ?_, .inr ⟨_, rfl⟩⟩
            have := Reads.float (t := t) (d := d) (b := w) (ai - 24) (by omega) (by omega) hw
            have e : 0xf8 + (ai - 24) = 32 * 7 + ai := by omega
            rw [e] at this
            exact this
        · omega

theorem decodeAtom_back {c c1 : Cur} {r : Except QErr Atom} (h : decodeAtom c = (r, c1)) :
    AtomRes c c1 r := by
  unfold decodeAtom at h
  cases hh : decodeHead c with
  | mk x c2 =>
    rw [hh] at h
    cases x with
    | error e =>
      simp only [Prod.mk.injEq] at h
      obtain ⟨rfl, rfl⟩ := h
      intro hu
      rcases decodeHead_back_error hh with rfl | ⟨rfl, b, h1, h2⟩
      · cases hu
      · exact ⟨[b], h1, .inl h2⟩
    | ok p =>
      obtain ⟨m, ai, arg⟩ := p
      simp only at h
      have hm := (decodeHead_back hh).1
      by_cases h0 : m = 0
      · subst h0
        rw [if_pos rfl] at h
        simp only [Prod.mk.injEq] at h
        obtain ⟨rfl, rfl⟩ := h
        by_cases ha : ai = 31
        · subst ha
          rw [if_pos rfl]
          intro _
          exact ⟨_, decodeHead_indef hh, .inl (.indef (.inl rfl))⟩
        · rw [if_neg ha]
          obtain ⟨hb, h1, h2⟩ := decodeHead_headOf hh ha
          refine ⟨hb, ?_, h2⟩
          split
          · rename_i hle
            exact .inl ⟨arg, h1, hle, rfl⟩
          · rename_i hle
            unfold int64Max at hle
            exact ⟨h1, by omega⟩
      rw [if_neg h0] at h
      by_cases h0 : m = 1
      · subst h0
        rw [if_pos rfl] at h
        simp only [Prod.mk.injEq] at h
        obtain ⟨rfl, rfl⟩ := h
        by_cases ha : ai = 31
        · subst ha
          rw [if_pos rfl]
          intro _
          exact ⟨_, decodeHead_indef hh, .inl (.indef (.inr (.inl rfl)))⟩
        · rw [if_neg ha]
          obtain ⟨hb, h1, h2⟩ := decodeHead_headOf hh ha
          by_cases hle : arg ≤ int64Max
          · rw [if_pos hle]
            exact ⟨hb, .inr ⟨arg, h1, hle, rfl⟩, h2⟩
          · rw [if_neg hle]
            intro _
            unfold int64Max at hle
            exact ⟨hb, h2, .inr ⟨arg, h1, by omega⟩⟩
      rw [if_neg h0] at h
      by_cases h0 : m = 2
      · subst h0
        rw [if_pos rfl] at h
        exact decodeStr_back hh h fun s hb hs => ⟨hb, hs, rfl⟩
      rw [if_neg h0] at h
      by_cases h0 : m = 3
      · subst h0
        rw [if_pos rfl] at h
        exact decodeStr_back hh h fun s hb hs => ⟨hb, hs, rfl⟩
      rw [if_neg h0] at h
      by_cases h0 : m = 4
      · subst h0
        rw [if_pos rfl] at h
        simp only [Prod.mk.injEq] at h
        obtain ⟨rfl, rfl⟩ := h
        by_cases ha : ai = 31
        · subst ha
          rw [if_pos rfl]
          exact ⟨_, rfl, decodeHead_indef hh⟩
        · rw [if_neg ha]
          obtain ⟨hb, h1, h2⟩ := decodeHead_headOf hh ha
          by_cases hle : arg > 65534
          · rw [if_pos hle]; intro hc; cases hc
          · rw [if_neg hle]; exact ⟨hb, ⟨h1, by omega⟩, h2⟩
      rw [if_neg h0] at h
      by_cases h0 : m = 5
      · subst h0
        rw [if_pos rfl] at h
        simp only [Prod.mk.injEq] at h
        obtain ⟨rfl, rfl⟩ := h
        by_cases ha : ai = 31
        · subst ha
          rw [if_pos rfl]
          exact ⟨_, rfl, decodeHead_indef hh⟩
        · rw [if_neg ha]
          obtain ⟨hb, h1, h2⟩ := decodeHead_headOf hh ha
          by_cases hle : arg > 32767
          · rw [if_pos hle]; intro hc; cases hc
          · rw [if_neg hle]; exact ⟨hb, ⟨h1, by omega⟩, h2⟩
      rw [if_neg h0] at h
      by_cases h0 : m = 6
      · subst h0
        rw [if_pos rfl] at h
        simp only [Prod.mk.injEq] at h
        obtain ⟨rfl, rfl⟩ := h
        by_cases ha : ai = 31
        · subst ha
          rw [if_pos rfl]
          intro _
          exact ⟨_, decodeHead_indef hh, .inl (.indef (.inr (.inr rfl)))⟩
        · rw [if_neg ha]
          obtain ⟨hb, h1, h2⟩ := decodeHead_headOf hh ha
          exact ⟨hb, h1, h2⟩
      rw [if_neg h0] at h
      have : m = 7 := by omega
      subst this
      simp only [Prod.mk.injEq] at h
      obtain ⟨rfl, rfl⟩ := h
      exact decodeType7_back hh

/-! ## Items with tags -/

theorem Spec.TagHeads.reads {t d : Nat} {ts : List Nat} {h : Bytes} (hh : TagHeads ts h) {x : Item}
    {b : Bytes} (hx : Reads t d x b) : Reads t d (tagged ts x) (h ++ b) := by
  induction hh with
  | nil => exact hx
  | cons h1 _ ih => rw [List.append_assoc]; exact .tag h1 ih

/-- What a call to `nextTagged` says about the octets. -/
theorem nextTagged_back (P : QParams) : ∀ (n : Nat) (c : Cur) (tags : List Nat) (over : Bool)
    {it : Itm} {c1 : Cur}, nextTagged P n c tags over = (.ok it, c1) →
    ∃ ts h b, TagHeads ts h ∧ c.rest = h ++ b ++ c1.rest ∧
      ((it.val = .other ∧ it.err ≠ none ∧
          (NotCbor b ∨ ∃ n, HeadOf 1 n b ∧ 9223372036854775807 < n)) ∨
       (AtomBack it.val b ∧ (it.err ≠ none → over = true ∨ P.maxTags < ts.length + tags.length))) ∧
      (it.err = none → over = false ∧ it.tags = ts.reverse ++ tags) := by
  intro n
  induction n with
  | zero => intro c tags over it c1 h; cases h
  | succ n ih =>
    intro c tags over it c1 h
    rw [nextTagged] at h
    cases ha : decodeAtom c with
    | mk r c2 =>
      have hb := decodeAtom_back ha
      rw [ha] at h
      cases r with
      | error e =>
        simp only at h
        cases hu : e.unrec with
        | true => rw [hu] at h; simp at h
        | false =>
          rw [hu] at h
          simp only [Bool.false_eq_true, if_false, Prod.mk.injEq, Except.ok.injEq] at h
          obtain ⟨rfl, rfl⟩ := h
          obtain ⟨b, h1, h2⟩ := hb hu
          exact ⟨[], [], b, .nil, by simpa using h1, .inl ⟨rfl, by simp, h2⟩, by simp⟩
      | ok a =>
        cases a with
        | val v =>
          simp only [Prod.mk.injEq, Except.ok.injEq] at h
          obtain ⟨rfl, rfl⟩ := h
          obtain ⟨b, h1, h2⟩ := hb
          refine ⟨[], [], b, .nil, by simpa using h2, .inr ⟨h1, ?_⟩, ?_⟩
          · intro ho
            cases over with
            | true => exact .inl rfl
            | false => simp at ho
          · intro ho
            cases over with
            | true => simp at ho
            | false => exact ⟨rfl, rfl⟩
        | tag tg =>
          simp only at h
          obtain ⟨b0, h1, h2⟩ := hb
          by_cases hl : tags.length < P.maxTags
          · rw [if_pos hl] at h
            obtain ⟨ts, th, b, i1, i2, i3, i4⟩ := ih _ _ _ h
            refine ⟨tg :: ts, b0 ++ th, b, .cons h1 i1, ?_, ?_, ?_⟩
            · rw [h2, i2]; simp [List.append_assoc]
            · rcases i3 with i3 | ⟨i3, i5⟩
              · exact .inl i3
              · refine .inr ⟨i3, fun hne => ?_⟩
                rcases i5 hne with i5 | i5
                · exact .inl i5
                · simp only [List.length_cons] at i5 ⊢
                  exact .inr (by omega)
            · intro he
              obtain ⟨j1, j2⟩ := i4 he
              exact ⟨j1, by rw [j2]; simp⟩
          · rw [if_neg hl] at h
            obtain ⟨ts, th, b, i1, i2, i3, i4⟩ := ih _ _ _ h
            refine ⟨tg :: ts, b0 ++ th, b, .cons h1 i1, ?_, ?_, ?_⟩
            · rw [h2, i2]; simp [List.append_assoc]
            · rcases i3 with i3 | ⟨i3, -⟩
              · exact .inl i3
              · refine .inr ⟨i3, fun hne => .inr ?_⟩
                simp only [List.length_cons]
                omega
            · intro he
              exact absurd (i4 he).1 (by simp)

theorem nextRaw_back {P : QParams} {c c1 : Cur} {it : Itm} (h : nextRaw P c = (.ok it, c1)) :
    ∃ ts h b, TagHeads ts h ∧ c.rest = h ++ b ++ c1.rest ∧
      ((it.val = .other ∧ it.err ≠ none ∧
          (NotCbor b ∨ ∃ n, HeadOf 1 n b ∧ 9223372036854775807 < n)) ∨
       (AtomBack it.val b ∧ (it.err ≠ none → P.maxTags < ts.length))) ∧
      (it.err = none → it.tags = ts.reverse ∧ ts.length ≤ P.maxTags) := by
  obtain ⟨ts, hb, b, h1, h2, h3, h4⟩ := nextTagged_back P _ _ _ _ h
  refine ⟨ts, hb, b, h1, h2, ?_, ?_⟩
  · rcases h3 with h3 | ⟨h3, h5⟩
    · exact .inl h3
    · exact .inr ⟨h3, fun hne => by simpa using h5 hne⟩
  · intro he
    have := (h4 he).2
    rw [List.append_nil] at this
    refine ⟨this, ?_⟩
    have hl := nextTagged_tags_le P _ _ _ _ _ _ (Nat.zero_le _) h
    rw [this, List.length_reverse] at hl
    exact hl

/-! ## Containers -/

/-- One element of an array (its second component) or entry of a map. -/
def Slot (t d : Nat) (m : Bool) (p : Item × Item) (b : Bytes) : Prop :=
  match m with
  | true => ReadsPairs t d [p] [b]
  | false => Reads t d p.2 b

theorem slots_all {t d : Nat} {ps : List (Item × Item)} {bss : List Bytes}
    (h : Each (Slot t d false) ps bss) : ReadsAll t d (ps.map (·.2)) bss := by
  induction h with
  | nil => exact .nil
  | cons h1 _ ih => exact .cons h1 ih

theorem slots_pairs {t d : Nat} {ps : List (Item × Item)} {bss : List Bytes}
    (h : Each (Slot t d true) ps bss) : ReadsPairs t d ps bss := by
  induction h with
  | nil => exact .nil
  | cons h1 _ ih =>
    cases h1 with
    | cons a b c _ => exact .cons a b c ih
    | lone a _ => exact .lone a ih

/-- Arrays and maps. -/
def Val.isCont : Val → Bool
  | .arr _ | .map _ => true
  | _ => false

def Val.isMap : Val → Bool
  | .map _ => true
  | _ => false

def Val.count : Val → Option Nat
  | .arr n | .map n => n
  | _ => none

/-- The container with the given elements or entries. -/
def mkc (v : Val) (ps : List (Item × Item)) : Item :=
  if v.isMap then .map ps else .arr (ps.map (·.2))

/-- The octets behind the head of a container. -/
def Body (t d : Nat) (v : Val) (ps : List (Item × Item)) (body : Bytes) : Prop :=
  ∃ bss, Each (Slot t d v.isMap) ps bss ∧
    ((v.count = some ps.length ∧ body = bss.flatten) ∨
     (v.count = none ∧ body = bss.flatten ++ [0xff]))

theorem AtomBack.body {t d : Nat} {v : Val} {b : Bytes} (h : AtomBack v b) (hv : v.isCont = true)
    {ps : List (Item × Item)} {body : Bytes} (hb : Body t d v ps body) :
    Reads t (d + 1) (mkc v ps) (b ++ body) := by
  obtain ⟨bss, h1, h2⟩ := hb
  cases v with
  | arr n =>
    have h3 := slots_all h1
    rcases h2 with ⟨h2, rfl⟩ | ⟨h2, rfl⟩
    · simp only [Val.count] at h2
      subst h2
      have := Reads.arr (t := t) (xs := ps.map (·.2)) (h := b) (by simpa using h.2)
        (by simpa using h.1) h3
      exact this
    · simp only [Val.count] at h2
      subst h2
      simp only [AtomBack] at h
      subst h
      exact Reads.arrIndef h3
  | map n =>
    have h3 := slots_pairs h1
    rcases h2 with ⟨h2, rfl⟩ | ⟨h2, rfl⟩
    · simp only [Val.count] at h2
      subst h2
      exact Reads.map h.2 h.1 h3
    · simp only [Val.count] at h2
      subst h2
      simp only [AtomBack] at h
      subst h
      exact Reads.mapIndef h3
  | _ => cases hv

/-- A container whose head says that it is empty. -/
theorem AtomBack.body0 {t d : Nat} {v : Val} {b : Bytes} (h : AtomBack v b) (hv : v.isCont = true)
    (hc : v.count = some 0) : Reads t d (mkc v []) b := by
  cases v with
  | arr n => simp only [Val.count] at hc; subst hc; exact .arr0 h.1
  | map n => simp only [Val.count] at hc; subst hc; exact .map0 h.1
  | _ => cases hv

theorem AtomBack.atom {v : Val} {b : Bytes} (h : AtomBack v b) (hv : v.isCont = false)
    (hb : v ≠ .brk) : ∃ x, (∀ t d, Reads t d x b) ∧ AtomIs x v ∧
      (v.isLabel = true → x.isLabel = true ∧ ∀ n, x = .nint n → n ≤ 9223372036854775807) := by
  cases v with
  | int i =>
    rcases h with ⟨n, h, h1, rfl⟩ | ⟨n, h, h1, rfl⟩
    · refine ⟨.uint n, fun t d => .uint h, ?_, fun _ => ⟨rfl, fun _ hc => by cases hc⟩⟩
      exact (if_pos h1).symm
    · refine ⟨.nint n, fun t d => .nint h, rfl, fun _ => ⟨rfl, fun _ hc => ?_⟩⟩
      cases hc; exact h1
  | uint n =>
    refine ⟨.uint n, fun t d => .uint h.1, ?_, fun _ => ⟨rfl, fun _ hc => by cases hc⟩⟩
    exact (if_neg (by unfold int64Max; have := h.2; omega)).symm
  | bstr s =>
    obtain ⟨_, h, rfl⟩ := h
    exact ⟨.bstr s.bytes, fun t d => .bstr h, ⟨s.off, rfl⟩, fun _ => ⟨rfl, fun _ hc => by cases hc⟩⟩
  | tstr s =>
    obtain ⟨_, h, rfl⟩ := h
    exact ⟨.tstr s.bytes, fun t d => .tstr h, ⟨s.off, rfl⟩, fun _ => ⟨rfl, fun _ hc => by cases hc⟩⟩
  | arr n => cases hv
  | map n => cases hv
  | null => cases h; exact ⟨.null, fun t d => .null, rfl, fun hc => by cases hc⟩
  | brk => exact absurd rfl hb
  | other =>
    obtain ⟨-, x, h1, ⟨n, rfl⟩ | ⟨f, rfl⟩⟩ := h
    · exact ⟨_, h1, rfl, fun hc => by cases hc⟩
    · exact ⟨_, h1, rfl, fun hc => by cases hc⟩

/-- What `nextItem` fetched: `hb` are its tags and head. -/
def ItemHead (t : Nat) (it : Itm) (ts : List Nat) (hb : Bytes) : Prop :=
  (it.err = none → it.tags = ts.reverse) ∧
  (it.val.isCont = true → ∀ d ps body, Body t d it.val ps body →
    Reads t (d + 1) (tagged ts (mkc it.val ps)) (hb ++ body)) ∧
  (it.val.isCont = true → it.val.count = some 0 → ∀ d, Reads t d (tagged ts (mkc it.val [])) hb) ∧
  (it.val.isCont = false → it.val ≠ .brk → ∃ x, (∀ d, Reads t d (tagged ts x) hb) ∧
    (AtomIs x it.val ∨ it.val = .other))

theorem tagContent_cases (P : QParams) (it : Itm) :
    tagContent P it = it ∨
      (it.val.isCont = false ∧ it.val ≠ .brk ∧ (tagContent P it).val = .other ∧
        (tagContent P it).tags = it.tags ∧ it.err = none) := by
  unfold tagContent
  by_cases h : (it.err.isSome || it.tags.isEmpty) = true
  · rw [if_pos h]; exact .inl rfl
  · rw [if_neg h]
    have he : it.err = none := by
      cases he : it.err with
      | none => rfl
      | some e => rw [he] at h; simp at h
    cases hv : it.val with
    | arr n => exact .inl rfl
    | map n => exact .inl rfl
    | brk => exact .inl rfl
    | _ =>
      simp only
      split
      · exact .inl rfl
      · exact .inr ⟨rfl, by simp, rfl, rfl, he⟩
      · exact .inr ⟨rfl, by simp, rfl, rfl, he⟩

theorem nextItem_back {P : QParams} {c c1 : Cur} {it : Itm} (h : nextItem P c = (.ok it, c1))
    (t : Nat) : ∃ ts hb, c.rest = hb ++ c1.rest ∧ ItemHead t it ts hb := by
  unfold nextItem at h
  cases hr : nextRaw P c with
  | mk r c2 =>
    rw [hr] at h
    cases r with
    | error e => cases h
    | ok it0 =>
      simp only [Prod.mk.injEq, Except.ok.injEq] at h
      obtain ⟨rfl, rfl⟩ := h
      obtain ⟨ts, th, b, h1, h2, h3, h4⟩ := nextRaw_back hr
      refine ⟨ts, th ++ b, h2, ?_⟩
      -- the item before tag-content handling
      have h0 : ItemHead t it0 ts (th ++ b) := by
        refine ⟨fun he => (h4 he).1, ?_, ?_, ?_⟩
        · intro hc d ps body hb
          rcases h3 with ⟨h3, -⟩ | ⟨h3, -⟩
          · rw [h3] at hc; cases hc
          · rw [List.append_assoc]
            exact h1.reads (h3.body hc hb)
        · intro hc h0 d
          rcases h3 with ⟨h3, -⟩ | ⟨h3, -⟩
          · rw [h3] at hc; cases hc
          · exact h1.reads (h3.body0 hc h0)
        · intro hc hne
          rcases h3 with ⟨h3, -, h5⟩ | ⟨h3, -⟩
          · rcases h5 with h5 | ⟨n, h5, -⟩
            · exact ⟨notItem, fun d => h1.reads (.notCbor h5), .inr h3⟩
            · exact ⟨.nint n, fun d => h1.reads (.nint h5), .inr h3⟩
          · obtain ⟨x, i1, i2, -⟩ := h3.atom hc hne
            exact ⟨x, fun d => h1.reads (i1 t d), .inl i2⟩
      rcases tagContent_cases P it0 with he | ⟨i1, i2, i3, i4, i5⟩
      · rw [he]; exact h0
      · obtain ⟨x, j1, -⟩ := h0.2.2.2 i1 i2
        refine ⟨fun _ => by rw [i4]; exact h0.1 i5, (fun hc => by rw [i3] at hc; cases hc),
          (fun hc => by rw [i3] at hc; cases hc), fun _ _ => ⟨x, j1, .inr i3⟩⟩

/-- What the label of an entry shows of the item `k`. -/
def KeyShows (m : Bool) (l : Option Val) (k : Item) : Prop :=
  match m with
  | true => (∃ lv ts k0, l = some lv ∧ k = tagged ts k0 ∧ AtomIs k0 lv ∧ k0.isLabel = true) ∨
      (l = none ∧ k = notItem)
  | false => l = none

theorem entry_back {P : QParams} {m : Bool} {c c1 : Cur} {l : Option Val} {it : Itm}
    (h : entry P m c = (.ok (l, it), c1)) :
    ∃ k ts hb, c.rest = hb ++ c1.rest ∧ KeyShows m l k ∧
      (it.err = none → it.tags = ts.reverse) ∧
      (it.val.isCont = true → ∀ d ps body, Body P.maxTags d it.val ps body →
        Slot P.maxTags (d + 1) m (k, tagged ts (mkc it.val ps)) (hb ++ body)) ∧
      (it.val.isCont = true → it.val.count = some 0 → ∀ d,
        Slot P.maxTags d m (k, tagged ts (mkc it.val [])) hb) ∧
      (it.val.isCont = false → ∃ x, (∀ d, Slot P.maxTags d m (k, tagged ts x) hb) ∧
        (AtomIs x it.val ∨ it.val = .other)) := by
  cases m with
  | false =>
    unfold entry at h
    simp only [Bool.false_eq_true, if_false] at h
    cases hn : nextItem P c with
    | mk r c2 =>
      rw [hn] at h
      cases r with
      | error e => cases h
      | ok v =>
        simp only at h
        by_cases hb : v.val = .brk
        · rw [if_pos hb] at h; cases h
        · rw [if_neg hb] at h
          simp only [Prod.mk.injEq, Except.ok.injEq] at h
          obtain ⟨⟨rfl, rfl⟩, rfl⟩ := h
          obtain ⟨ts, hd, i1, i2, i3, i5, i4⟩ := nextItem_back hn P.maxTags
          exact ⟨notItem, ts, hd, i1, rfl, i2, i3, i5, fun hc => i4 hc hb⟩
  | true =>
    unfold entry at h
    simp only [if_true] at h
    cases hk : nextRaw P c with
    | mk r c2 =>
      rw [hk] at h
      cases r with
      | error e => cases h
      | ok lab =>
        simp only at h
        obtain ⟨kts, kh, kb, k1, k2, k3, k4⟩ := nextRaw_back hk
        cases he : lab.err with
        | some e =>
          rw [he] at h
          simp only [Prod.mk.injEq, Except.ok.injEq] at h
          obtain ⟨⟨rfl, rfl⟩, rfl⟩ := h
          have hl : LoneKey P.maxTags (kh ++ kb) := by
            rcases k3 with ⟨-, -, h5⟩ | ⟨h3, h5⟩
            · rcases h5 with h5 | ⟨n, h5, h6⟩
              · exact .bad k1 h5
              · exact .big k1 h5 h6
            · exact .many k1 (h5 (by rw [he]; simp)) h3.piece
          refine ⟨notItem, [], kh ++ kb, k2, .inr ⟨rfl, rfl⟩, ?_, ?_, ?_, ?_⟩
          · intro hc; cases hc
          · intro hc; cases hc
          · intro hc; cases hc
          · intro _
            exact ⟨notItem, fun d => .lone hl .nil, .inr rfl⟩
        | none =>
          rw [he] at h
          simp only at h
          by_cases hb : lab.val = .brk
          · rw [if_pos hb] at h; cases h
          · rw [if_neg hb] at h
            cases hn : nextItem P c2 with
            | mk r c3 =>
              rw [hn] at h
              cases r with
              | error e => cases h
              | ok v =>
                simp only at h
                by_cases hlab : lab.val.isLabel = true
                · rw [if_pos hlab] at h
                  by_cases hvb : v.val = .brk
                  · rw [if_pos hvb] at h; cases h
                  · rw [if_neg hvb] at h
                    simp only [Prod.mk.injEq, Except.ok.injEq] at h
                    obtain ⟨⟨rfl, rfl⟩, rfl⟩ := h
                    obtain ⟨ts, hd, i1, i2, i3, i5, i4⟩ := nextItem_back hn P.maxTags
                    have hat : AtomBack lab.val kb := by
                      rcases k3 with ⟨-, h5, -⟩ | ⟨h3, -⟩
                      · exact absurd he h5
                      · exact h3
                    have hnc : lab.val.isCont = false := by
                      cases hx : lab.val <;> rw [hx] at hlab <;> first | rfl | cases hlab
                    obtain ⟨k0, a1, a2, a3⟩ := hat.atom hnc hb
                    have hkr := fun d => k1.reads (a1 P.maxTags d)
                    have hik : IsKey P.maxTags (tagged kts k0) :=
                      ⟨kts, k0, rfl, (k4 he).2, (a3 hlab).1, (a3 hlab).2⟩
                    refine ⟨tagged kts k0, ts, kh ++ kb ++ hd, ?_, .inl ⟨_, kts, k0, rfl, rfl, a2,
                      (a3 hlab).1⟩, i2, ?_, ?_, ?_⟩
                    · rw [k2, i1]; simp [List.append_assoc]
                    · intro hc d ps body hbd
                      rw [List.append_assoc (kh ++ kb)]
                      exact .cons hik (hkr _) (i3 hc d ps body hbd) .nil
                    · intro hc h0 d
                      exact .cons hik (hkr _) (i5 hc h0 d) .nil
                    · intro hc
                      obtain ⟨x, j1, j2⟩ := i4 hc hvb
                      exact ⟨x, fun d => .cons hik (hkr _) (j1 d) .nil, j2⟩
                · rw [if_neg hlab] at h; cases h

/-! ## Elements -/

/-- What an element read with `r` levels to go shows of an array element (second
component) or map entry, all the way down. -/
def Shows (P : QParams) : Nat → Bool → Entry → Item × Item → Prop
  | 0, m, e, p => KeyShows m e.label p.1 ∧ ∃ ts x, p.2 = tagged ts x ∧
      (e.itm.err = none → e.itm.tags = ts.reverse) ∧
      (if e.itm.val.isCont then e.itm.val.count = some 0 ∧ x = mkc e.itm.val []
       else AtomIs x e.itm.val ∨ e.itm.val = .other)
  | r + 1, m, e, p => KeyShows m e.label p.1 ∧ ∃ ts x, p.2 = tagged ts x ∧
      (e.itm.err = none → e.itm.tags = ts.reverse) ∧
      (if e.itm.val.isCont then ∃ es c' ps,
          elements P e.itm.val.isMap r e.itm.val.count e.cur = .ok (es, c') ∧
          Each (Shows P r e.itm.val.isMap) es ps ∧ x = mkc e.itm.val ps
       else AtomIs x e.itm.val ∨ e.itm.val = .other)

/-- Every element fetched and stepped over at room `r` has a reading. -/
def EntryReads (P : QParams) (r : Nat) : Prop :=
  ∀ (m : Bool) (c : Cur) (e : Entry) (c2 : Cur), entry P m c = (.ok (e.label, e.itm), e.cur) →
    skipValue P r e.itm.val e.cur = .ok c2 →
    ∃ p b, Shows P r m e p ∧ Slot P.maxTags r m p b ∧ c.rest = b ++ c2.rest

theorem traverse_back {P : QParams} {r : Nat} (hr : EntryReads P r) (m : Bool) :
    ∀ (fuel : Nat) (left : Option Nat) (c : Cur) {es : List Entry} {cEnd : Cur},
    traverse P m r fuel left c = .ok (es, cEnd) → left ≠ some 0 →
    ∃ ps bss tail, Each (Shows P r m) es ps ∧ Each (Slot P.maxTags r m) ps bss ∧
      c.rest = bss.flatten ++ tail ++ cEnd.rest ∧
      ((left = some ps.length ∧ tail = []) ∨ (left = none ∧ tail = [0xff])) := by
  intro fuel
  induction fuel with
  | zero => intro left c es cEnd h; cases h
  | succ n ih =>
    intro left c es cEnd h hl
    rw [traverse] at h
    by_cases hemp : c.rest.isEmpty = true
    · rw [if_pos hemp] at h; cases h
    · rw [if_neg hemp] at h
      cases he : entry P m c with
      | mk x c1 =>
        rw [he] at h
        cases x with
        | error e => cases h
        | ok q =>
          obtain ⟨l, it⟩ := q
          simp only at h
          cases hs : skipValue P r it.val c1 with
          | error e => rw [hs] at h; cases h
          | ok c2 =>
            rw [hs] at h
            simp only at h
            obtain ⟨p, b, p1, p2, p3⟩ := hr m c ⟨l, it, c1⟩ c2 he hs
            cases left with
            | none =>
              rw [ascend] at h
              by_cases hff : c2.rest.head? = some 0xff
              · rw [if_pos hff, ascend] at h
                simp only [Except.ok.injEq, Prod.mk.injEq] at h
                obtain ⟨rfl, rfl⟩ := h
                refine ⟨[p], [b], [0xff], .cons p1 .nil, .cons p2 .nil, ?_, .inr ⟨rfl, rfl⟩⟩
                rw [p3]
                cases hc : c2.rest with
                | nil => rw [hc] at hff; cases hff
                | cons y ys =>
                  rw [hc] at hff
                  simp only [List.head?_cons, Option.some.injEq] at hff
                  subst hff
                  simp [Cur.adv, hc]
              · rw [if_neg hff] at h
                simp only at h
                cases ht : traverse P m r n none c2 with
                | error e => rw [ht] at h; cases h
                | ok q =>
                  obtain ⟨es', c4⟩ := q
                  rw [ht] at h
                  simp only [Except.ok.injEq, Prod.mk.injEq] at h
                  obtain ⟨rfl, rfl⟩ := h
                  obtain ⟨ps, bss, tail, i1, i2, i3, i4⟩ := ih _ _ ht (by simp)
                  refine ⟨p :: ps, b :: bss, tail, .cons p1 i1, .cons p2 i2, ?_, ?_⟩
                  · rw [p3, i3]; simp [List.append_assoc]
                  · rcases i4 with ⟨i4, -⟩ | i4
                    · cases i4
                    · exact .inr i4
            | some k =>
              rw [ascend] at h
              by_cases hk : k ≤ 1
              · rw [if_pos hk, ascend] at h
                simp only [Except.ok.injEq, Prod.mk.injEq] at h
                obtain ⟨rfl, rfl⟩ := h
                have : k = 1 := by
                  have : k ≠ 0 := fun hc => hl (by rw [hc])
                  omega
                subst this
                refine ⟨[p], [b], [], .cons p1 .nil, .cons p2 .nil, ?_, .inl ⟨rfl, rfl⟩⟩
                rw [p3]; simp
              · rw [if_neg hk] at h
                simp only at h
                cases ht : traverse P m r n (some (k - 1)) c2 with
                | error e => rw [ht] at h; cases h
                | ok q =>
                  obtain ⟨es', c4⟩ := q
                  rw [ht] at h
                  simp only [Except.ok.injEq, Prod.mk.injEq] at h
                  obtain ⟨rfl, rfl⟩ := h
                  obtain ⟨ps, bss, tail, i1, i2, i3, i4⟩ := ih _ _ ht
                    (by intro hc; simp only [Option.some.injEq] at hc; omega)
                  refine ⟨p :: ps, b :: bss, tail, .cons p1 i1, .cons p2 i2, ?_, ?_⟩
                  · rw [p3, i3]; simp [List.append_assoc]
                  · rcases i4 with ⟨i4, i5⟩ | ⟨i4, -⟩
                    · simp only [Option.some.injEq] at i4
                      refine .inl ⟨?_, i5⟩
                      rw [List.length_cons, ← i4]
                      congr 1
                      omega
                    · cases i4

/-- The elements of a container have a reading. -/
theorem elements_back {P : QParams} {r : Nat} (hr : EntryReads P r) {v : Val} {c cEnd : Cur}
    {es : List Entry} (h : elements P v.isMap r v.count c = .ok (es, cEnd)) :
    ∃ ps body, Each (Shows P r v.isMap) es ps ∧ Body P.maxTags r v ps body ∧
      c.rest = body ++ cEnd.rest := by
  unfold elements at h
  cases hc : v.count with
  | none =>
    rw [hc] at h
    simp only at h
    by_cases hff : c.rest.head? = some 0xff
    · rw [if_pos hff] at h
      simp only [Except.ok.injEq, Prod.mk.injEq] at h
      obtain ⟨rfl, rfl⟩ := h
      refine ⟨[], [0xff], .nil, ⟨[], .nil, .inr ⟨hc, rfl⟩⟩, ?_⟩
      cases hr : c.rest with
      | nil => rw [hr] at hff; cases hff
      | cons y ys =>
        rw [hr] at hff
        simp only [List.head?_cons, Option.some.injEq] at hff
        subst hff
        simp [Cur.adv, hr]
    · rw [if_neg hff] at h
      obtain ⟨ps, bss, tail, i1, i2, i3, i4⟩ := traverse_back hr _ _ _ _ h (by simp)
      rcases i4 with ⟨i4, -⟩ | ⟨-, rfl⟩
      · cases i4
      · exact ⟨ps, bss.flatten ++ [0xff], i1, ⟨bss, i2, .inr ⟨hc, rfl⟩⟩, i3⟩
  | some k =>
    rw [hc] at h
    cases k with
    | zero =>
      simp only [Except.ok.injEq, Prod.mk.injEq] at h
      obtain ⟨rfl, rfl⟩ := h
      exact ⟨[], [], .nil, ⟨[], .nil, .inl ⟨hc, rfl⟩⟩, rfl⟩
    | succ k =>
      simp only at h
      obtain ⟨ps, bss, tail, i1, i2, i3, i4⟩ := traverse_back hr _ _ _ _ h (by simp)
      rcases i4 with ⟨i4, rfl⟩ | ⟨i4, -⟩
      · exact ⟨ps, bss.flatten, i1, ⟨bss, i2, .inl ⟨by rw [hc, i4], rfl⟩⟩, by simpa using i3⟩
      · cases i4

theorem skipValue_flat {P : QParams} {r : Nat} {v : Val} {c : Cur} (hv : v.isCont = false) :
    skipValue P r v c = .ok c := by
  unfold skipValue
  have : push r v [] c = .ok ([], c) := by
    cases v <;> first | rfl | cases hv
  rw [this]
  simp only [skipAll_nil]

/-- Stepping over a container reads its elements. -/
theorem skipValue_elements {P : QParams} {r : Nat} {v : Val} {c c2 : Cur} (hv : v.isCont = true)
    (h : skipValue P r v c = .ok c2) :
    (v.count = some 0 ∧ c2 = c) ∨
    ∃ r' es, r = r' + 1 ∧ elements P v.isMap r' v.count c = .ok (es, c2) := by
  unfold skipValue at h
  have key : ∀ (m : Bool) (n : Option Nat),
      (match (match n with
        | some 0 => (.ok (ascend [] c) : Except QErr (List NLvl × Cur))
        | some k =>
          if ([] : List NLvl).length ≥ r then .error .nestingTooDeep else .ok ([⟨m, some k⟩], c)
        | none =>
          if ([] : List NLvl).length ≥ r then .error .nestingTooDeep
          else .ok (ascend [⟨m, none⟩] c)) with
        | .error e => (.error e : Except QErr Cur)
        | .ok (st, c1) => skipAll P r st c1) = .ok c2 →
      (n = some 0 ∧ c2 = c) ∨ ∃ r' es, r = r' + 1 ∧ elements P m r' n c = .ok (es, c2) := by
    intro m n h
    cases n with
    | none =>
      simp only [List.length_nil] at h
      by_cases hr : 0 ≥ r
      · rw [if_pos hr] at h; cases h
      · rw [if_neg hr] at h
        obtain ⟨r', rfl⟩ : ∃ r', r = r' + 1 := ⟨r - 1, by omega⟩
        refine .inr ⟨r', ?_⟩
        unfold elements
        simp only
        rw [ascend] at h
        by_cases hff : c.rest.head? = some 0xff
        · rw [if_pos hff, ascend] at h
          simp only [skipAll_nil, Except.ok.injEq] at h
          refine ⟨[], trivial, by rw [if_pos hff, h]⟩
        · rw [if_neg hff] at h
          simp only at h
          rw [traverse_skipAll P m r' _ none c (Nat.lt_succ_self _)] at h
          rw [if_neg hff]
          cases ht : traverse P m r' (c.rest.length + 1) none c with
          | error e => rw [ht] at h; cases h
          | ok q =>
            obtain ⟨es, c3⟩ := q
            rw [ht] at h
            simp only [Except.ok.injEq] at h
            exact ⟨es, trivial, by rw [h]⟩
    | some k =>
      cases k with
      | zero =>
        simp only [ascend, skipAll_nil, Except.ok.injEq] at h
        exact .inl ⟨rfl, h.symm⟩
      | succ k =>
        simp only [List.length_nil] at h
        by_cases hr : 0 ≥ r
        · rw [if_pos hr] at h; cases h
        · rw [if_neg hr] at h
          obtain ⟨r', rfl⟩ : ∃ r', r = r' + 1 := ⟨r - 1, by omega⟩
          refine .inr ⟨r', ?_⟩
          simp only at h
          rw [traverse_skipAll P m r' _ (some (k + 1)) c (Nat.lt_succ_self _)] at h
          unfold elements
          simp only
          cases ht : traverse P m r' (c.rest.length + 1) (some (k + 1)) c with
          | error e => rw [ht] at h; cases h
          | ok q =>
            obtain ⟨es, c3⟩ := q
            rw [ht] at h
            simp only [Except.ok.injEq] at h
            exact ⟨es, trivial, by rw [h]⟩
  cases v with
  | arr n => exact key false n h
  | map n => exact key true n h
  | _ => cases hv

/-- Everything the decoder reads, it reads as `Reads` says. -/
theorem entryReads (P : QParams) : ∀ r, EntryReads P r := by
  intro r
  induction r with
  | zero =>
    intro m c e c2 he hs
    obtain ⟨k, ts, hb, e1, e2, e3, e4, e6, e5⟩ := entry_back he
    cases hc : e.itm.val.isCont with
    | false =>
      rw [skipValue_flat hc] at hs
      cases hs
      obtain ⟨x, x1, x2⟩ := e5 hc
      refine ⟨_, hb, ⟨e2, ts, x, rfl, e3, ?_⟩, x1 _, e1⟩
      rw [hc]; exact x2
    | true =>
      rcases skipValue_elements hc hs with ⟨h0, rfl⟩ | ⟨r', es, h1, -⟩
      · refine ⟨_, hb, ⟨e2, ts, _, rfl, e3, ?_⟩, e6 hc h0 0, by simpa using e1⟩
        rw [hc]; exact ⟨h0, rfl⟩
      · cases h1
  | succ r ih =>
    intro m c e c2 he hs
    obtain ⟨k, ts, hb, e1, e2, e3, e4, e6, e5⟩ := entry_back he
    cases hc : e.itm.val.isCont with
    | false =>
      rw [skipValue_flat hc] at hs
      cases hs
      obtain ⟨x, x1, x2⟩ := e5 hc
      refine ⟨_, hb, ⟨e2, ts, x, rfl, e3, ?_⟩, x1 _, e1⟩
      rw [hc]; exact x2
    | true =>
      have hel : ∃ es, elements P e.itm.val.isMap r e.itm.val.count e.cur = .ok (es, c2) := by
        rcases skipValue_elements hc hs with ⟨h0, rfl⟩ | ⟨r', es, h1, h2⟩
        · refine ⟨[], ?_⟩
          unfold elements
          rw [h0]
          rfl
        · cases h1; exact ⟨es, h2⟩
      obtain ⟨es, hel⟩ := hel
      obtain ⟨ps, body, b1, b2, b3⟩ := elements_back ih hel
      refine ⟨_, hb ++ body, ⟨e2, ts, _, rfl, e3, ?_⟩, e4 hc r ps body b2, ?_⟩
      · rw [hc]; exact ⟨es, c2, ps, hel, b1, rfl⟩
      · rw [e1, b3, List.append_assoc]

/-! ## Clean readings are CBOR -/

mutual
theorem Spec.Reads.encodes {t : Nat} : ∀ {d : Nat} {x : Item} {b : Bytes}, Reads t d x b →
    x.clean = true → Encodes x b
  | _, _, _, .uint h, _ => .uint h
  | _, _, _, .nint h, _ => .nint h
  | _, _, _, .bstr h, _ => .bstr h
  | _, _, _, .tstr h, _ => .tstr h
  | _, _, _, .arr0 h, _ => by simpa using Encodes.arr (xs := []) (bss := []) h .nil
  | _, _, _, .arr _ h hs, hc => .arr h (Spec.ReadsAll.encodes hs (by simpa [Item.clean] using hc))
  | _, _, _, .arrIndef hs, hc =>
    .arrIndef (Spec.ReadsAll.encodes hs (by simpa [Item.clean] using hc))
  | _, _, _, .map0 h, _ => by simpa using Encodes.map (kvs := []) (bss := []) h .nil
  | _, _, _, .map _ h hs, hc =>
    .map h (Spec.ReadsPairs.encodes hs (by simpa [Item.clean] using hc))
  | _, _, _, .mapIndef hs, hc =>
    .mapIndef (Spec.ReadsPairs.encodes hs (by simpa [Item.clean] using hc))
  | _, _, _, .tag h hx, hc => .tag h (Spec.Reads.encodes hx (by simpa [Item.clean] using hc))
  | _, _, _, .null, _ => .null
  | _, _, _, .simple h1 h2, _ => .simple h1 h2
  | _, _, _, .simple8 h1 h2, _ => .simple8 h1 h2
  | _, _, _, .float k h1 h2 h3, _ => .float k h1 h2 h3
  | _, _, _, .notCbor _, hc => by simp [notItem, Item.clean] at hc
theorem Spec.ReadsAll.encodes {t : Nat} : ∀ {d : Nat} {xs : List Item} {bss : List Bytes},
    ReadsAll t d xs bss → cleanAll xs = true → EncodesAll xs bss
  | _, _, _, .nil, _ => .nil
  | _, _, _, .cons h hs, hc => by
    simp only [cleanAll, Bool.and_eq_true] at hc
    exact .cons (Spec.Reads.encodes h hc.1) (Spec.ReadsAll.encodes hs hc.2)
theorem Spec.ReadsPairs.encodes {t : Nat} : ∀ {d : Nat} {kvs : List (Item × Item)}
    {bss : List Bytes}, ReadsPairs t d kvs bss → cleanPairs kvs = true → EncodesPairs kvs bss
  | _, _, _, .nil, _ => .nil
  | _, _, _, .cons _ hk hv hs, hc => by
    simp only [cleanPairs, Bool.and_eq_true] at hc
    exact .cons (Spec.Reads.encodes hk hc.1.1) (Spec.Reads.encodes hv hc.1.2)
      (Spec.ReadsPairs.encodes hs hc.2)
  | _, _, _, .lone _ _, hc => by simp [notItem, cleanPairs, Item.clean] at hc
end

end TCose
