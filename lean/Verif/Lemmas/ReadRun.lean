import Verif.Lemmas.DecodeEnc
import Verif.Spec.Read

/-!
# Decoder: reading whatever `Spec.Reads` has
-/

namespace TCose
open Spec

/-- The error with which an item is fetched that is no CBOR or beyond the range. -/
def DeadErr (x : Item) (e : QErr) : Prop :=
  (x.isNot = true ∧ (e = .unsupported ∨ e = .badInt ∨ e = .badType7)) ∨
  (x.tooLow = true ∧ e = .intOverflow)

theorem DeadErr.soft {x : Item} {e : QErr} (h : DeadErr x e) :
    e.unrec = false ∧ e ≠ .fuel ∧ e ≠ .callbackFail ∧ e ≠ .tooManyTags ∧ e.notWellFormed = x.isNot := by
  rcases h with ⟨h, rfl | rfl | rfl⟩ | ⟨h, rfl⟩
  · rw [h]; simp [QErr.unrec, QErr.notWellFormed]
  · rw [h]; simp [QErr.unrec, QErr.notWellFormed]
  · rw [h]; simp [QErr.unrec, QErr.notWellFormed]
  · have : x.isNot = false := by cases x <;> first | rfl | cases h
    rw [this]; simp [QErr.unrec, QErr.notWellFormed]

/-- The item can be read. -/
def Spec.Item.live (x : Item) : Prop := x.isNot = false ∧ x.tooLow = false

/-- What the decoder makes of an item that is neither tagged nor a container: the value, or an
error. -/
def AtomRead (x : Item) (v : Val) (err : Option QErr) : Prop :=
  (x.live ∧ err = none ∧ AtomIs x v) ∨ (v = .other ∧ ∃ e, DeadErr x e ∧ err = some e)

theorem AtomRead.of_live {x : Item} {v : Val} {err : Option QErr} (h : AtomRead x v err)
    (hx : x.live) : err = none ∧ AtomIs x v := by
  rcases h with ⟨-, h⟩ | ⟨-, e, h, -⟩
  · exact h
  · rcases h with ⟨h, -⟩ | ⟨h, -⟩
    · rw [hx.1] at h; cases h
    · rw [hx.2] at h; cases h

theorem AtomRead.flat {x : Item} {v : Val} {err : Option QErr} (h : AtomRead x v err) (room : Nat)
    (st : List NLvl) (c : Cur) : v ≠ .brk ∧ push room v st c = .ok (ascend st c) := by
  rcases h with ⟨-, -, h⟩ | ⟨rfl, -⟩
  · exact h.flat room st c
  · exact ⟨by simp, rfl⟩

theorem decodeAtom_not {b : Bytes} (h : NotCbor b) (pos : Nat) (r : Bytes) :
    ∃ e, (e = .unsupported ∨ e = .badInt ∨ e = .badType7) ∧
      decodeAtom ⟨pos, b ++ r⟩ = (.error e, ⟨pos + b.length, r⟩) := by
  cases h with
  | @reserved b h1 h2 =>
    refine ⟨.unsupported, .inl rfl, ?_⟩
    unfold decodeAtom decodeHead
    simp only [List.cons_append, List.nil_append]
    rw [if_neg (by omega), if_neg (by omega), if_pos (by omega)]
    rfl
  | indef h =>
    refine ⟨.badInt, .inr (.inl rfl), ?_⟩
    rcases h with rfl | rfl | rfl <;> rfl
  | @simple n hn =>
    refine ⟨.badType7, .inr (.inr rfl), ?_⟩
    have : decodeHead ⟨pos, [0xf8, n] ++ r⟩ = (.ok (7, 24, n.toNat), ⟨pos + 2, r⟩) := by
      unfold decodeHead
      simp [octetsVal, Cur.adv]
    unfold decodeAtom
    rw [this]
    simp only [Nat.reduceEqDiff, if_false]
    unfold decodeType7
    rw [if_neg (by omega), if_neg (by omega), if_pos ⟨rfl, by omega⟩]
    rfl

theorem decodeAtom_low {n : Nat} {h : Bytes} (hh : HeadOf 1 n h) (hn : 9223372036854775807 < n)
    (pos : Nat) (r : Bytes) :
    decodeAtom ⟨pos, h ++ r⟩ = (.error .intOverflow, ⟨pos + h.length, r⟩) := by
  obtain ⟨ai, ha, hd⟩ := decodeHead_of hh (by omega) pos r
  unfold decodeAtom
  rw [hd]
  have : ¬ n ≤ int64Max := by unfold int64Max; omega
  simp only [if_true, if_neg ha, if_neg this, Nat.one_ne_zero, if_false]

theorem nextTagged_soft {P : QParams} {fuel : Nat} {c c1 : Cur} {tags : List Nat} {over : Bool}
    {e : QErr} (hf : 0 < fuel) (he : e.unrec = false) (h : decodeAtom c = (.error e, c1)) :
    nextTagged P fuel c tags over = (.ok ⟨.other, tags, some e⟩, c1) := by
  cases fuel with
  | zero => omega
  | succ n =>
    rw [nextTagged, h]
    simp only [he, Bool.false_eq_true, if_false]

/-- How an item without tags is fetched. -/
def FetchAs (P : QParams) (b : Bytes) (v : Val) (err : Option QErr) (pos : Nat) (r : Bytes)
    (c1 : Cur) : Prop :=
  ∀ fuel tags over, 0 < fuel → nextTagged P fuel ⟨pos, b ++ r⟩ tags over =
    (.ok ⟨v, tags, err.or (if over then some .tooManyTags else none)⟩, c1)

theorem FetchAs.of_val {P : QParams} {b : Bytes} {v : Val} {pos : Nat} {r : Bytes} {c1 : Cur}
    (h : decodeAtom ⟨pos, b ++ r⟩ = (.ok (.val v), c1)) : FetchAs P b v none pos r c1 :=
  fun _ _ _ hf => nextTagged_val hf h

theorem reads_atom {P : QParams} {t d : Nat} {x : Item} {b : Bytes} (h : Reads t d x b)
    (hx : x.isAtom = true) (pos : Nat) (r : Bytes) :
    ∃ v err, AtomRead x v err ∧ FetchAs P b v err pos r ⟨pos + b.length, r⟩ := by
  have live : ∀ {x : Item} {b : Bytes}, Encodes x b → x.isAtom = true → x.fits 0 = true → x.live →
      ∃ v err, AtomRead x v err ∧ FetchAs P b v err pos r ⟨pos + b.length, r⟩ := by
    intro x b he ha hf hl
    obtain ⟨v, h1, h2⟩ := decodeAtom_of he ha hf pos r
    exact ⟨v, none, .inl ⟨hl, rfl, h2⟩, .of_val h1⟩
  cases h with
  | uint hh => exact live (.uint hh) rfl rfl ⟨rfl, rfl⟩
  | @nint _ n _ hh =>
    by_cases hn : n ≤ 9223372036854775807
    · exact live (.nint hh) rfl (decide_eq_true hn)
        ⟨rfl, by simpa [Item.tooLow] using hn⟩
    · exact ⟨.other, some .intOverflow,
        .inr ⟨rfl, _, .inr ⟨by simp only [Item.tooLow, decide_eq_true_eq]; omega, rfl⟩, rfl⟩,
        fun _ _ _ hf => nextTagged_soft hf rfl (decodeAtom_low hh (by omega) pos r)⟩
  | bstr hh => exact live (.bstr hh) rfl rfl ⟨rfl, rfl⟩
  | tstr hh => exact live (.tstr hh) rfl rfl ⟨rfl, rfl⟩
  | null => exact live .null rfl rfl ⟨rfl, rfl⟩
  | simple h1 h2 =>
    exact live (.simple h1 h2) rfl rfl ⟨by simp only [Item.isNot, beq_eq_false_iff_ne]; omega, rfl⟩
  | simple8 h1 h2 =>
    exact live (.simple8 h1 h2) rfl rfl ⟨by simp only [Item.isNot, beq_eq_false_iff_ne]; omega, rfl⟩
  | float k h1 h2 h3 => exact live (.float k h1 h2 h3) rfl rfl ⟨rfl, rfl⟩
  | notCbor hn =>
    obtain ⟨e, he, hd⟩ := decodeAtom_not hn pos r
    refine ⟨.other, some e, .inr ⟨rfl, e, .inl ⟨rfl, he⟩, rfl⟩, fun _ _ _ hf =>
      nextTagged_soft hf ?_ hd⟩
    rcases he with rfl | rfl | rfl <;> rfl
  | _ => cases hx

theorem Spec.NotCbor.first {b : Bytes} (h : NotCbor b) : FirstOk b := by
  cases h with
  | @reserved b h1 h2 =>
    refine ⟨_, _, rfl, ?_⟩
    rintro rfl
    revert h2
    decide
  | indef h => rcases h with rfl | rfl | rfl <;> exact ⟨_, _, rfl, by decide⟩
  | simple => exact ⟨_, _, rfl, by decide⟩

theorem Spec.Reads.first {t d : Nat} {x : Item} {b : Bytes} (h : Reads t d x b) : FirstOk b := by
  cases h with
  | uint hh => simpa using hh.first []
  | nint hh => simpa using hh.first []
  | bstr hh => exact hh.first _
  | tstr hh => exact hh.first _
  | arr0 hh => simpa using hh.first []
  | arr _ hh _ => exact hh.first _
  | arrIndef => exact ⟨_, _, rfl, by decide⟩
  | map0 hh => simpa using hh.first []
  | map _ hh _ => exact hh.first _
  | mapIndef => exact ⟨_, _, rfl, by decide⟩
  | tag hh _ => exact hh.first _
  | null => exact Encodes.null.first
  | simple h1 h2 => exact (Encodes.simple h1 h2).first
  | simple8 h1 h2 => exact (Encodes.simple8 h1 h2).first
  | float k h1 h2 h3 => exact (Encodes.float k h1 h2 h3).first
  | notCbor h => exact h.first

/-- The tags before an item are collected, innermost first, as far as there is room. -/
theorem tagHeads_run (P : QParams) {ts : List Nat} {h : Bytes} (hh : TagHeads ts h) :
    ∀ pos r fuel tags over k, h.length + k < fuel → tags.length ≤ P.maxTags →
      ∃ fuel', k < fuel' ∧ nextTagged P fuel ⟨pos, h ++ r⟩ tags over =
        nextTagged P fuel' ⟨pos + h.length, r⟩
          ((ts.take (P.maxTags - tags.length)).reverse ++ tags)
          (over || decide (P.maxTags < tags.length + ts.length)) := by
  induction hh with
  | nil =>
    intro pos r fuel tags over k hf ht
    refine ⟨fuel, by simpa using hf, ?_⟩
    have : decide (P.maxTags < tags.length + ([] : List Nat).length) = false := by
      simpa using ht
    rw [this]
    simp
  | @cons t ts h tb hh htb ih =>
    intro pos r fuel tags over k hf ht
    rw [List.length_append] at hf
    have hl := (hh.first []).length
    rw [List.append_nil] at hl
    cases fuel with
    | zero => omega
    | succ fuel =>
      rw [nextTagged, List.append_assoc, decodeAtom_tag hh]
      simp only
      by_cases hlt : tags.length < P.maxTags
      · obtain ⟨fuel', hf', he⟩ := ih (pos + h.length) r fuel (t :: tags) over k (by omega)
          (by simp only [List.length_cons]; omega)
        refine ⟨fuel', hf', ?_⟩
        rw [if_pos hlt, he]
        have e1 : P.maxTags - tags.length = P.maxTags - (t :: tags).length + 1 := by
          simp only [List.length_cons]; omega
        have e2 : (t :: tags).length + ts.length = tags.length + (t :: ts).length := by
          simp only [List.length_cons]; omega
        rw [e1, e2, List.take_succ_cons]
        simp [Nat.add_assoc]
      · obtain ⟨fuel', hf', he⟩ := ih (pos + h.length) r fuel tags true k (by omega) ht
        refine ⟨fuel', hf', ?_⟩
        rw [if_neg hlt, he]
        have e1 : P.maxTags - tags.length = 0 := by omega
        have e2 : decide (P.maxTags < tags.length + (t :: ts).length) = true := by
          simp only [List.length_cons, decide_eq_true_eq]; omega
        rw [e1, e2]
        simp [Nat.add_assoc]

/-- From the beginning. -/
theorem tagHeads_raw (P : QParams) {ts : List Nat} {h : Bytes} (hh : TagHeads ts h) (pos : Nat)
    (r : Bytes) : ∃ fuel', 0 < fuel' ∧ nextRaw P ⟨pos, h ++ r⟩ =
      nextTagged P fuel' ⟨pos + h.length, r⟩ (ts.take P.maxTags).reverse
        (decide (P.maxTags < ts.length)) := by
  obtain ⟨fuel', hf', he⟩ := tagHeads_run P hh pos r ((h ++ r).length + 1) [] false 0
    (by simp only [List.length_append]; omega) (by simp)
  refine ⟨fuel', by omega, ?_⟩
  unfold nextRaw
  rw [he]
  simp

theorem Spec.TagHeads.first {ts : List Nat} {h : Bytes} (hh : TagHeads ts h) (hts : ts ≠ [])
    (r : Bytes) : FirstOk (h ++ r) := by
  cases hh with
  | nil => exact absurd rfl hts
  | cons h1 h2 => rw [List.append_assoc]; exact h1.first _

theorem reads_tagged {t d : Nat} : ∀ (ts : List Nat) {x : Item} {b : Bytes},
    Reads t d (tagged ts x) b → ∃ tb b0, b = tb ++ b0 ∧ TagHeads ts tb ∧ Reads t d x b0 := by
  intro ts
  induction ts with
  | nil => intro x b h; exact ⟨[], b, rfl, .nil, h⟩
  | cons n ts ih =>
    intro x b h
    cases h with
    | tag hh hx =>
      obtain ⟨tb, b0, rfl, h1, h2⟩ := ih hx
      exact ⟨_ ++ tb, b0, by simp, .cons hh h1, h2⟩

/-- What the decoder makes of a label. -/
theorem key_raw {P : QParams} {d : Nat} {k : Item} {b : Bytes} (h : Reads P.maxTags d k b)
    (hk : IsKey P.maxTags k) (pos : Nat) (r : Bytes) :
    ∃ v tags, nextRaw P ⟨pos, b ++ r⟩ = (.ok ⟨v, tags, none⟩, ⟨pos + b.length, r⟩) ∧
      AtomIs k.bare v ∧ k.bare.isLabel = true ∧ v.isLabel = true := by
  obtain ⟨ts, k0, rfl, hlen, hl, hn⟩ := hk
  obtain ⟨tb, b0, rfl, h1, h2⟩ := reads_tagged ts h
  have ha : k0.isAtom = true := by cases k0 <;> first | rfl | cases hl
  have hlive : k0.live := by
    cases k0 with
    | nint n => exact ⟨rfl, by simpa [Item.tooLow] using hn n rfl⟩
    | _ => first | exact ⟨rfl, rfl⟩ | cases hl
  have hbare : (tagged ts k0).bare = k0 := by
    have h0 : k0.bare = k0 := by cases k0 <;> first | rfl | cases hl
    clear h1 h hlen
    induction ts with
    | nil => exact h0
    | cons n ts ih => exact ih
  obtain ⟨v, err, h3, h4⟩ := reads_atom (P := P) h2 ha (pos + tb.length) r
  obtain ⟨rfl, h5⟩ := h3.of_live hlive
  obtain ⟨fuel', hf, he⟩ := tagHeads_raw P h1 pos (b0 ++ r)
  refine ⟨v, (ts.take P.maxTags).reverse, ?_, ?_, ?_, ?_⟩
  · rw [List.append_assoc, he, h4 _ _ _ hf, List.length_append, ← Nat.add_assoc]
    have : decide (P.maxTags < ts.length) = false := by simpa using hlen
    rw [this]
    rfl
  · rw [hbare]; exact h5
  · rw [hbare]; exact hl
  · cases k0 <;> simp only [Item.isLabel, Bool.false_eq_true] at hl <;> simp only [AtomIs] at h5
    · subst h5; split <;> rfl
    · subst h5; rfl
    · obtain ⟨o, rfl⟩ := h5; rfl
    · obtain ⟨o, rfl⟩ := h5; rfl

/-- One item is fetched, whatever it is. -/
theorem piece_val {b : Bytes} (h : Piece b) (pos : Nat) (r : Bytes) :
    (∃ v, decodeAtom ⟨pos, b ++ r⟩ = (.ok (.val v), ⟨pos + b.length, r⟩)) ∨
    ∃ e, e.unrec = false ∧ decodeAtom ⟨pos, b ++ r⟩ = (.error e, ⟨pos + b.length, r⟩) := by
  cases h with
  | @head m n h hm hh =>
    obtain ⟨ai, ha, hd⟩ := decodeHead_of hh (by omega) pos r
    unfold decodeAtom
    rw [hd]
    simp only
    rcases hm with rfl | rfl | rfl | ⟨rfl, hn⟩ | ⟨rfl, hn⟩
    · exact .inl ⟨_, by simp only [if_true, if_neg ha]; rfl⟩
    · simp only [Nat.one_ne_zero, if_false, if_true, if_neg ha]
      by_cases hn : n ≤ int64Max
      · exact .inl ⟨_, by rw [if_pos hn]⟩
      · exact .inr ⟨_, rfl, by rw [if_neg hn]⟩
    · simp only [Nat.reduceEqDiff, if_false]
      unfold decodeType7
      rw [if_neg ha]
      by_cases h22 : ai = 22
      · exact .inl ⟨_, by rw [if_pos h22]⟩
      · rw [if_neg h22]
        by_cases h24 : ai = 24 ∧ n ≤ 31
        · exact .inr ⟨_, rfl, by rw [if_pos h24]⟩
        · exact .inl ⟨_, by rw [if_neg h24]⟩
    · simp only [Nat.reduceEqDiff, if_false, if_true, if_neg ha]
      rw [if_neg (by omega)]
      exact .inl ⟨_, rfl⟩
    · simp only [Nat.reduceEqDiff, if_false, if_true, if_neg ha]
      rw [if_neg (by omega)]
      exact .inl ⟨_, rfl⟩
  | @str m s h hm hh =>
    left
    obtain ⟨ai, ha, hd⟩ := decodeHead_of hh (by omega) pos (s ++ r)
    unfold decodeAtom
    rw [List.append_assoc, hd]
    rcases hm with rfl | rfl <;>
      (simp only [if_true, Nat.reduceEqDiff, if_false]
       rw [decodeStr_of _ ha, List.length_append, Nat.add_assoc]
       exact ⟨_, rfl⟩)
  | indef h => left; rcases h with rfl | rfl | rfl <;> exact ⟨_, rfl⟩

/-- Octets in the place of a label that are passed without a value. -/
theorem lone_entry {P : QParams} {a : Bytes} (h : LoneKey P.maxTags a) :
    FirstOk a ∧ ∀ pos r, ∃ e, entry P true ⟨pos, a ++ r⟩ =
      (.ok (none, ⟨.other, [], some e⟩), ⟨pos + a.length, r⟩) := by
  have key : ∀ {ts : List Nat} {h b : Bytes}, TagHeads ts h →
      (∀ pos r, (∃ e, e.unrec = false ∧ decodeAtom ⟨pos, b ++ r⟩ = (.error e, ⟨pos + b.length, r⟩)) ∨
        (P.maxTags < ts.length ∧
          ∃ v, decodeAtom ⟨pos, b ++ r⟩ = (.ok (.val v), ⟨pos + b.length, r⟩))) →
      ∀ pos r, ∃ e, entry P true ⟨pos, h ++ b ++ r⟩ =
        (.ok (none, ⟨.other, [], some e⟩), ⟨pos + (h ++ b).length, r⟩) := by
    intro ts h b hh hb pos r
    obtain ⟨fuel', hf, he⟩ := tagHeads_raw P hh pos (b ++ r)
    unfold entry
    rw [if_pos rfl, List.append_assoc, he, List.length_append, ← Nat.add_assoc]
    rcases hb (pos + h.length) r with ⟨e, h1, h2⟩ | ⟨h1, v, h2⟩
    · rw [nextTagged_soft hf h1 h2]; exact ⟨e, rfl⟩
    · rw [nextTagged_val hf h2]
      have : decide (P.maxTags < ts.length) = true := by simpa using h1
      rw [this]
      exact ⟨_, rfl⟩
  have hfirst : ∀ {ts : List Nat} {h b : Bytes}, TagHeads ts h → FirstOk b → FirstOk (h ++ b) := by
    intro ts h b hh hb
    cases hh with
    | nil => exact hb
    | cons h1 h2 => rw [List.append_assoc]; exact h1.first _
  cases h with
  | bad hh hb =>
    refine ⟨hfirst hh hb.first, key hh fun pos r => .inl ?_⟩
    obtain ⟨e, he, hd⟩ := decodeAtom_not hb pos r
    exact ⟨e, by rcases he with rfl | rfl | rfl <;> rfl, hd⟩
  | big hh hb hn =>
    exact ⟨hfirst hh (by simpa using hb.first []), key hh fun pos r =>
      .inl ⟨_, rfl, decodeAtom_low hb hn pos r⟩⟩
  | many hh hlen hp =>
    refine ⟨hh.first (by intro h0; rw [h0] at hlen; simp at hlen) _, key hh fun pos r => ?_⟩
    rcases piece_val hp pos r with ⟨v, hv⟩ | ⟨e, he, hd⟩
    · exact .inr ⟨hlen, v, hv⟩
    · exact .inl ⟨e, he, hd⟩

theorem atom_reads_run {P : QParams} {t d : Nat} {x : Item} {b : Bytes} (h : Reads t d x b)
    (hx : x.isAtom = true) : ItemRun P d b := by
  refine ⟨h.first, fun room st pos r _ fuel tags over hfuel => ?_⟩
  obtain ⟨v, err, h1, h2⟩ := reads_atom (P := P) h hx pos r
  exact ⟨_, _, h2 fuel tags over (by omega), (h1.flat room st ⟨pos + b.length, r⟩).1, _, _,
    (h1.flat room st _).2, rfl⟩

theorem empty_run {P : QParams} {d : Nat} {h : Bytes} (m : Bool)
    (hd : ∀ pos r, decodeAtom ⟨pos, h ++ r⟩ =
      (.ok (.val (if m then .map (some 0) else .arr (some 0))), ⟨pos + h.length, r⟩))
    (hf : FirstOk h) : ItemRun P d h := by
  refine ⟨hf, fun room st pos r hroom fuel tags over hfuel => ?_⟩
  refine ⟨_, _, nextTagged_val (by omega) (hd pos r), by cases m <;> simp, ?_⟩
  cases m <;> exact ⟨_, _, rfl, rfl⟩

theorem ItemRun.key {P : QParams} {d d' : Nat} {a b : Bytes} {k : Item} (hk : Reads P.maxTags d' k a)
    (hl : IsKey P.maxTags k) (h : ItemRun P d b) : SlotRun P true d (a ++ b) := by
  refine ⟨?_, fun room st pos r hroom => ?_⟩
  · obtain ⟨x, t, rfl, hx⟩ := hk.first
    exact ⟨x, _, rfl, hx⟩
  · obtain ⟨v, ts, h1, -, -, h2⟩ := key_raw (P := P) hk hl pos (b ++ r)
    obtain ⟨it, c1, h3, h4, h5⟩ := h.2 room st (pos + a.length) r hroom ((b ++ r).length + 1) [] false
      (by simp; omega)
    obtain ⟨h6, h7⟩ := tagContent_run h4 h5
    refine ⟨some v, tagContent P it, c1, ?_, ?_⟩
    · unfold entry
      rw [List.append_assoc, h1]
      unfold nextItem
      simp only [if_true]
      unfold nextRaw
      simp only [h3, h2, if_true, if_neg h6, if_neg (Val.isLabel_ne_brk h2)]
    · rw [List.length_append, ← Nat.add_assoc]
      exact h7

theorem lone_slot {P : QParams} {d : Nat} {a : Bytes} (h : LoneKey P.maxTags a) :
    SlotRun P true d a := by
  obtain ⟨h1, h2⟩ := lone_entry h
  refine ⟨h1, fun room st pos r hroom => ?_⟩
  obtain ⟨e, he⟩ := h2 pos r
  exact ⟨_, _, _, he, _, _, rfl, rfl⟩

theorem Spec.ReadsAll.length {t d : Nat} {xs : List Item} {bss : List Bytes} (h : ReadsAll t d xs bss) :
    bss.length = xs.length := by
  induction xs generalizing bss with
  | nil => cases h; rfl
  | cons x xs ih => cases h with | cons h1 h2 => simp [ih h2]

theorem Spec.ReadsPairs.length {t d : Nat} {kvs : List (Item × Item)} {bss : List Bytes}
    (h : ReadsPairs t d kvs bss) : bss.length = kvs.length := by
  induction kvs generalizing bss with
  | nil => cases h; rfl
  | cons x xs ih =>
    cases h with
    | cons h1 h2 h3 h4 => simp [ih h4]
    | lone h1 h2 => simp [ih h2]

mutual
/-- Whatever is read as an item can be fetched and stepped over. -/
theorem reads_run (P : QParams) {d : Nat} {x : Item} {b : Bytes} (h : Reads P.maxTags d x b) :
    ItemRun P d b := by
  cases h with
  | uint hh => exact atom_reads_run (.uint (t := P.maxTags) hh) rfl
  | nint hh => exact atom_reads_run (.nint (t := P.maxTags) hh) rfl
  | bstr hh => exact atom_reads_run (.bstr (t := P.maxTags) hh) rfl
  | tstr hh => exact atom_reads_run (.tstr (t := P.maxTags) hh) rfl
  | null => exact atom_reads_run (.null (t := P.maxTags)) rfl
  | simple h1 h2 => exact atom_reads_run (.simple (t := P.maxTags) h1 h2) rfl
  | simple8 h1 h2 => exact atom_reads_run (.simple8 (t := P.maxTags) h1 h2) rfl
  | float k h1 h2 h3 => exact atom_reads_run (.float (t := P.maxTags) k h1 h2 h3) rfl
  | notCbor hn => exact atom_reads_run (.notCbor (t := P.maxTags) hn) rfl
  | arr0 hh => exact empty_run false (decodeAtom_arr hh (by omega)) (by simpa using hh.first [])
  | map0 hh => exact empty_run true (decodeAtom_map hh (by omega)) (by simpa using hh.first [])
  | @arr d xs h bss hn hh hall =>
    have hs := readsAll_run P hall
    refine ⟨hh.first _, fun room st pos r hroom fuel tags over hfuel => ?_⟩
    rw [List.append_assoc]
    refine ⟨_, _, nextTagged_val (by omega) (decodeAtom_arr hh hn pos (bss.flatten ++ r)),
      by simp, ?_⟩
    have := push_slots (P := P) (m := false) (d := d) (room := room) (st := st)
      (r := r) (r' := r) (k := 0) (left := some xs.length) (pos := pos + h.length) hs (by omega)
      (.inl ⟨by rw [hall.length], rfl, rfl⟩)
    rw [List.length_append, ← Nat.add_assoc]
    exact this
  | @arrIndef d xs bss hall =>
    have hs := readsAll_run P hall
    refine ⟨⟨_, _, rfl, by decide⟩, fun room st pos r hroom fuel tags over hfuel => ?_⟩
    rw [List.cons_append, List.append_assoc]
    refine ⟨_, _, nextTagged_val (by omega) (decodeAtom_arrIndef pos (bss.flatten ++ ([0xff] ++ r))),
      by simp, ?_⟩
    have := push_slots (P := P) (m := false) (d := d) (room := room) (st := st)
      (r := [0xff] ++ r) (r' := r) (k := 1) (left := none) (pos := pos + 1) hs (by omega)
      (.inr ⟨rfl, rfl, rfl⟩)
    have hl : pos + (0x9f :: (bss.flatten ++ [0xff])).length = pos + 1 + bss.flatten.length + 1 := by
      simp only [List.length_cons, List.length_append, List.length_nil]; omega
    rw [hl]
    exact this
  | @map d kvs h bss hn hh hall =>
    have hs := readsPairs_run P hall
    refine ⟨hh.first _, fun room st pos r hroom fuel tags over hfuel => ?_⟩
    rw [List.append_assoc]
    refine ⟨_, _, nextTagged_val (by omega) (decodeAtom_map hh hn pos (bss.flatten ++ r)),
      by simp, ?_⟩
    have := push_slots (P := P) (m := true) (d := d) (room := room) (st := st)
      (r := r) (r' := r) (k := 0) (left := some kvs.length) (pos := pos + h.length) hs (by omega)
      (.inl ⟨by rw [hall.length], rfl, rfl⟩)
    rw [List.length_append, ← Nat.add_assoc]
    exact this
  | @mapIndef d kvs bss hall =>
    have hs := readsPairs_run P hall
    refine ⟨⟨_, _, rfl, by decide⟩, fun room st pos r hroom fuel tags over hfuel => ?_⟩
    rw [List.cons_append, List.append_assoc]
    refine ⟨_, _, nextTagged_val (by omega) (decodeAtom_mapIndef pos (bss.flatten ++ ([0xff] ++ r))),
      by simp, ?_⟩
    have := push_slots (P := P) (m := true) (d := d) (room := room) (st := st)
      (r := [0xff] ++ r) (r' := r) (k := 1) (left := none) (pos := pos + 1) hs (by omega)
      (.inr ⟨rfl, rfl, rfl⟩)
    have hl : pos + (0xbf :: (bss.flatten ++ [0xff])).length = pos + 1 + bss.flatten.length + 1 := by
      simp only [List.length_cons, List.length_append, List.length_nil]; omega
    rw [hl]
    exact this
  | @tag _ n x h b hh hx =>
    obtain ⟨-, hi⟩ := reads_run P hx
    refine ⟨hh.first _, fun room st pos r hroom fuel tags over hfuel => ?_⟩
    have hlen := (hh.first []).length
    simp only [List.append_nil] at hlen
    cases fuel with
    | zero => omega
    | succ fuel =>
      rw [nextTagged, List.append_assoc, decodeAtom_tag hh]
      simp only
      rw [List.length_append] at hfuel
      rw [List.length_append, ← Nat.add_assoc]
      split
      · exact hi room st (pos + h.length) r hroom fuel _ over (by omega)
      · exact hi room st (pos + h.length) r hroom fuel _ true (by omega)
theorem readsAll_run (P : QParams) {d : Nat} {xs : List Item} {bss : List Bytes}
    (h : ReadsAll P.maxTags d xs bss) : ∀ s ∈ bss, SlotRun P false d s := by
  intro s hs
  cases h with
  | nil => cases hs
  | cons h1 h2 =>
    rcases List.mem_cons.mp hs with rfl | hs
    · exact (reads_run P h1).slot
    · exact readsAll_run P h2 s hs
theorem readsPairs_run (P : QParams) {d : Nat} {kvs : List (Item × Item)} {bss : List Bytes}
    (h : ReadsPairs P.maxTags d kvs bss) : ∀ s ∈ bss, SlotRun P true d s := by
  intro s hs
  cases h with
  | nil => cases hs
  | cons h1 h2 h3 h4 =>
    rcases List.mem_cons.mp hs with rfl | hs
    · exact (reads_run P h3).key h2 h1
    · exact readsPairs_run P h4 s hs
  | lone h1 h2 =>
    rcases List.mem_cons.mp hs with rfl | hs
    · exact lone_slot h1
    · exact readsPairs_run P h2 s hs
end

mutual
/-- An item within the limits is read as what it is. -/
theorem Spec.Encodes.reads {t : Nat} : ∀ {x : Item} {b : Bytes}, Encodes x b → ∀ {d : Nat},
    x.fits d = true → Reads t d x b
  | _, _, .uint h, _, _ => .uint h
  | _, _, .nint h, _, _ => .nint h
  | _, _, .bstr h, _, _ => .bstr h
  | _, _, .tstr h, _, _ => .tstr h
  | _, _, .arr h hs, d, hf => by
    simp only [Item.fits, Bool.and_eq_true, decide_eq_true_eq] at hf
    obtain ⟨d, rfl⟩ : ∃ k, d = k + 1 := ⟨d - 1, by omega⟩
    exact .arr hf.1.2 h (Spec.EncodesAll.reads hs hf.2)
  | _, _, .arrIndef hs, d, hf => by
    simp only [Item.fits, Bool.and_eq_true, decide_eq_true_eq] at hf
    obtain ⟨d, rfl⟩ : ∃ k, d = k + 1 := ⟨d - 1, by omega⟩
    exact .arrIndef (Spec.EncodesAll.reads hs hf.2)
  | _, _, .map h hs, d, hf => by
    simp only [Item.fits, Bool.and_eq_true, decide_eq_true_eq] at hf
    obtain ⟨d, rfl⟩ : ∃ k, d = k + 1 := ⟨d - 1, by omega⟩
    exact .map hf.1.2 h (Spec.EncodesPairs.reads hs hf.2)
  | _, _, .mapIndef hs, d, hf => by
    simp only [Item.fits, Bool.and_eq_true, decide_eq_true_eq] at hf
    obtain ⟨d, rfl⟩ : ∃ k, d = k + 1 := ⟨d - 1, by omega⟩
    exact .mapIndef (Spec.EncodesPairs.reads hs hf.2)
  | _, _, .tag h hx, _, hf => .tag h (Spec.Encodes.reads hx (by simpa [Item.fits] using hf))
  | _, _, .null, _, _ => .null
  | _, _, .simple h1 h2, _, _ => .simple h1 h2
  | _, _, .simple8 h1 h2, _, _ => .simple8 h1 h2
  | _, _, .float k h1 h2 h3, _, _ => .float k h1 h2 h3
theorem Spec.EncodesAll.reads {t : Nat} : ∀ {xs : List Item} {bss : List Bytes}, EncodesAll xs bss →
    ∀ {d : Nat}, fitsAll d xs = true → ReadsAll t d xs bss
  | _, _, .nil, _, _ => .nil
  | _, _, .cons h hs, _, hf => by
    simp only [fitsAll, Bool.and_eq_true] at hf
    exact .cons (Spec.Encodes.reads h hf.1) (Spec.EncodesAll.reads hs hf.2)
theorem Spec.EncodesPairs.reads {t : Nat} : ∀ {kvs : List (Item × Item)} {bss : List Bytes},
    EncodesPairs kvs bss → ∀ {d : Nat}, fitsPairs d kvs = true → ReadsPairs t d kvs bss
  | _, _, .nil, _, _ => .nil
  | _, _, .cons (k := k) hk hv hs, _, hf => by
    simp only [fitsPairs, Bool.and_eq_true] at hf
    refine .cons ⟨[], k, rfl, by simp, hf.1.1.1, ?_⟩ (Spec.Encodes.reads hk hf.1.1.2)
      (Spec.Encodes.reads hv hf.1.2) (Spec.EncodesPairs.reads hs hf.2)
    rintro n rfl
    have := hf.1.1.2
    exact of_decide_eq_true this
end

/-- Any encoding of an item within the limits can be fetched and stepped over. -/
theorem encodes_run (P : QParams) {x : Item} {b : Bytes} (h : Encodes x b) (d : Nat)
    (hf : x.fits d = true) : ItemRun P d b := reads_run P (h.reads hf)

end TCose
