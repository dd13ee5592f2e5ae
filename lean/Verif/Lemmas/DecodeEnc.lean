import Verif.Lemmas.DecMap
import Verif.Lemmas.Head
import Verif.Spec.Message

/-!
# Decoder: reading back any encoding of an item
-/

namespace TCose
open Spec

theorem octetsVal_eq_beVal (b : Bytes) : octetsVal b = beVal b := by
  have key : ∀ (b : Bytes) (a : Nat),
      b.foldl (fun a x => a * 256 + x.toNat) a = a * 256 ^ b.length + beVal b := by
    intro b
    induction b with
    | nil => intro a; simp [beVal]
    | cons x b ih =>
      intro a
      rw [List.foldl_cons, ih, beVal, List.length_cons, Nat.pow_succ, Nat.add_mul]
      have : a * 256 * 256 ^ b.length = a * (256 ^ b.length * 256) := by
        rw [Nat.mul_assoc, Nat.mul_comm 256]
      omega
  unfold octetsVal
  rw [key b 0]
  simp

theorem Cur.adv_append (pos : Nat) (a r : Bytes) :
    Cur.adv ⟨pos, a ++ r⟩ a.length = ⟨pos + a.length, r⟩ := by
  unfold Cur.adv
  simp

theorem netOrder_length (k n : Nat) : (netOrder k n).length = k := by
  simp [netOrder]

theorem decodeHead_of {m n : Nat} {h : Bytes} (hh : HeadOf m n h) (hm : m < 8) (pos : Nat)
    (r : Bytes) : ∃ ai, ai ≠ 31 ∧
      decodeHead ⟨pos, h ++ r⟩ = (.ok (m, ai, n), ⟨pos + h.length, r⟩) := by
  cases hh with
  | direct hn =>
    refine ⟨n, by omega, ?_⟩
    have hb : (UInt8.ofNat (32 * m + n)).toNat = 32 * m + n := by
      rw [UInt8.toNat_ofNat']; omega
    unfold decodeHead
    simp only [List.cons_append, List.nil_append, hb]
    rw [if_pos (by omega)]
    have h1 : (32 * m + n) / 32 = m := by omega
    have h2 : (32 * m + n) % 32 = n := by omega
    rw [h1, h2]
    rfl
  | wide k hk hn =>
    refine ⟨24 + k, by omega, ?_⟩
    have hb : (UInt8.ofNat (32 * m + (24 + k))).toNat = 32 * m + (24 + k) := by
      rw [UInt8.toNat_ofNat']; omega
    unfold decodeHead
    simp only [List.cons_append, hb]
    have h1 : (32 * m + (24 + k)) / 32 = m := by omega
    have h2 : (32 * m + (24 + k)) % 32 = 24 + k := by omega
    rw [h1, h2, if_neg (by omega), if_pos (by omega)]
    have h3 : 24 + k - 24 = k := by omega
    rw [h3, if_neg (by simp [netOrder_length])]
    have h4 : List.take (2 ^ k) (netOrder (2 ^ k) n ++ r) = netOrder (2 ^ k) n := by
      rw [List.take_append_of_le_length (by simp [netOrder_length]),
        List.take_of_length_le (by simp [netOrder_length])]
    rw [h4, octetsVal_eq_beVal, ← beBytes_eq_netOrder, beVal_beBytes, Nat.mod_eq_of_lt hn]
    have h5 : Cur.adv ⟨pos + 1, beBytes (2 ^ k) n ++ r⟩ (2 ^ k) = ⟨pos + 1 + 2 ^ k, r⟩ := by
      have := Cur.adv_append (pos + 1) (beBytes (2 ^ k) n) r
      rwa [beBytes_length] at this
    rw [h5, List.length_cons, beBytes_length]
    congr 2
    omega

/-- What the decoder makes of an item that is neither tagged nor a container. -/
def AtomIs : Item → Val → Prop
  | .uint n, v => v = if n ≤ int64Max then .int n else .uint n
  | .nint n, v => v = .int (-1 - (n : Int))
  | .bstr b, v => ∃ off, v = .bstr ⟨off, b⟩
  | .tstr b, v => ∃ off, v = .tstr ⟨off, b⟩
  | .null, v => v = .null
  | .simple _, v => v = .other
  | .float _, v => v = .other
  | _, _ => False

/-- Not a tag, array or map. -/
def Spec.Item.isAtom : Item → Bool
  | .arr _ | .map _ | .tag _ _ => false
  | _ => true

theorem AtomIs.flat {x : Item} {v : Val} (h : AtomIs x v) (room : Nat) (st : List NLvl) (c : Cur) :
    v ≠ .brk ∧ push room v st c = .ok (ascend st c) := by
  cases x <;> simp only [AtomIs] at h
  · subst h; split <;> exact ⟨by simp, rfl⟩
  · subst h; exact ⟨by simp, rfl⟩
  · obtain ⟨o, rfl⟩ := h; exact ⟨by simp, rfl⟩
  · obtain ⟨o, rfl⟩ := h; exact ⟨by simp, rfl⟩
  all_goals (subst h; exact ⟨by simp, rfl⟩)

theorem decodeStr_of (mk : Str → Val) {ai : Nat} (ha : ai ≠ 31) (pos : Nat) (b r : Bytes) :
    decodeStr mk ai b.length ⟨pos, b ++ r⟩ = (.ok (.val (mk ⟨pos, b⟩)), ⟨pos + b.length, r⟩) := by
  unfold decodeStr
  rw [if_neg ha, if_neg (by simp), Cur.adv_append]
  simp

theorem decodeAtom_of {x : Item} {b : Bytes} (h : Encodes x b) (hx : x.isAtom = true) {d : Nat}
    (hf : x.fits d = true) (pos : Nat) (r : Bytes) :
    ∃ v, decodeAtom ⟨pos, b ++ r⟩ = (.ok (.val v), ⟨pos + b.length, r⟩) ∧ AtomIs x v := by
  cases h with
  | uint hh =>
    obtain ⟨ai, ha, hd⟩ := decodeHead_of hh (by omega) pos r
    unfold decodeAtom
    rw [hd]
    simp only [if_true, if_neg ha]
    exact ⟨_, rfl, rfl⟩
  | nint hh =>
    obtain ⟨ai, ha, hd⟩ := decodeHead_of hh (by omega) pos r
    unfold decodeAtom
    rw [hd]
    simp only [Item.fits, decide_eq_true_eq] at hf
    simp only [if_true, if_neg ha, if_pos hf, Nat.one_ne_zero, if_false]
    exact ⟨_, rfl, rfl⟩
  | @bstr b hd hh =>
    obtain ⟨ai, ha, hd'⟩ := decodeHead_of hh (by omega) pos (b ++ r)
    unfold decodeAtom
    rw [List.append_assoc, hd']
    simp only [if_true, Nat.reduceEqDiff, if_false]
    rw [decodeStr_of _ ha, List.length_append, Nat.add_assoc]
    exact ⟨_, rfl, _, rfl⟩
  | @tstr b hd hh =>
    obtain ⟨ai, ha, hd'⟩ := decodeHead_of hh (by omega) pos (b ++ r)
    unfold decodeAtom
    rw [List.append_assoc, hd']
    simp only [if_true, Nat.reduceEqDiff, if_false]
    rw [decodeStr_of _ ha, List.length_append, Nat.add_assoc]
    exact ⟨_, rfl, _, rfl⟩
  | arr => cases hx
  | arrIndef => cases hx
  | map => cases hx
  | mapIndef => cases hx
  | tag => cases hx
  | null => exact ⟨.null, rfl, rfl⟩
  | @simple n h1 h2 =>
    have hh : HeadOf 7 n [UInt8.ofNat (0xe0 + n)] := HeadOf.direct h1
    have hb : (UInt8.ofNat (0xe0 + n)).toNat = 0xe0 + n := by rw [UInt8.toNat_ofNat']; omega
    refine ⟨.other, ?_, rfl⟩
    unfold decodeAtom decodeHead
    simp only [List.cons_append, List.nil_append, hb]
    have e1 : (0xe0 + n) / 32 = 7 := by omega
    have e2 : (0xe0 + n) % 32 = n := by omega
    rw [e1, e2, if_pos h1]
    simp only [Nat.reduceEqDiff, if_false]
    unfold decodeType7
    rw [if_neg (by omega), if_neg h2, if_neg (by omega)]
    rfl
  | @simple8 n h1 h2 =>
    refine ⟨.other, ?_, rfl⟩
    have hb : (UInt8.ofNat n).toNat = n := by rw [UInt8.toNat_ofNat']; omega
    have : decodeHead ⟨pos, [0xf8, UInt8.ofNat n] ++ r⟩ = (.ok (7, 24, n), ⟨pos + 2, r⟩) := by
      unfold decodeHead
      simp [octetsVal, Cur.adv]
      omega
    unfold decodeAtom
    rw [this]
    simp only [Nat.reduceEqDiff, if_false]
    unfold decodeType7
    rw [if_neg (by omega), if_neg (by omega), if_neg (by omega)]
    rfl
  | @float b k h1 h2 h3 =>
    refine ⟨.other, ?_, rfl⟩
    have hb : (UInt8.ofNat (0xf8 + k)).toNat = 0xf8 + k := by rw [UInt8.toNat_ofNat']; omega
    have : decodeHead ⟨pos, UInt8.ofNat (0xf8 + k) :: b ++ r⟩ =
        (.ok (7, 24 + k, octetsVal b), ⟨pos + (b.length + 1), r⟩) := by
      unfold decodeHead
      simp only [List.cons_append, hb]
      have e1 : (0xf8 + k) / 32 = 7 := by omega
      have e2 : (0xf8 + k) % 32 = 24 + k := by omega
      have e3 : 24 + k - 24 = k := by omega
      rw [e1, e2, e3, if_neg (by omega), if_pos (by omega), ← h3,
        if_neg (by simp), Cur.adv_append]
      simp
      omega
    unfold decodeAtom
    rw [this]
    simp only [Nat.reduceEqDiff, if_false]
    unfold decodeType7
    rw [if_neg (by omega), if_neg (by omega), if_neg (by omega)]
    rfl

/-- The first octet is not the break code. -/
def FirstOk (b : Bytes) : Prop := ∃ x t, b = x :: t ∧ x ≠ 0xff

theorem Spec.HeadOf.first {m n : Nat} {h : Bytes} (hh : HeadOf m n h) (r : Bytes) :
    FirstOk (h ++ r) := by
  have key : ∀ k, k < 31 → UInt8.ofNat (32 * m + k) ≠ 0xff := by
    intro k hk hc
    have := congrArg UInt8.toNat hc
    rw [UInt8.toNat_ofNat'] at this
    simp at this
    omega
  cases hh with
  | direct hn => exact ⟨_, _, rfl, key _ (by omega)⟩
  | wide k hk hn => exact ⟨_, _, rfl, key _ (by omega)⟩

theorem Spec.Encodes.first {x : Item} {b : Bytes} (h : Encodes x b) : FirstOk b := by
  cases h with
  | uint hh => simpa using hh.first []
  | nint hh => simpa using hh.first []
  | bstr hh => exact hh.first _
  | tstr hh => exact hh.first _
  | arr hh _ => exact hh.first _
  | arrIndef => exact ⟨_, _, rfl, by decide⟩
  | map hh _ => exact hh.first _
  | mapIndef => exact ⟨_, _, rfl, by decide⟩
  | tag hh _ => exact hh.first _
  | null => exact ⟨_, _, rfl, by decide⟩
  | @simple n h1 h2 =>
    refine ⟨_, _, rfl, fun hc => ?_⟩
    have := congrArg UInt8.toNat hc
    rw [UInt8.toNat_ofNat'] at this
    simp at this
    omega
  | simple8 => exact ⟨_, _, rfl, by decide⟩
  | float k h1 h2 h3 =>
    refine ⟨_, _, rfl, fun hc => ?_⟩
    have := congrArg UInt8.toNat hc
    rw [UInt8.toNat_ofNat'] at this
    simp at this
    omega

theorem FirstOk.length {b : Bytes} (h : FirstOk b) : 0 < b.length := by
  obtain ⟨x, t, rfl, -⟩ := h; simp

/-- After the head of an item was read at `c1`, stepping over the item leads to
where `cE`, the position behind it, leads. -/
def PushRun (P : QParams) (room : Nat) (v : Val) (st : List NLvl) (c1 cE : Cur) : Prop :=
  ∃ st' c2, push room v st c1 = .ok (st', c2) ∧
    skipAll P room st' c2 = skipAll P room (ascend st cE).1 (ascend st cE).2

theorem PushRun.skipValue {P : QParams} {room : Nat} {v : Val} {c1 cE : Cur}
    (h : PushRun P room v [] c1 cE) : skipValue P room v c1 = .ok cE := by
  obtain ⟨st', c2, h1, h2⟩ := h
  unfold TCose.skipValue
  rw [h1]
  simp only [h2, ascend, skipAll_nil]

/-- One array element or map entry, encoded as `s`: it can be fetched, and
stepped over with `d` more levels. -/
def SlotRun (P : QParams) (m : Bool) (d : Nat) (s : Bytes) : Prop :=
  FirstOk s ∧ ∀ room st pos r, st.length + d ≤ room → ∃ l it c1,
    entry P m ⟨pos, s ++ r⟩ = (.ok (l, it), c1) ∧
    PushRun P room it.val st c1 ⟨pos + s.length, r⟩

/-- How a container with `n` elements still to come ends: by count, or with a
break. -/
def EndsBy (left : Option Nat) (n : Nat) (r r' : Bytes) (k : Nat) : Prop :=
  (left = some n ∧ r = r' ∧ k = 0) ∨ (left = none ∧ r = 0xff :: r' ∧ k = 1)

theorem EndsBy.last {left : Option Nat} {r r' : Bytes} {k : Nat} (h : EndsBy left 1 r r' k)
    (m : Bool) (st : List NLvl) (pos : Nat) :
    ascend (⟨m, left⟩ :: st) ⟨pos, r⟩ = ascend st ⟨pos + k, r'⟩ := by
  rcases h with ⟨rfl, rfl, rfl⟩ | ⟨rfl, rfl, rfl⟩
  · rw [ascend, if_pos (by omega)]; rfl
  · have h : List.head? ({ pos := pos, rest := 0xff :: r' } : Cur).rest = some 0xff := rfl
    rw [ascend, if_pos h]; rfl

theorem EndsBy.more {left : Option Nat} {n : Nat} {r r' : Bytes} {k : Nat}
    (h : EndsBy left (n + 2) r r' k) {s : Bytes} (hs : FirstOk s)
    (m : Bool) (st : List NLvl) (pos : Nat) (t : Bytes) :
    ∃ left', EndsBy left' (n + 1) r r' k ∧
      ascend (⟨m, left⟩ :: st) ⟨pos, s ++ t⟩ = (⟨m, left'⟩ :: st, ⟨pos, s ++ t⟩) := by
  obtain ⟨x, s', rfl, hx⟩ := hs
  rcases h with ⟨rfl, rfl, rfl⟩ | ⟨rfl, rfl, rfl⟩
  · exact ⟨some (n + 1), .inl ⟨rfl, rfl, rfl⟩, by rw [ascend, if_neg (by omega)]; rfl⟩
  · refine ⟨none, .inr ⟨rfl, rfl, rfl⟩, ?_⟩
    rw [ascend, if_neg (by simpa using hx)]

/-- Stepping over all elements of a container. -/
theorem slots_run {P : QParams} {m : Bool} {d : Nat} {room : Nat} {st : List NLvl} {r r' : Bytes}
    {k : Nat} : ∀ (ss : List Bytes) (left : Option Nat) (pos : Nat), ss ≠ [] →
    (∀ s ∈ ss, SlotRun P m d s) → st.length + 1 + d ≤ room → EndsBy left ss.length r r' k →
    skipAll P room (⟨m, left⟩ :: st) ⟨pos, ss.flatten ++ r⟩ =
      skipAll P room (ascend st ⟨pos + ss.flatten.length + k, r'⟩).1
        (ascend st ⟨pos + ss.flatten.length + k, r'⟩).2 := by
  intro ss
  induction ss with
  | nil => intro _ _ h; exact absurd rfl h
  | cons s ss ih =>
    intro left pos _ hss hroom hend
    obtain ⟨hf, hs⟩ := hss s (List.mem_cons_self ..)
    obtain ⟨l, it, c1, he, st', c2, hp, hr⟩ := hs room (⟨m, left⟩ :: st) pos (ss.flatten ++ r)
      (by simp only [List.length_cons]; omega)
    rw [List.flatten_cons, List.append_assoc, skipAll_cons]
    obtain ⟨x, s', rfl, hx⟩ := hf
    rw [if_neg (by simp)]
    simp only [he, hp, hr]
    rw [List.length_append, ← Nat.add_assoc]
    cases ss with
    | nil =>
      rw [List.flatten_nil, List.nil_append, hend.last]
      rfl
    | cons s2 ss =>
      have h2 := (hss s2 (by simp)).1
      have hlen : EndsBy left (ss.length + 2) r r' k := hend
      obtain ⟨left', he', ha⟩ := hlen.more h2 m st (pos + (x :: s').length) (ss.flatten ++ r)
      rw [List.flatten_cons, List.append_assoc, ha]
      have := ih left' (pos + (x :: s').length) (by simp)
        (fun s hs => hss s (List.mem_cons_of_mem _ hs)) hroom he'
      rw [List.flatten_cons, List.append_assoc] at this
      exact this

/-- Reading all elements of a container. -/
theorem slots_traverse {α : Type} {P : QParams} {m : Bool} {d : Nat} {room : Nat}
    {Q : α → Entry → Prop}
    {r r' : Bytes} {k : Nat} (hroom : d ≤ room) :
    ∀ (as : List α) (ss : List Bytes) (left : Option Nat) (pos fuel : Nat), ss ≠ [] →
    (∀ s ∈ ss, SlotRun P m d s) →
    Each (fun a s => ∀ pos r, ∃ l it c1, entry P m ⟨pos, s ++ r⟩ = (.ok (l, it), c1) ∧
      Q a ⟨l, it, c1⟩) as ss →
    EndsBy left ss.length r r' k → (ss.flatten ++ r).length < fuel →
    ∃ es, traverse P m room fuel left ⟨pos, ss.flatten ++ r⟩ =
        .ok (es, ⟨pos + ss.flatten.length + k, r'⟩) ∧ Each Q as es := by
  intro as ss
  induction ss generalizing as with
  | nil => intro _ _ _ h; exact absurd rfl h
  | cons s ss ih =>
    intro left pos fuel _ hss hq hend hfuel
    cases hq with
    | @cons a _ as _ hq1 hq2 =>
    obtain ⟨hf, hs⟩ := hss s (List.mem_cons_self ..)
    obtain ⟨l, it, c1, he, hp⟩ := hs room [] pos (ss.flatten ++ r) (by simpa using hroom)
    obtain ⟨l', it', c1', he', hQ⟩ := hq1 pos (ss.flatten ++ r)
    rw [he] at he'
    simp only [Prod.mk.injEq, Except.ok.injEq] at he'
    obtain ⟨⟨rfl, rfl⟩, rfl⟩ := he'
    have hpos := hf.length
    obtain ⟨x, s', rfl, hx⟩ := hf
    cases fuel with
    | zero => omega
    | succ fuel =>
    rw [List.flatten_cons, List.append_assoc, traverse, if_neg (by simp)]
    simp only [he, hp.skipValue]
    cases ss with
    | nil =>
      cases hq2
      rw [List.flatten_nil, List.nil_append, hend.last]
      refine ⟨[⟨l, it, c1⟩], ?_, .cons hQ .nil⟩
      simp [ascend]
    | cons s2 ss =>
      have h2 := (hss s2 (by simp)).1
      have hlen : EndsBy left (ss.length + 2) r r' k := hend
      obtain ⟨left', he', ha⟩ := hlen.more h2 m [] (pos + (x :: s').length) (ss.flatten ++ r)
      rw [List.flatten_cons, List.append_assoc, ha]
      obtain ⟨es, ht, hes⟩ := ih as left' (pos + (x :: s').length) fuel (by simp)
        (fun s hs => hss s (List.mem_cons_of_mem _ hs)) hq2 he'
        (by simp only [List.flatten_cons, List.length_append, List.length_cons] at hfuel hpos ⊢
            omega)
      rw [List.flatten_cons, List.append_assoc] at ht
      simp only [ht]
      refine ⟨⟨l, it, c1⟩ :: es, ?_, .cons hQ hes⟩
      rw [List.length_append (as := x :: s')]
      simp only [Nat.add_assoc]

/-- An item encoded as `b` can be fetched, and stepped over with `d` levels. -/
def ItemRun (P : QParams) (d : Nat) (b : Bytes) : Prop :=
  FirstOk b ∧ ∀ room st pos r, st.length + d ≤ room → ∀ fuel tags over, b.length < fuel →
    ∃ it c1, nextTagged P fuel ⟨pos, b ++ r⟩ tags over = (.ok it, c1) ∧ it.val ≠ .brk ∧
      PushRun P room it.val st c1 ⟨pos + b.length, r⟩

theorem tagContent_run {P : QParams} {room : Nat} {it : Itm} {st : List NLvl} {c1 cE : Cur}
    (hb : it.val ≠ .brk) (h : PushRun P room it.val st c1 cE) :
    (tagContent P it).val ≠ .brk ∧ PushRun P room (tagContent P it).val st c1 cE := by
  obtain ⟨v, tags, err⟩ := it
  unfold tagContent
  split
  · exact ⟨hb, h⟩
  · cases v with
    | arr n => exact ⟨hb, h⟩
    | map n => exact ⟨hb, h⟩
    | brk => exact absurd rfl hb
    | _ =>
      simp only
      split
      · exact ⟨hb, h⟩
      · exact ⟨by simp, h⟩
      · exact ⟨by simp, h⟩

theorem ItemRun.slot {P : QParams} {d : Nat} {b : Bytes} (h : ItemRun P d b) :
    SlotRun P false d b := by
  refine ⟨h.1, fun room st pos r hroom => ?_⟩
  obtain ⟨it, c1, h1, h2, h3⟩ := h.2 room st pos r hroom ((b ++ r).length + 1) [] false
    (by simp; omega)
  obtain ⟨h4, h5⟩ := tagContent_run h2 h3
  refine ⟨none, tagContent P it, c1, ?_, h5⟩
  unfold entry nextItem nextRaw
  simp only [Bool.false_eq_true, if_false, h1, if_neg h4]

theorem nextTagged_val {P : QParams} {fuel : Nat} {c c1 : Cur} {tags : List Nat} {over : Bool}
    {v : Val} (hf : 0 < fuel) (h : decodeAtom c = (.ok (.val v), c1)) :
    nextTagged P fuel c tags over = (.ok ⟨v, tags, if over then some .tooManyTags else none⟩, c1) := by
  cases fuel with
  | zero => omega
  | succ n => rw [nextTagged, h]

theorem Spec.EncodesAll.length {xs : List Item} {bss : List Bytes} (h : EncodesAll xs bss) :
    bss.length = xs.length := by
  induction xs generalizing bss with
  | nil => cases h; rfl
  | cons x xs ih => cases h with | cons h1 h2 => simp [ih h2]

theorem Spec.EncodesPairs.length {kvs : List (Item × Item)} {bss : List Bytes}
    (h : EncodesPairs kvs bss) : bss.length = kvs.length := by
  induction kvs generalizing bss with
  | nil => cases h; rfl
  | cons x xs ih => cases h with | cons h1 h2 h3 => simp [ih h3]

/-- A container's head with `n` elements was read (`desc`): step over them. -/
theorem push_slots {P : QParams} {m : Bool} {d room : Nat} {st : List NLvl} {r r' : Bytes} {k : Nat}
    {ss : List Bytes} {left : Option Nat} {pos : Nat} (hss : ∀ s ∈ ss, SlotRun P m d s)
    (hroom : st.length + 1 + d ≤ room) (hend : EndsBy left ss.length r r' k) :
    PushRun P room (if m then .map left else .arr left) st ⟨pos, ss.flatten ++ r⟩
      ⟨pos + ss.flatten.length + k, r'⟩ := by
  have hlt : ¬ st.length ≥ room := by omega
  cases ss with
  | nil =>
    rcases hend with ⟨rfl, rfl, rfl⟩ | ⟨rfl, rfl, rfl⟩
    · refine ⟨_, _, by cases m <;> rfl, ?_⟩
      rfl
    · have h : List.head? ({ pos := pos, rest := 0xff :: r' } : Cur).rest = some 0xff := rfl
      refine ⟨_, _, ?_, rfl⟩
      cases m <;> simp only [push, if_neg hlt, Bool.false_eq_true, if_false, if_true,
        List.flatten_nil, List.nil_append] <;> rw [ascend, if_pos h] <;> rfl
  | cons s ss =>
    have hrun := slots_run (P := P) (s :: ss) left pos (by simp) hss hroom hend
    have hf := (hss s (by simp)).1
    refine ⟨⟨m, left⟩ :: st, _, ?_, hrun⟩
    obtain ⟨x, s', rfl, hx⟩ := hf
    rcases hend with ⟨rfl, rfl, rfl⟩ | ⟨rfl, rfl, rfl⟩
    · cases m <;> simp only [push, List.length_cons, if_neg hlt, Bool.false_eq_true, if_false, if_true]
    · have h : ¬ (List.head? ({ pos := pos, rest := ((x :: s') :: ss).flatten ++ 0xff :: r' } : Cur).rest
          = some 0xff) := by simpa using hx
      cases m <;> simp only [push, if_neg hlt, Bool.false_eq_true, if_false, if_true] <;>
        rw [ascend, if_neg h]

theorem decodeAtom_arr {n : Nat} {h : Bytes} (hh : HeadOf 4 n h) (hn : n ≤ 65534) (pos : Nat)
    (r : Bytes) : decodeAtom ⟨pos, h ++ r⟩ = (.ok (.val (.arr (some n))), ⟨pos + h.length, r⟩) := by
  obtain ⟨ai, ha, hd⟩ := decodeHead_of hh (by omega) pos r
  unfold decodeAtom
  rw [hd]
  simp only [Nat.reduceEqDiff, if_false, if_true, if_neg ha]
  rw [if_neg (by omega)]

theorem decodeAtom_map {n : Nat} {h : Bytes} (hh : HeadOf 5 n h) (hn : n ≤ 32767) (pos : Nat)
    (r : Bytes) : decodeAtom ⟨pos, h ++ r⟩ = (.ok (.val (.map (some n))), ⟨pos + h.length, r⟩) := by
  obtain ⟨ai, ha, hd⟩ := decodeHead_of hh (by omega) pos r
  unfold decodeAtom
  rw [hd]
  simp only [Nat.reduceEqDiff, if_false, if_true, if_neg ha]
  rw [if_neg (by omega)]

theorem decodeAtom_tag {n : Nat} {h : Bytes} (hh : HeadOf 6 n h) (pos : Nat)
    (r : Bytes) : decodeAtom ⟨pos, h ++ r⟩ = (.ok (.tag n), ⟨pos + h.length, r⟩) := by
  obtain ⟨ai, ha, hd⟩ := decodeHead_of hh (by omega) pos r
  unfold decodeAtom
  rw [hd]
  simp only [Nat.reduceEqDiff, if_false, if_true, if_neg ha]

theorem decodeAtom_arrIndef (pos : Nat) (r : Bytes) :
    decodeAtom ⟨pos, 0x9f :: r⟩ = (.ok (.val (.arr none)), ⟨pos + 1, r⟩) := rfl

theorem decodeAtom_mapIndef (pos : Nat) (r : Bytes) :
    decodeAtom ⟨pos, 0xbf :: r⟩ = (.ok (.val (.map none)), ⟨pos + 1, r⟩) := rfl

end TCose
