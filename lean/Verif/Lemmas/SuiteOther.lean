import Verif.Lemmas.SuiteGood

/-! Helper lemmas for C69: two messages whose outcome depends on the payload. -/

namespace TCose
open Spec TestMsg Props

/-- Parameters after the usual protected header. -/
def es256Params : Params := { Params.clear with alg := -7 }

theorem enter_es256 (x : Bytes) (n : Nat) :
    (⟨⟨2, 0x43 :: 0xa1 :: 0x01 :: 0x26 :: x⟩, [.arr (some (n + 1))], none, [18]⟩ :
      Dec).enterBstrWrapped QParams.std =
    (⟨⟨3, [0xa1, 0x01, 0x26]⟩, [.wrap ⟨6, x⟩, .arr (some (n + 1))], none, []⟩,
      some (some ⟨3, [0xa1, 0x01, 0x26]⟩)) := by
  rfl

theorem prot_es256 (cfg : Config) (x : Bytes) (n : Nat) :
    parseProtected cfg QParams.std (.slice ⟨3, [0xa1, 0x01, 0x26]⟩)
      ⟨⟨⟨3, [0xa1, 0x01, 0x26]⟩, [.wrap ⟨6, x⟩, .arr (some (n + 1))], none, []⟩,
        Params.clear, LabelList.clear, LabelList.clear⟩ =
    (.ok (), ⟨⟨⟨6, []⟩, [.wrap ⟨6, x⟩, .arr (some (n + 1))], none, []⟩,
        es256Params, LabelList.clear, LabelList.clear⟩) := by
  obtain ⟨a, b, c, d, e, f, g, h⟩ := cfg
  cases h <;> rfl

theorem body_es256 (cfg : Config) (x : Bytes) (n : Nat) (pay : VPayload) (junk : Junk) {y : Err}
    {st : Parse} (h : parseHeader cfg QParams.std false
      ⟨⟨⟨6, x⟩, [.arr (some n)], none, []⟩, es256Params, LabelList.clear, LabelList.clear⟩ =
        (.error y, st)) :
    decodeBody cfg QParams.std
      ⟨⟨2, 0x43 :: 0xa1 :: 0x01 :: 0x26 :: x⟩, [.arr (some (n + 1))], none, [18]⟩ pay junk =
        (.error y, st) := by
  unfold decodeBody
  rw [enter_es256]
  simp only [wrapOut]
  rw [prot_es256]
  simp only [Dec.exitBstrWrapped, Dec.done, Dec.itemDone, Option.isSome_none, Bool.false_eq_true,
    if_false, Nat.add_sub_cancel]
  rw [h]

/-- A message that starts with the usual protected header is refused when its
unprotected header is. -/
theorem verify_es256 {cfg : Config} {C : Crypto} {junk : Junk} {n : Nat} {x : Bytes} {y : Err}
    {aad : UB} {pay : VPayload} {want : Bool}
    {h0 : UInt8} (hh : (n = 2 ∧ h0 = 0x83) ∨ (n = 3 ∧ h0 = 0x84)) {st : Parse}
    (hl : x.length + 6 ≤ maxDecodeInput)
    (h : parseHeader cfg QParams.std false
      ⟨⟨⟨6, x⟩, [.arr (some n)], none, []⟩, es256Params, LabelList.clear, LabelList.clear⟩ =
        (.error y, st)) :
    (verifyInternal cfg QParams.std C junk (VerifyCtx.init SuiteTest.shortCircuitFlag)
      (0xd2 :: h0 :: 0x43 :: 0xa1 :: 0x01 :: 0x26 :: x) aad pay want).res = .error y := by
  have he : (Dec.init (0xd2 :: h0 :: 0x43 :: 0xa1 :: 0x01 :: 0x26 :: x)).enterArray QParams.std =
      ⟨⟨2, 0x43 :: 0xa1 :: 0x01 :: 0x26 :: x⟩, [.arr (some (n + 1))], none, [18]⟩ := by
    unfold Dec.init
    rw [if_neg (by simp only [List.length_cons]; omega)]
    rcases hh with ⟨rfl, rfl⟩ | ⟨rfl, rfl⟩ <;> rfl
  apply verify_of_decode_error
  refine .inr ⟨by rw [he], .inr ⟨?_, ?_⟩⟩
  · rw [he]; rfl
  · rw [he, body_es256 cfg x n pay junk h]

theorem header_not_map {cfg : Config} {P : QParams} {n : Nat} {w r : Bytes} (hw : w.length < 2 ^ 64)
    {p : Params} {cr un : LabelList} :
    ∃ st, parseHeader cfg P false
      ⟨⟨⟨6, bstrBytes w ++ r⟩, [.arr (some (n + 1))], none, []⟩, p, cr, un⟩ =
        (.error .parameterCbor, st) := by
  have he : Encodes (.bstr w) (bstrBytes w) := by
    rw [← bstr_enc]
    refine enc_encodes _ ?_
    unfold Spec.Item.small
    exact hw
  obtain ⟨v, hv, hi⟩ := decodeAtom_of he rfl (d := 0) rfl 6 r
  obtain ⟨o, rfl⟩ := hi
  have hne : bstrBytes w ++ r ≠ [] := by
    intro h
    rw [h] at hv
    cases hv
  have hf : (⟨⟨6, bstrBytes w ++ r⟩, [.arr (some (n + 1))], none, []⟩ : Dec).enterMap P =
      ⟨⟨6 + (bstrBytes w).length, r⟩, [.arr (some (n + 1))], some .unexpectedType, []⟩ := by
    unfold Dec.enterMap Dec.fetch
    rw [show (⟨⟨6, bstrBytes w ++ r⟩, [.arr (some (n + 1))], none, []⟩ : Dec).atEnd = false from rfl]
    rw [if_neg (by simp), if_neg (by simpa using hne)]
    rw [entry_arr (nextItem_val hv) (by simp)]
  unfold parseHeader
  simp only
  rw [hf]
  exact ⟨_, rfl⟩

/-- The text head 0x78 0x78 asks for 120 octets. -/
theorem header_cut {cfg : Config} {n : Nat} {x : Bytes} (hx : x.length ≤ 120)
    {p : Params} {cr un : LabelList} :
    ∃ st, parseHeader cfg QParams.std false
      ⟨⟨⟨6, 0xa1 :: 0x78 :: 0x78 :: x⟩, [.arr (some (n + 1))], none, []⟩, p, cr, un⟩ =
        (.error .cborNotWellFormed, st) := by
  have hf : (⟨⟨6, 0xa1 :: 0x78 :: 0x78 :: x⟩, [.arr (some (n + 1))], none, []⟩ :
      Dec).enterMap QParams.std =
      ⟨⟨7, 0x78 :: 0x78 :: x⟩, [.map ⟨7, 0x78 :: 0x78 :: x⟩ (some 1), .arr (some (n + 1))],
        none, []⟩ := rfl
  have he : ∃ c, entry QParams.std true ⟨7, 0x78 :: 0x78 :: x⟩ = (.error .hitEnd, c) := by
    have hd : decodeHead ⟨7, 0x78 :: 0x78 :: x⟩ = (.ok (3, 24, 120), ⟨9, x⟩) := rfl
    by_cases h : x.length < 120
    · have ha : decodeAtom ⟨7, 0x78 :: 0x78 :: x⟩ = (.error .hitEnd, ⟨9, x⟩) := by
        unfold decodeAtom
        rw [hd]
        simp only [Nat.reduceEqDiff, if_false, if_true]
        unfold decodeStr
        rw [if_neg (by decide), if_pos h]
      unfold entry nextRaw nextTagged
      rw [ha]
      exact ⟨_, rfl⟩
    · have ha : decodeAtom ⟨7, 0x78 :: 0x78 :: x⟩ = (.ok (.val (.tstr ⟨9, x⟩)), ⟨129, []⟩) := by
        have h120 : x.length = 120 := by omega
        unfold decodeAtom
        rw [hd]
        simp only [Nat.reduceEqDiff, if_false, if_true]
        unfold decodeStr
        rw [if_neg (by decide), if_neg h]
        simp [Cur.adv, List.take_of_length_le hx, List.drop_eq_nil_of_le hx]
      unfold entry nextRaw nextTagged
      rw [ha]
      exact ⟨_, rfl⟩
  obtain ⟨c, he⟩ := he
  have hs : ∀ k s, searchLoop QParams.std k headerQs headerCb
      ((0x78 :: 0x78 :: x : Bytes).length + 1) (some 1) ⟨7, 0x78 :: 0x78 :: x⟩ [] s =
        (.error .hitEnd, s) := by
    intro k s
    rw [searchLoop, if_neg (by simp), he]
  unfold parseHeader
  simp only
  rw [hf]
  unfold Dec.getItemsInMap Dec.mapSearch
  simp only [Option.isSome_none, Bool.false_eq_true, if_false]
  rw [hs]
  exact ⟨_, rfl⟩

end TCose
