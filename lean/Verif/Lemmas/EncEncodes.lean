import Verif.Lemmas.MessageDecodes
import Verif.Lemmas.SignMain

/-!
# The messages t_cose makes are encodings of valid messages
-/

namespace TCose
open Spec

theorem head_of {m n : Nat} (hn : n < 2 ^ 64) : HeadOf m n (Spec.head m n) := by
  unfold Spec.head
  by_cases h1 : n ≤ 23
  · rw [if_pos h1]; exact .direct (by omega)
  rw [if_neg h1]
  by_cases h2 : n ≤ 0xff
  · rw [if_pos h2]; exact .wide 0 (by omega) (by simp; omega)
  rw [if_neg h2]
  by_cases h3 : n ≤ 0xffff
  · rw [if_pos h3]; exact .wide 1 (by omega) (by simp; omega)
  rw [if_neg h3]
  by_cases h4 : n ≤ 0xffffffff
  · rw [if_pos h4]; exact .wide 2 (by omega) (by simp; omega)
  rw [if_neg h4]
  exact .wide 3 (by omega) (by simp; omega)

mutual
/-- Numbers and lengths fit 64 bits, simple values and floats exist. -/
def Spec.Item.small : Item → Prop
  | .uint n | .nint n => n < 2 ^ 64
  | .bstr b | .tstr b => b.length < 2 ^ 64
  | .arr xs => xs.length < 2 ^ 64 ∧ smallAll xs
  | .map kvs => kvs.length < 2 ^ 64 ∧ smallPairs kvs
  | .tag n x => n < 2 ^ 64 ∧ x.small
  | .null => True
  | .simple n => n < 24 ∧ n ≠ 22 ∨ 32 ≤ n ∧ n < 256
  | .float b => b.length = 2 ∨ b.length = 4 ∨ b.length = 8
def smallAll : List Item → Prop
  | [] => True
  | x :: xs => x.small ∧ smallAll xs
def smallPairs : List (Item × Item) → Prop
  | [] => True
  | (k, v) :: r => k.small ∧ v.small ∧ smallPairs r
end

mutual
theorem enc_encodes : ∀ (x : Item), x.small → Encodes x x.enc
  | .uint n, h => by unfold Spec.Item.enc; exact .uint (head_of h)
  | .nint n, h => by unfold Spec.Item.enc; exact .nint (head_of h)
  | .bstr b, h => by unfold Spec.Item.enc; exact .bstr (head_of h)
  | .tstr b, h => by unfold Spec.Item.enc; exact .tstr (head_of h)
  | .arr xs, h => by
    unfold Spec.Item.small at h
    unfold Spec.Item.enc
    obtain ⟨bss, h1, h2⟩ := encList_encodes xs h.2
    rw [h2]
    exact .arr (head_of h.1) h1
  | .map kvs, h => by
    unfold Spec.Item.small at h
    unfold Spec.Item.enc
    obtain ⟨bss, h1, h2⟩ := encPairs_encodes kvs h.2
    rw [h2]
    exact .map (head_of h.1) h1
  | .tag n x, h => by
    unfold Spec.Item.small at h
    unfold Spec.Item.enc
    exact .tag (head_of h.1) (enc_encodes x h.2)
  | .null, _ => by unfold Spec.Item.enc; exact .null
  | .simple n, h => by
    unfold Spec.Item.small at h
    unfold Spec.Item.enc Spec.head
    rcases h with ⟨h1, h2⟩ | ⟨h1, h2⟩
    · rw [if_pos (by omega)]; exact .simple h1 h2
    · rw [if_neg (by omega), if_pos (by omega)]
      have : netOrder 1 n = [UInt8.ofNat n] := by
        simp [netOrder, List.range_succ]
      rw [this]
      exact .simple8 h1 h2
  | .float b, h => by
    unfold Spec.Item.small at h
    unfold Spec.Item.enc
    rcases h with h | h | h
    · rw [if_pos h]; exact .float 1 (by omega) (by omega) h
    · rw [if_neg (by omega), if_pos h]; exact .float 2 (by omega) (by omega) h
    · rw [if_neg (by omega), if_neg (by omega)]; exact .float 3 (by omega) (by omega) h
theorem encList_encodes : ∀ (xs : List Item), smallAll xs →
    ∃ bss, EncodesAll xs bss ∧ encList xs = bss.flatten
  | [], _ => ⟨[], .nil, by unfold encList; rfl⟩
  | x :: xs, h => by
    unfold smallAll at h
    obtain ⟨bss, h1, h2⟩ := encList_encodes xs h.2
    refine ⟨_, .cons (enc_encodes x h.1) h1, ?_⟩
    unfold encList
    rw [h2]; rfl
theorem encPairs_encodes : ∀ (kvs : List (Item × Item)), smallPairs kvs →
    ∃ bss, EncodesPairs kvs bss ∧ encPairs kvs = bss.flatten
  | [], _ => ⟨[], .nil, by unfold encPairs; rfl⟩
  | (k, v) :: r, h => by
    unfold smallPairs at h
    obtain ⟨bss, h1, h2⟩ := encPairs_encodes r h.2.2
    refine ⟨_, .cons (enc_encodes k h.1) (enc_encodes v h.2.1) h1, ?_⟩
    unfold encPairs
    rw [h2]; rfl
end

/-- The unprotected parameters of a message made by t_cose. -/
def signedUnprot (kid : Option Bytes) (ct : ContentType) : Header :=
  (match kid with | some k => [(.int 4, .bstr k)] | none => []) ++
  (match ct with
    | .none => []
    | .num n => [(.int 3, .uint n)]
    | .text t => [(.int 3, .tstr t)])

/-- The message made by t_cose. -/
def signedMessage (tag : Bool) (alg : Int) (kid : Option Bytes) (ct : ContentType)
    (payload : Option Bytes) (sig : Bytes) : Message :=
  { tags := if tag then [18] else [], prot := [(.int 1, Spec.int alg)],
    unprot := signedUnprot kid ct, payload := payload, sig := sig }

theorem int_small {i : Int} (h : InInt64 i) : (Spec.int i).small := by
  unfold InInt64 at h
  unfold Spec.int
  split <;> (unfold Spec.Item.small; omega)

theorem signedUnprot_item (kid : Option Bytes) (ct : ContentType) :
    Header.item (signedUnprot kid ct) = unprotectedHeader kid ct := by
  unfold signedUnprot unprotectedHeader Header.item
  cases kid <;> cases ct <;> rfl

theorem signed_encoded {tag : Bool} {alg : Int} {kid : Option Bytes} {ct : ContentType}
    {payload : Option Bytes} {sig : Bytes} (ha : InInt64 alg)
    (hlen : (coseSign1 tag alg kid ct payload sig).enc.length < 2 ^ 64)
    (hct : ∀ n, ct = .num n → n ≤ 65535) :
    (signedMessage tag alg kid ct payload sig).Encoded (protectedHeader alg)
      (coseSign1 tag alg kid ct payload sig).enc := by
  have hia := int_small ha
  have hprot : (Header.item [(Label.int 1, Spec.int alg)]) = .map [(.uint 1, Spec.int alg)] := rfl
  constructor
  · right
    unfold signedMessage protectedHeader
    rw [hprot]
    apply enc_encodes
    simp only [Spec.Item.small, smallPairs]
    exact ⟨by simp, by decide, hia, trivial⟩
  · have heq : tagged (signedMessage tag alg kid ct payload sig).tags
        ((signedMessage tag alg kid ct payload sig).body (protectedHeader alg)) =
        coseSign1 tag alg kid ct payload sig := by
      unfold coseSign1 signedMessage Message.body Message.payItem
      simp only [signedUnprot_item]
      cases tag <;> cases payload <;> rfl
    rw [heq]
    apply enc_encodes
    have hbody : ∀ (tag : Bool) (x : Item), (if tag then Item.tag 18 x else x).enc.length < 2 ^ 64 →
        (x.enc.length < 2 ^ 64 → x.small) → (if tag then Item.tag 18 x else x).small := by
      intro tag x h1 h2
      cases tag with
      | false => exact h2 h1
      | true =>
        simp only [if_true] at h1 ⊢
        unfold Spec.Item.small
        refine ⟨by decide, h2 ?_⟩
        unfold Spec.Item.enc at h1
        rw [List.length_append] at h1
        omega
    unfold coseSign1 at hlen ⊢
    refine hbody tag _ hlen fun hl => ?_
    simp only [Spec.Item.enc, encList, List.length_append, unprotectedHeader] at hl
    simp only [Spec.Item.small, smallAll, List.length_cons, List.length_nil, unprotectedHeader]
    refine ⟨by decide, by omega, ?_, ?_, by omega, trivial⟩
    · cases kid with
      | none =>
        cases ct with
        | none => simp [smallPairs]
        | num n =>
          have := hct n rfl
          simp [smallPairs, Spec.Item.small]; omega
        | text t =>
          simp only [encPairs, List.nil_append, Spec.Item.enc, List.length_append] at hl
          simp [smallPairs, Spec.Item.small]; omega
      | some k =>
        cases ct with
        | none =>
          simp only [encPairs, List.append_nil, Spec.Item.enc, List.length_append] at hl
          simp [smallPairs, Spec.Item.small]; omega
        | num n =>
          have := hct n rfl
          simp only [encPairs, Spec.Item.enc, List.length_append, List.cons_append, List.nil_append] at hl
          simp [smallPairs, Spec.Item.small]; omega
        | text t =>
          simp only [encPairs, Spec.Item.enc, List.length_append, List.cons_append, List.nil_append] at hl
          simp [smallPairs, Spec.Item.small]; omega
    · cases payload with
      | none => simp [Spec.Item.small]
      | some p =>
        simp only [Spec.Item.enc, List.length_append] at hl
        simp [Spec.Item.small]; omega

theorem signed_fits {P : QParams} {tag : Bool} {alg : Int} {kid : Option Bytes} {ct : ContentType}
    {payload : Option Bytes} {sig msg : Bytes} (ha : InInt64 alg)
    (hlen : msg.length ≤ maxDecodeInput) (hP : 1 ≤ P.maxTags) :
    (signedMessage tag alg kid ct payload sig).Fits P msg := by
  have hfa : (Spec.int alg).fits 12 = true := by
    unfold InInt64 at ha
    unfold Spec.int
    split
    · rfl
    · simp [Item.fits, int64Max]; omega
  constructor
  · exact hlen
  · unfold signedMessage; cases tag
    · simp
    · simpa using hP
  · simp only [signedMessage, Header.item, List.map_cons, List.map_nil, Item.fits, fitsPairs,
      List.length_cons, List.length_nil, Label.item, hfa]
    rfl
  · simp only [signedMessage, signedUnprot_item, unprotectedHeader]
    cases kid <;> cases ct <;> rfl

theorem signed_valid {tag : Bool} {alg : Int} {kid : Option Bytes} {ct : ContentType}
    {payload : Option Bytes} {sig : Bytes} (h0 : alg ≠ 0) (h1 : -2147483648 ≤ alg)
    (h2 : alg ≤ 2147483647) (hct : ∀ n, ct = .num n → n ≤ 65535) :
    (signedMessage tag alg kid ct payload sig).Valid := by
  have hmem : ∀ l x, (l, x) ∈ signedUnprot kid ct →
      (l = .int 4 ∧ ∃ k, x = .bstr k) ∨
      (l = .int 3 ∧ ((∃ t, x = .tstr t) ∨ ∃ n, n ≤ 65535 ∧ x = .uint n)) := by
    intro l x h
    unfold signedUnprot at h
    rcases List.mem_append.mp h with h | h
    · cases kid with
      | none => cases h
      | some k =>
        simp only [List.mem_singleton, Prod.mk.injEq] at h
        exact .inl ⟨h.1, k, h.2⟩
    · cases ct with
      | none => cases h
      | num n =>
        simp only [List.mem_singleton, Prod.mk.injEq] at h
        exact .inr ⟨h.1, .inr ⟨n, hct n rfl, h.2⟩⟩
      | text t =>
        simp only [List.mem_singleton, Prod.mk.injEq] at h
        exact .inr ⟨h.1, .inl ⟨t, h.2⟩⟩
  have hall : ∀ l x, (l, x) ∈ (signedMessage tag alg kid ct payload sig).headers →
      (l = .int 1 ∧ x = Spec.int alg) ∨ (l, x) ∈ signedUnprot kid ct := by
    intro l x h
    rcases List.mem_append.mp h with h | h
    · simp only [signedMessage, List.mem_singleton, Prod.mk.injEq] at h; exact .inl h
    · exact .inr h
  constructor
  · simp only [Message.headers, signedMessage, signedUnprot]
    cases kid <;> cases ct <;> simp
  · intro i x h
    rcases hall _ _ h with ⟨h, -⟩ | h
    · cases h; unfold InInt64; omega
    · rcases hmem _ _ h with ⟨h, -⟩ | ⟨h, -⟩ <;> (cases h; unfold InInt64; omega)
  · intro x h
    simp only [signedMessage, List.mem_singleton, Prod.mk.injEq, true_and] at h
    exact ⟨alg, h, h0, h1, h2⟩
  · intro x h
    simp [signedMessage] at h
  · intro x h
    rcases hall _ _ h with ⟨h, -⟩ | h
    · cases h
    · rcases hmem _ _ h with ⟨h, -⟩ | ⟨-, h⟩
      · cases h
      · exact h
  · intro i hi x h
    rcases hall _ _ h with ⟨h, -⟩ | h
    · cases h; omega
    · rcases hmem _ _ h with ⟨-, h⟩ | ⟨h, -⟩
      · exact h
      · cases h; omega
  · intro x
    constructor
    · intro h
      rcases hmem _ _ h with ⟨h, -⟩ | ⟨h, -⟩ <;> cases h
    · intro h
      rcases hmem _ _ h with ⟨h, -⟩ | ⟨h, -⟩ <;> cases h
  · simp only [Message.headers, signedMessage, signedUnprot, Header.unknownInts]
    cases kid <;> cases ct <;> simp
  · simp only [Message.headers, signedMessage, signedUnprot, Header.texts]
    cases kid <;> cases ct <;> simp

theorem signed_noCrit {tag : Bool} {alg : Int} {kid : Option Bytes} {ct : ContentType}
    {payload : Option Bytes} {sig : Bytes} :
    (signedMessage tag alg kid ct payload sig).NoUnknownCrit := by
  intro ls h
  simp [Message.IsCrit, signedMessage] at h

theorem signed_params {tag : Bool} {alg : Int} {kid : Option Bytes} {ct : ContentType}
    {payload : Option Bytes} {sig : Bytes} :
    (signedMessage tag alg kid ct payload sig).alg = some alg ∧
    (signedMessage tag alg kid ct payload sig).bstrParam 4 = kid ∧
    (signedMessage tag alg kid ct payload sig).bstrParam 5 = none ∧
    (signedMessage tag alg kid ct payload sig).bstrParam 6 = none ∧
    (signedMessage tag alg kid ct payload sig).contentType = ct := by
  refine ⟨?_, ?_, ?_, ?_, ?_⟩
  · simp only [Message.alg, signedMessage, Header.get, List.find?_cons, decide_true, Option.map_some]
    unfold Spec.int
    by_cases h : 0 ≤ alg
    · rw [if_pos h]; simp only [Option.some.injEq]; omega
    · rw [if_neg h]; simp only [Option.some.injEq]; omega
  · cases kid <;> cases ct <;>
      simp [Message.bstrParam, signedMessage, Message.headers, signedUnprot, Header.get]
  · cases kid <;> cases ct <;>
      simp [Message.bstrParam, signedMessage, Message.headers, signedUnprot, Header.get]
  · cases kid <;> cases ct <;>
      simp [Message.bstrParam, signedMessage, Message.headers, signedUnprot, Header.get]
  · cases kid <;> cases ct <;>
      simp [Message.contentType, signedMessage, Message.headers, signedUnprot, Header.get]

end TCose
