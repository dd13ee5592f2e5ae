import Verif.Spec.Limits
import Verif.Qcbor.Decode

/-!
# Specification: any CBOR encoding of an item, and COSE_Sign1 messages at large

`Spec.Cbor` gives one encoding of an item, the shortest.  Here is the relation
"these octets encode this item" of RFC 8949 section 3: heads of any width, and
arrays and maps of definite or indefinite length.  Strings of indefinite length
are left out: t_cose gives QCBOR no string allocator, so it refuses them.

Nothing here refers to t_cose.  `Item.fits` refers to documented limits of
QCBOR.
-/

namespace TCose.Spec
open TCose

/-- Two lists correspond, element by element. -/
inductive Each {α β : Type} (R : α → β → Prop) : List α → List β → Prop where
  | nil : Each R [] []
  | cons {a : α} {b : β} {as : List α} {bs : List β} : R a b → Each R as bs →
      Each R (a :: as) (b :: bs)

/-- The octets are a head with major type `m` and argument `n`. -/
inductive HeadOf (m n : Nat) : Bytes → Prop where
  | direct : n < 24 → HeadOf m n [UInt8.ofNat (32 * m + n)]
  | wide (k : Nat) : k < 4 → n < 256 ^ 2 ^ k →
      HeadOf m n (UInt8.ofNat (32 * m + (24 + k)) :: netOrder (2 ^ k) n)

mutual
/-- The octets encode the item. -/
inductive Encodes : Item → Bytes → Prop where
  | uint {n : Nat} {h : Bytes} : HeadOf 0 n h → Encodes (.uint n) h
  | nint {n : Nat} {h : Bytes} : HeadOf 1 n h → Encodes (.nint n) h
  | bstr {b h : Bytes} : HeadOf 2 b.length h → Encodes (.bstr b) (h ++ b)
  | tstr {b h : Bytes} : HeadOf 3 b.length h → Encodes (.tstr b) (h ++ b)
  | arr {xs : List Item} {h : Bytes} {bss : List Bytes} : HeadOf 4 xs.length h →
      EncodesAll xs bss → Encodes (.arr xs) (h ++ bss.flatten)
  | arrIndef {xs : List Item} {bss : List Bytes} :
      EncodesAll xs bss → Encodes (.arr xs) (0x9f :: (bss.flatten ++ [0xff]))
  | map {kvs : List (Item × Item)} {h : Bytes} {bss : List Bytes} : HeadOf 5 kvs.length h →
      EncodesPairs kvs bss → Encodes (.map kvs) (h ++ bss.flatten)
  | mapIndef {kvs : List (Item × Item)} {bss : List Bytes} :
      EncodesPairs kvs bss → Encodes (.map kvs) (0xbf :: (bss.flatten ++ [0xff]))
  | tag {n : Nat} {x : Item} {h b : Bytes} : HeadOf 6 n h → Encodes x b →
      Encodes (.tag n x) (h ++ b)
  | null : Encodes .null [0xf6]
  | simple {n : Nat} : n < 24 → n ≠ 22 → Encodes (.simple n) [UInt8.ofNat (0xe0 + n)]
  | simple8 {n : Nat} : 32 ≤ n → n < 256 → Encodes (.simple n) [0xf8, UInt8.ofNat n]
  | float {b : Bytes} (k : Nat) : 1 ≤ k → k ≤ 3 → b.length = 2 ^ k →
      Encodes (.float b) (UInt8.ofNat (0xf8 + k) :: b)
/-- The strings of octets encode the items, one each. -/
inductive EncodesAll : List Item → List Bytes → Prop where
  | nil : EncodesAll [] []
  | cons {x : Item} {xs : List Item} {b : Bytes} {bss : List Bytes} :
      Encodes x b → EncodesAll xs bss → EncodesAll (x :: xs) (b :: bss)
/-- The strings of octets encode the pairs, one each. -/
inductive EncodesPairs : List (Item × Item) → List Bytes → Prop where
  | nil : EncodesPairs [] []
  | cons {k v : Item} {kvs : List (Item × Item)} {a b : Bytes} {bss : List Bytes} :
      Encodes k a → Encodes v b → EncodesPairs kvs bss →
      EncodesPairs ((k, v) :: kvs) ((a ++ b) :: bss)
end

/-- An integer or string without tags: what QCBOR allows as a map label. -/
def Item.isLabel : Item → Bool
  | .uint _ | .nint _ | .bstr _ | .tstr _ => true
  | _ => false

mutual
/-- The item is within the limits of QCBOR: negative numbers fit 64 bits, at
most 65534 array elements and 32767 map entries, map labels are integers or
strings, and containers nest at most `d` deep. -/
def Item.fits (d : Nat) : Item → Bool
  | .uint _ | .bstr _ | .tstr _ | .null | .simple _ | .float _ => true
  | .nint n => n ≤ int64Max
  | .arr xs => 0 < d && xs.length ≤ 65534 && fitsAll (d - 1) xs
  | .map kvs => 0 < d && kvs.length ≤ 32767 && fitsPairs (d - 1) kvs
  | .tag _ x => x.fits d
/-- All items are. -/
def fitsAll (d : Nat) : List Item → Bool
  | [] => true
  | x :: xs => x.fits d && fitsAll d xs
/-- All entries are. -/
def fitsPairs (d : Nat) : List (Item × Item) → Bool
  | [] => true
  | (k, v) :: r => k.isLabel && k.fits d && v.fits d && fitsPairs d r
end

/-- Header parameter labels (RFC 8152 section 1.5): integers or text. -/
inductive Label where
  | int (i : Int)
  | text (t : Bytes)
  deriving DecidableEq, Repr

/-- The label as CBOR item. -/
def Label.item : Label → Item
  | .int i => Spec.int i
  | .text t => .tstr t

/-- A header: parameters with their labels. -/
abbrev Header := List (Label × Item)

/-- The header map as CBOR item. -/
def Header.item (h : Header) : Item := .map (h.map fun p => (p.1.item, p.2))

/-- An item with tags around it, the outermost first. -/
def tagged (ts : List Nat) (x : Item) : Item := ts.foldr Item.tag x

/-- An item without the tags around it. -/
def Item.bare : Item → Item
  | .tag _ x => x.bare
  | x => x

/-- The tags around an item, the outermost first. -/
def Item.tagList : Item → List Nat
  | .tag n x => n :: x.tagList
  | _ => []

/-- A COSE_Sign1 message (RFC 8152 section 4.2): tags around it (outermost
first), protected and unprotected header, payload (`none`: detached) and
signature. -/
structure Message where
  tags : List Nat
  prot : Header
  unprot : Header
  payload : Option Bytes
  sig : Bytes

/-- The payload element. -/
def Message.payItem (m : Message) : Item :=
  match m.payload with
  | some p => .bstr p
  | none => .null

/-- The array of four elements, the first being the octets `pb`. -/
def Message.body (m : Message) (pb : Bytes) : Item :=
  .arr [.bstr pb, Header.item m.unprot, m.payItem, .bstr m.sig]

/-- `msg` is an encoding of the message, in which `pb` is the content of the
protected-header byte string: an encoding of the header map, or nothing if
there are no protected parameters. -/
def Message.Encoded (m : Message) (pb msg : Bytes) : Prop :=
  ((m.prot = [] ∧ pb = []) ∨ Encodes (Header.item m.prot) pb) ∧
  Encodes (tagged m.tags (m.body pb)) msg

/-- The message is within the limits of QCBOR: message size, four tags, and
nesting (15 levels in all). -/
structure Message.Fits (m : Message) (P : QParams) (msg : Bytes) : Prop where
  size : msg.length ≤ maxMessage
  tags : m.tags.length ≤ P.maxTags
  prot : (Header.item m.prot).fits 13 = true
  unprot : (Header.item m.unprot).fits 14 = true

/-- Integer labels that no one but the application knows: all except alg, crit,
content type, kid, iv and partial iv (RFC 8152 table 2, labels 1 to 6). -/
def Header.unknownInts (h : Header) : List Int :=
  h.filterMap fun p => match p.1 with
    | .int i => if 1 ≤ i ∧ i ≤ 6 then none else some i
    | .text _ => none

/-- Text labels. -/
def Header.texts (h : Header) : List Bytes :=
  h.filterMap fun p => match p.1 with
    | .int _ => none
    | .text t => some t

/-- The integers among labels. -/
def labelInts (ls : List Label) : List Int :=
  ls.filterMap fun l => match l with | .int i => some i | .text _ => none

/-- The text strings among labels. -/
def labelTexts (ls : List Label) : List Bytes :=
  ls.filterMap fun l => match l with | .int _ => none | .text t => some t

/-- Both headers together. -/
def Message.headers (m : Message) : Header := m.prot ++ m.unprot

/-- The integer fits 64 bits. -/
def InInt64 (i : Int) : Prop := -9223372036854775808 ≤ i ∧ i ≤ 9223372036854775807

/-- The parameter with integer label `i`. -/
def Header.get (h : Header) (i : Int) : Option Item :=
  (h.find? (fun p => decide (p.1 = .int i))).map (·.2)

/-- A byte-string parameter, from either header. -/
def Message.bstrParam (m : Message) (i : Int) : Option Bytes :=
  match Header.get m.headers i with
  | some (.bstr b) => some b
  | _ => none

/-- The algorithm, from the protected header. -/
def Message.alg (m : Message) : Option Int :=
  match Header.get m.prot 1 with
  | some (.uint n) => some n
  | some (.nint n) => some (-1 - (n : Int))
  | _ => none

/-- The content type, from either header. -/
def Message.contentType (m : Message) : ContentType :=
  match Header.get m.headers 3 with
  | some (.uint n) => .num n
  | some (.tstr t) => .text t
  | _ => .none

/-- The header parameters are as RFC 8152 section 3.1 has them, within the
documented limits of t_cose: each label once; the algorithm a nonzero 32-bit
integer; crit a non-empty list of labels (at most ten integers and ten texts,
no 0 and no empty text); content type a text or a number up to 65535; kid, iv
and partial iv byte strings; alg and crit protected only; at most ten unknown
integer and ten text labels. -/
structure Message.Valid (m : Message) : Prop where
  unique : (m.headers.map (·.1)).Nodup
  range : ∀ i x, (Label.int i, x) ∈ m.headers → InInt64 i
  alg : ∀ x, (Label.int 1, x) ∈ m.prot → ∃ i : Int, x = Spec.int i ∧ i ≠ 0 ∧
    -2147483648 ≤ i ∧ i ≤ 2147483647
  crit : ∀ x, (Label.int 2, x) ∈ m.prot → ∃ ls : List Label, x = .arr (ls.map Label.item) ∧
    ls ≠ [] ∧ (labelInts ls).length ≤ 10 ∧ (labelTexts ls).length ≤ 10 ∧ Label.int 0 ∉ ls ∧
    Label.text [] ∉ ls ∧ ∀ i, Label.int i ∈ ls → InInt64 i
  ct : ∀ x, (Label.int 3, x) ∈ m.headers → (∃ t, x = .tstr t) ∨ ∃ n, n ≤ 65535 ∧ x = .uint n
  bstrs : ∀ i, i = 4 ∨ i = 5 ∨ i = 6 → ∀ x, (Label.int i, x) ∈ m.headers → ∃ b, x = .bstr b
  protectedOnly : ∀ x, (Label.int 1, x) ∉ m.unprot ∧ (Label.int 2, x) ∉ m.unprot
  fewInts : (Header.unknownInts m.headers).length ≤ 10
  fewTexts : (Header.texts m.headers).length ≤ 10

/-- The labels in the crit parameter. -/
def Message.IsCrit (m : Message) (ls : List Label) : Prop :=
  (Label.int 2, Item.arr (ls.map Label.item)) ∈ m.prot

/-- No label in crit is that of an unknown parameter present in the message. -/
def Message.NoUnknownCrit (m : Message) : Prop :=
  ∀ ls, m.IsCrit ls → (∀ i, Label.int i ∈ ls → i ∉ Header.unknownInts m.headers) ∧
    ∀ t, Label.text t ∈ ls → t ∉ Header.texts m.headers

end TCose.Spec
