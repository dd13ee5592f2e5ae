import Verif.Spec.Message

/-!
# Specification: what QCBOR reads as an item

`Spec.Encodes` is CBOR as RFC 8949 has it.  QCBOR, stepping over items nobody asked
for, goes on after some errors, so it reads a little more than CBOR.  `Reads` is
`Encodes` with exactly these additions, marked in the item by `notItem`:

* a few octets that are no CBOR item are passed as if they were one (`NotCbor`);
* in a map, such octets in the place of a label (or a label too large, or with too many
  tags) are passed without a value (`LoneKey`);
* labels may carry tags.

It also has the limits of QCBOR in it: how many elements a head may announce, how many
levels of containers there may be (an array or map whose head says that it is empty takes
none), and which labels a map may have.

`Item.clean` says that none of the additions was used for the item, and for a clean item
`Reads` is `Encodes` (`Reads.encodes` in `Lemmas.ReadBack`).

Nothing here refers to the decoder model or to t_cose.
-/

namespace TCose.Spec
open TCose

/-- Octets that begin no CBOR item, of which QCBOR says so without giving up:
additional information 28 to 30, an integer or tag of indefinite length, and a simple
value below 32 in two octets. -/
inductive NotCbor : Bytes → Prop where
  | reserved {b : UInt8} : 28 ≤ b.toNat % 32 → b.toNat % 32 ≤ 30 → NotCbor [b]
  | indef {b : UInt8} : b = 0x1f ∨ b = 0x3f ∨ b = 0xdf → NotCbor [b]
  | simple {n : UInt8} : n.toNat < 32 → NotCbor [0xf8, n]

/-- Stands for octets that are no item. (Simple value 24 has no encoding.) -/
def notItem : Item := .simple 24

/-- The item is `notItem`. -/
def Item.isNot : Item → Bool
  | .simple n => n == 24
  | _ => false

/-- The item is an integer below the range of `int64_t`, which QCBOR does not read. -/
def Item.tooLow : Item → Bool
  | .nint n => decide (9223372036854775807 < n)
  | _ => false

/-- The octets are the heads of tags, outermost first. -/
inductive TagHeads : List Nat → Bytes → Prop where
  | nil : TagHeads [] []
  | cons {n : Nat} {ts : List Nat} {h r : Bytes} : HeadOf 6 n h → TagHeads ts r →
      TagHeads (n :: ts) (h ++ r)

/-- An item without tags, of a container only the head; or a break. -/
inductive Piece : Bytes → Prop where
  | head {m n : Nat} {h : Bytes} : m = 0 ∨ m = 1 ∨ m = 7 ∨ (m = 4 ∧ n ≤ 65534) ∨
      (m = 5 ∧ n ≤ 32767) → HeadOf m n h → Piece h
  | str {m : Nat} {s h : Bytes} : m = 2 ∨ m = 3 → HeadOf m s.length h → Piece (h ++ s)
  | indef {b : UInt8} : b = 0x9f ∨ b = 0xbf ∨ b = 0xff → Piece [b]

/-- What is passed without a value in the place of a map label, when the decoder keeps
`t` tags with an item. -/
inductive LoneKey (t : Nat) : Bytes → Prop where
  | bad {ts : List Nat} {h b : Bytes} : TagHeads ts h → NotCbor b → LoneKey t (h ++ b)
  | big {ts : List Nat} {n : Nat} {h b : Bytes} : TagHeads ts h → HeadOf 1 n b →
      9223372036854775807 < n → LoneKey t (h ++ b)
  | many {ts : List Nat} {h b : Bytes} : TagHeads ts h → t < ts.length → Piece b →
      LoneKey t (h ++ b)

/-- Map labels: an integer that fits 64 bits, or a string, with up to `t` tags. -/
def IsKey (t : Nat) (k : Item) : Prop :=
  ∃ ts k0, k = tagged ts k0 ∧ ts.length ≤ t ∧ k0.isLabel = true ∧
    ∀ n, k0 = .nint n → n ≤ 9223372036854775807

mutual
/-- The octets are read as the item, with `d` levels of containers to spare. -/
inductive Reads (t : Nat) : Nat → Item → Bytes → Prop where
  | uint {d n : Nat} {h : Bytes} : HeadOf 0 n h → Reads t d (.uint n) h
  | nint {d n : Nat} {h : Bytes} : HeadOf 1 n h → Reads t d (.nint n) h
  | bstr {d : Nat} {b h : Bytes} : HeadOf 2 b.length h → Reads t d (.bstr b) (h ++ b)
  | tstr {d : Nat} {b h : Bytes} : HeadOf 3 b.length h → Reads t d (.tstr b) (h ++ b)
  | arr0 {d : Nat} {h : Bytes} : HeadOf 4 0 h → Reads t d (.arr []) h
  | arr {d : Nat} {xs : List Item} {h : Bytes} {bss : List Bytes} : xs.length ≤ 65534 →
      HeadOf 4 xs.length h → ReadsAll t d xs bss → Reads t (d + 1) (.arr xs) (h ++ bss.flatten)
  | arrIndef {d : Nat} {xs : List Item} {bss : List Bytes} :
      ReadsAll t d xs bss → Reads t (d + 1) (.arr xs) (0x9f :: (bss.flatten ++ [0xff]))
  | map0 {d : Nat} {h : Bytes} : HeadOf 5 0 h → Reads t d (.map []) h
  | map {d : Nat} {kvs : List (Item × Item)} {h : Bytes} {bss : List Bytes} :
      kvs.length ≤ 32767 → HeadOf 5 kvs.length h → ReadsPairs t d kvs bss →
      Reads t (d + 1) (.map kvs) (h ++ bss.flatten)
  | mapIndef {d : Nat} {kvs : List (Item × Item)} {bss : List Bytes} :
      ReadsPairs t d kvs bss → Reads t (d + 1) (.map kvs) (0xbf :: (bss.flatten ++ [0xff]))
  | tag {d n : Nat} {x : Item} {h b : Bytes} : HeadOf 6 n h → Reads t d x b →
      Reads t d (.tag n x) (h ++ b)
  | null {d : Nat} : Reads t d .null [0xf6]
  | simple {d n : Nat} : n < 24 → n ≠ 22 → Reads t d (.simple n) [UInt8.ofNat (0xe0 + n)]
  | simple8 {d n : Nat} : 32 ≤ n → n < 256 → Reads t d (.simple n) [0xf8, UInt8.ofNat n]
  | float {d : Nat} {b : Bytes} (k : Nat) : 1 ≤ k → k ≤ 3 → b.length = 2 ^ k →
      Reads t d (.float b) (UInt8.ofNat (0xf8 + k) :: b)
  | notCbor {d : Nat} {b : Bytes} : NotCbor b → Reads t d notItem b
/-- The strings of octets are read as the items, one each. -/
inductive ReadsAll (t : Nat) : Nat → List Item → List Bytes → Prop where
  | nil {d : Nat} : ReadsAll t d [] []
  | cons {d : Nat} {x : Item} {xs : List Item} {b : Bytes} {bss : List Bytes} :
      Reads t d x b → ReadsAll t d xs bss → ReadsAll t d (x :: xs) (b :: bss)
/-- The strings of octets are read as the entries of a map, one each. -/
inductive ReadsPairs (t : Nat) : Nat → List (Item × Item) → List Bytes → Prop where
  | nil {d : Nat} : ReadsPairs t d [] []
  | cons {d : Nat} {k v : Item} {kvs : List (Item × Item)} {a b : Bytes} {bss : List Bytes} :
      IsKey t k → Reads t d k a → Reads t d v b → ReadsPairs t d kvs bss →
      ReadsPairs t d ((k, v) :: kvs) ((a ++ b) :: bss)
  | lone {d : Nat} {kvs : List (Item × Item)} {a : Bytes} {bss : List Bytes} :
      LoneKey t a → ReadsPairs t d kvs bss → ReadsPairs t d ((notItem, notItem) :: kvs) (a :: bss)
end

mutual
/-- Nothing in the item stands for octets that are no item. -/
def Item.clean : Item → Bool
  | .simple n => n < 24 || 32 ≤ n
  | .arr xs => cleanAll xs
  | .map kvs => cleanPairs kvs
  | .tag _ x => x.clean
  | _ => true
/-- All items are clean. -/
def cleanAll : List Item → Bool
  | [] => true
  | x :: xs => x.clean && cleanAll xs
/-- All entries are clean. -/
def cleanPairs : List (Item × Item) → Bool
  | [] => true
  | (k, v) :: r => k.clean && v.clean && cleanPairs r
end

end TCose.Spec
