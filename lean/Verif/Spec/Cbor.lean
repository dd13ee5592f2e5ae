import Verif.Basic

/-!
# Specification: deterministic CBOR encoding (RFC 8949)

Independent of the encoder model: a tree of data items and its shortest-form
encoding, written straight from RFC 8949 section 3.  Used to state what
COSE_Sign1 messages and Sig_structures must look like.
-/

namespace TCose.Spec

/-- CBOR data items. `nint n` is `-1 - n`; `simple n` is a simple value other
than null; `float b` is a floating-point number of 2, 4 or 8 octets. -/
inductive Item where
  | uint (n : Nat)
  | nint (n : Nat)
  | bstr (b : Bytes)
  | tstr (b : Bytes)
  | arr (xs : List Item)
  | map (kvs : List (Item × Item))
  | tag (n : Nat) (x : Item)
  | null
  | simple (n : Nat)
  | float (b : Bytes)

/-- `k` octets, network byte order (RFC 8949 section 3). -/
def netOrder (k n : Nat) : Bytes :=
  (List.range k).map fun i => UInt8.ofNat (n / 256 ^ (k - 1 - i))

/-- Head of an item: major type and argument, shortest form. -/
def head (major n : Nat) : Bytes :=
  if n ≤ 23 then [UInt8.ofNat (32 * major + n)]
  else if n ≤ 0xff then UInt8.ofNat (32 * major + 24) :: netOrder 1 n
  else if n ≤ 0xffff then UInt8.ofNat (32 * major + 25) :: netOrder 2 n
  else if n ≤ 0xffffffff then UInt8.ofNat (32 * major + 26) :: netOrder 4 n
  else UInt8.ofNat (32 * major + 27) :: netOrder 8 n

mutual
/-- Encoded octets of an item. -/
def Item.enc : Item → Bytes
  | .uint n => head 0 n
  | .nint n => head 1 n
  | .bstr b => head 2 b.length ++ b
  | .tstr b => head 3 b.length ++ b
  | .arr xs => head 4 xs.length ++ encList xs
  | .map kvs => head 5 kvs.length ++ encPairs kvs
  | .tag n x => head 6 n ++ x.enc
  | .null => [0xf6]
  | .simple n => head 7 n
  | .float b => (if b.length = 2 then 0xf9 else if b.length = 4 then 0xfa else 0xfb) :: b
/-- Concatenated encodings. -/
def encList : List Item → Bytes
  | [] => []
  | x :: xs => x.enc ++ encList xs
/-- Concatenated encodings of key/value pairs. -/
def encPairs : List (Item × Item) → Bytes
  | [] => []
  | (k, v) :: r => k.enc ++ v.enc ++ encPairs r
end

/-- An integer item. -/
def int (i : Int) : Item := if 0 ≤ i then .uint i.toNat else .nint (-1 - i).toNat

/-- Octets of an ASCII string. -/
def ascii (s : String) : Bytes := s.toList.map fun c => UInt8.ofNat c.toNat

end TCose.Spec
