import Verif.Spec.Message
import Verif.Spec.Cose

/-!
# Specification: the messages of the test suite

What each `T_COSE_TEST_...` option is documented to produce
(test/t_cose_make_test_messages.h:38-146), as the header elements of a COSE_Sign1
message signed with ES256 and the short-circuit key id.  Written with CBOR items
where the element is one, as octets where it is deliberately broken.  Option
values are literals, taken from the header file.
-/

namespace TCose.Spec.Suite
open TCose Spec

/-- The header elements of a test message: the content of the protected-header
byte string and the encoded unprotected header; `none` if the element is left
out. `indef`: array of indefinite length. -/
structure Made where
  opts : Nat
  prot : Option Bytes
  unprot : Option Bytes
  indef : Bool := false

/-- Parameters of a usual message: alg ES256 (-7), and the key id that stands for
short-circuit signatures. -/
def algP : Label × Item := (.int 1, .nint 6)
def kidP : Label × Item := (.int 4, .bstr scKid)

/-- The octets of a header map, shortest form. -/
def hdr (h : Header) : Bytes := (Header.item h).enc

/-- Integers as items. -/
def ints (l : List Nat) : List Item := l.map .uint

def text (s : String) : Item := .tstr (ascii s)

/-- `[ {66: "hi", 67: "bye"}, [ {} ] ]`. -/
def extra : Item := .arr [.map [(.uint 66, text "hi"), (.uint 67, text "bye")], .arr [.map []]]

/-- All parameters that t_cose knows, and an unknown one. -/
def allUnprot : Header :=
  [kidP, (.int 5, .bstr (ascii "iv")), (.int 6, .bstr (ascii "partial_iv")), (.int 3, .uint 1),
    (.int 55, extra)]

/-- Protected header with a critical parameter. -/
def crit (xs : List Item) : Header := [algP, (.int 2, .arr xs)]

/-- An encoded header map of indefinite length, the entries in shortest form. -/
def hdrIndef (h : Header) : Bytes := 0xbf :: (encPairs (h.map fun p => (p.1.item, p.2)) ++ [0xff])

/-- One line per option: the message it makes. -/
def table : List Made := [
  -- no option
  ⟨0, hdr [algP], hdr [kidP], false⟩,
  -- a label that is neither integer nor text
  ⟨0x80000000, hdr [algP],
    some (Item.map [(.bstr scKid, .bstr scKid), (.uint 4, .bstr scKid)]).enc, false⟩,
  -- crit not an array
  ⟨0x40000000, hdr [algP], hdr [(.int 2, text "hi"), kidP], false⟩,
  -- an unknown parameter with structure
  ⟨0x20000000, hdr [algP], hdr [(.int 55, .arr [.map [(.uint 66, text "hi")]]), kidP], false⟩,
  -- header elements left out
  ⟨0x10000000, none, hdr [kidP], false⟩,
  ⟨0x08000000, hdr [algP], none, false⟩,
  -- not well-formed: "xxxxxx" put first into the map
  ⟨0x04000000, hdr [algP], some (0xa1 :: (ascii "xxxxxx" ++ ([0x04, 0x58, 0x20] ++ scKid))), false⟩,
  -- not well-formed: a break in a map of definite length
  ⟨0x02000000, hdr [algP],
    some ([0xa2, 0x18, 0x37, 0x81, 0xa2, 0x18, 0x42, 0x62, 0x68, 0x69, 0xff,
      0x18, 0x43, 0x63, 0x62, 0x79, 0x65] ++ ([0x04, 0x58, 0x20] ++ scKid)), false⟩,
  -- unknown critical parameters
  ⟨0x01000000, hdr [algP, (.int 42, .uint 43), (.int 2, .arr (ints [42, 43, 44]))],
    hdr [kidP], false⟩,
  ⟨0x00040000, hdr [algP, (.text (ascii "hh"), .uint 43),
    (.int 2, .arr [text "hh", text "h", text "hhh"])], hdr [kidP], false⟩,
  -- ten and eleven critical labels, a wrong one, none, eleven texts
  ⟨0x00800000, hdr (crit (ints [10, 11, 12, 13, 14, 15, 16, 17, 18, 19])), hdr [kidP], false⟩,
  ⟨0x00400000, hdr (crit (ints [10, 11, 12, 13, 14, 15, 16, 17, 18, 19, 20])), hdr [kidP], false⟩,
  ⟨0x00200000, hdr (crit [.simple 21]), hdr [kidP], false⟩,
  ⟨0x00000200, hdr (crit []), hdr [kidP], false⟩,
  ⟨0x00000100, hdr (crit (List.replicate 11 (.tstr []))), hdr [kidP], false⟩,
  -- crit not protected
  ⟨0x00100000, hdr [algP], hdr [(.int 2, .arr [.uint 100, text "xxxx", .uint 101, text "xxxx",
    .uint 102, text "xxxx", .uint 103, text "xxxx", .uint 104, text "xxxx", .uint 105, text "xxxx",
    .uint 106, text "xxxx", .uint 107, text "xxxx", .uint 108, text "xxxx", .uint 109, text "xxxx"]),
    kidP], false⟩,
  -- eleven unknown parameters
  ⟨0x00080000, hdr [algP], hdr ([10, 11, 12, 13, 14, 15, 16, 17, 18, 19, 20].map
    (fun i => (.int i, .simple 21)) ++ [kidP]), false⟩,
  -- all known parameters
  ⟨0x00020000, hdr [algP], hdr allUnprot, false⟩,
  -- headers that are not maps, or cut off, or empty
  ⟨0x00010000, some (Item.arr [.uint 42]).enc, hdr [kidP], false⟩,
  ⟨0x00008000, hdr [algP], some (Item.arr [.bstr scKid]).enc, false⟩,
  ⟨0x00001000, some [0xa1], hdr [kidP], false⟩,
  ⟨0x00000400, some [], hdr [kidP], false⟩,
  -- parameters in both headers, content type out of range
  ⟨0x00004000, hdr [algP, (.int 4, .bstr (ascii "kid"))], hdr [kidP], false⟩,
  ⟨0x00000800, hdr [algP, (.int 3, .uint 3)], hdr [kidP, (.int 3, .uint 3)], false⟩,
  ⟨0x00002000, hdr [algP], hdr [kidP, (.int 3, .uint 65536)], false⟩,
  -- indefinite lengths: plain, with unknown critical parameters, with all parameters
  ⟨0x00000080, hdrIndef [algP], hdrIndef [kidP], true⟩,
  ⟨0x01000080, some ([0xbf, 0x01, 0x26, 0x18, 0x2a, 0x18, 0x2b, 0x02, 0x9f, 0x18, 0x2a, 0x18, 0x2b,
    0x18, 0x2c, 0xff, 0xff]), hdrIndef [kidP], true⟩,
  ⟨0x00020080, hdrIndef [algP], hdrIndef allUnprot, true⟩]

/-- The elements before the payload. -/
def Made.elements (x : Made) : List Bytes :=
  (match x.prot with | some b => [(Item.bstr b).enc] | none => []) ++
    (match x.unprot with | some b => [b] | none => [])

/-- The octets of the tagged message up to the payload. -/
def Made.start (x : Made) : Bytes :=
  head 6 18 ++ (if x.indef then [0x9f] else head 4 (x.elements.length + 2)) ++ x.elements.flatten

/-- The octets of the tagged message. -/
def Made.message (x : Made) (payload sig : Bytes) : Bytes :=
  x.start ++ ((Item.bstr payload).enc ++ (Item.bstr sig).enc ++ (if x.indef then [0xff] else []))

/-- The short-circuit signature for ES256: 64 octets that repeat the digest
(src/t_cose_sign1_sign.c:40-120). -/
def repeated (digest : Bytes) : Bytes :=
  (List.range 64).map fun j => digest.getD (j % digest.length) 0

/-- The message that is signed: the signature repeats the digest of the
Sig_structure. -/
def Made.signed (x : Made) (D : Bytes → Bytes) (payload : Bytes) : Bytes :=
  x.message payload (repeated (D (sigStructure (x.prot.getD []) [] payload)))

/-- A line of the suite's expectations: option of the signer, option of the
verifier, whether it applies only to builds with content type, outcome. -/
structure Expected where
  opts : Nat
  vopts : Nat
  needsCt : Bool
  result : Except Err Unit

/-- What the verifier is to make of the messages (t_cose_test.c:847-882, 904-938,
1627-1662, 770-836), option values and codes as literals. 0x20 lets unknown
critical parameters pass. -/
def outcomes : List Expected := [
  ⟨0x00000000, 0, false, .ok ()⟩,
  ⟨0x00000400, 0, false, .error .unsupportedSigningAlg⟩,
  ⟨0x00001000, 0, false, .error .parameterCbor⟩,
  ⟨0x00000800, 0, true, .error .duplicateParameter⟩,
  ⟨0x00002000, 0, true, .error .badContentType⟩,
  ⟨0x02000000, 0, false, .error .cborNotWellFormed⟩,
  ⟨0x00004000, 0, false, .error .duplicateParameter⟩,
  ⟨0x00080000, 0, false, .error .tooManyParameters⟩,
  ⟨0x00008000, 0, false, .error .parameterCbor⟩,
  ⟨0x40000000, 0, false, .error .critParameter⟩,
  ⟨0x04000000, 0, false, .error .cborNotWellFormed⟩,
  ⟨0x08000000, 0, false, .error .parameterCbor⟩,
  ⟨0x10000000, 0, false, .error .parameterCbor⟩,
  ⟨0x20000000, 0, false, .ok ()⟩,
  ⟨0x80000000, 0, false, .error .parameterCbor⟩,
  ⟨0x00010000, 0, false, .error .parameterCbor⟩,
  ⟨0x00800000, 0, false, .ok ()⟩,
  ⟨0x00400000, 0, false, .error .critParameter⟩,
  ⟨0x00200000, 0, false, .error .critParameter⟩,
  ⟨0x01000000, 0, false, .error .unknownCriticalParameter⟩,
  ⟨0x00040000, 0, false, .error .unknownCriticalParameter⟩,
  ⟨0x01000000, 0x20, false, .ok ()⟩,
  ⟨0x00040000, 0x20, false, .ok ()⟩,
  ⟨0x00100000, 0, false, .error .parameterNotProtected⟩,
  ⟨0x00000200, 0, false, .error .critParameter⟩,
  ⟨0x00000100, 0, false, .error .critParameter⟩,
  ⟨0x00000080, 0, false, .ok ()⟩,
  ⟨0x01000080, 0, false, .error .unknownCriticalParameter⟩,
  ⟨0x00020080, 0, false, .ok ()⟩,
  ⟨0x00020000, 0, false, .ok ()⟩]

end TCose.Spec.Suite
