import Verif.Lemmas.Work

/-!
# C93: the work of decoding is linear in the length of the message
-/

namespace TCose.Props
open TCose

/-- **C93.** Whatever the octets, decoding in a verification reads, looks for
breaks and leaves nesting levels at most 41 times for each octet, and 38 times
more. This holds on every way through the code, whether or not the message is
accepted, for every build, option, context, way to pass the payload, tag
processing and limit on tags, and whatever uninitialised variables hold. -/
theorem C93_linear (cfg : Config) (P : QParams) (junk : Junk) (me : VerifyCtx) (msg : Bytes)
    (pay : VPayload) : verifyWork cfg P junk me msg pay ≤ 41 * msg.length + 38 :=
  verifyWork_le cfg P junk me msg pay

/-- Stepping over nested containers, however deep and of whatever lengths, costs
at most three for each octet passed over, if it succeeds, and a constant more
for the levels open at the start. -/
theorem C93_skip (P : QParams) (room : Nat) (st : List NLvl) (c c' : Cur)
    (h : skipAll P room st c = .ok c') :
    workSkipAll P room st c + 3 * c'.rest.length ≤ 3 * c.rest.length + st.length :=
  (workSkip_le P room _ st c).2 c' h

theorem decodeAtom_c0 (p : Nat) (r : Bytes) :
    decodeAtom ⟨p, 0xc0 :: r⟩ = (.ok (.tag 0), ⟨p + 1, r⟩) := rfl

theorem workTagged_c0 : ∀ (k n p : Nat), n < k →
    workTagged k ⟨p, List.replicate n 0xc0⟩ = n + 1
  | 0, n, p, h => absurd h (Nat.not_lt_zero _)
  | k + 1, 0, p, h => by
    rw [workTagged]
    rfl
  | k + 1, n + 1, p, h => by
    rw [workTagged, List.replicate_succ, decodeAtom_c0]
    simp only
    rw [workTagged_c0 k n (p + 1) (by omega)]
    omega

/-- No bound below one for each octet holds: of every length there is an octet
string that is read to its end. -/
theorem C93_reached (cfg : Config) (P : QParams) (junk : Junk) (me : VerifyCtx) (pay : VPayload)
    (n : Nat) (hn : n ≤ maxDecodeInput) :
    ∃ msg : Bytes, msg.length = n ∧ n ≤ verifyWork cfg P junk me msg pay := by
  refine ⟨List.replicate n 0xc0, List.length_replicate, ?_⟩
  cases n with
  | zero => exact Nat.zero_le _
  | succ n =>
    unfold verifyWork
    refine Nat.le_trans ?_ (Nat.le_add_right _ _)
    have hl : (List.replicate (n + 1) (0xc0 : UInt8)).length = n + 1 := List.length_replicate
    have he : (Dec.init (List.replicate (n + 1) 0xc0)).err = none := by
      unfold Dec.init
      simp only [hl]
      rw [if_neg (by omega)]
    unfold Dec.workEnter
    rw [he]
    simp only [Option.isSome_none, Bool.false_eq_true, if_false]
    unfold Dec.workFetch workEntry workItem
    have hc : (Dec.init (List.replicate (n + 1) 0xc0)).cur
        = ⟨0, List.replicate (n + 1) 0xc0⟩ := rfl
    rw [hc, workTagged_c0 _ _ _ (by simp [hl])]
    rw [if_neg]
    · omega
    · simp [Dec.atEnd, Dec.init, List.replicate_succ]

/-- A context for the examples. -/
def workCtx : VerifyCtx := VerifyCtx.init 8

/-- What uninitialised variables hold in the examples. -/
def workJunk : Junk := ⟨.nil, .nil, .nil⟩

/-- A message with a protected algorithm and a kid: 37. (3 for tag, array and a
look at the level, 2 for the byte string, then 2 for the map, 3 to search it, 4 to
search it for crit, 4 to step over it; 1 to leave the string, 13 for the other
map; 2 each for payload and signature and 1 for leaving the array.) -/
example : verifyWork Config.full QParams.std workJunk workCtx
    [0xd2, 0x84, 0x43, 0xa1, 0x01, 0x26, 0xa1, 0x04, 0x42, 0x31, 0x31, 0x41, 1, 0x42, 2, 3]
    (.inline true) = 37 := by decide +kernel

/-- The same with an indefinite-length map. -/
example : verifyWork Config.full QParams.std workJunk workCtx
    [0xd2, 0x84, 0x43, 0xa1, 0x01, 0x26, 0xbf, 0x04, 0x42, 0x31, 0x31, 0xff, 0x41, 1, 0x42, 2, 3]
    (.inline true) = 37 := by decide +kernel

/-- Nested indefinite-length arrays are stepped over three times. -/
example : verifyWork Config.full QParams.std workJunk workCtx
    [0xd2, 0x84, 0x43, 0xa1, 0x01, 0x26, 0xa1, 0x18, 0x64, 0x9f, 0x9f, 0x9f, 0xff, 0x80, 0xff,
      0xff, 0xf6, 0x42, 2, 3]
    (.detached .nil) = 64 := by decide +kernel

/-- Two critical parameters. -/
example : verifyWork Config.full QParams.std workJunk workCtx
    [0x84, 0x49, 0xa2, 0x01, 0x26, 0x02, 0x82, 0x18, 0x64, 0x61, 0x61, 0xa0, 0x41, 1, 0x42, 2, 3]
    (.inline true) = 54 := by decide +kernel

/-- Nothing, and a message that ends early. -/
example : verifyWork Config.full QParams.std workJunk workCtx [] (.inline true) = 1 ∧
    verifyWork Config.full QParams.std workJunk workCtx [0x84, 0x43, 0xa1, 0x01] (.inline true)
      = 5 := by decide +kernel

/-- The hypothesis of `C93_skip`: two of three items of an array are left, one of
them a map in an array. -/
example : skipAll QParams.std 15 [⟨false, some 2⟩]
      ⟨7, [0x81, 0xa1, 0x01, 0x9f, 0x02, 0xff, 0x41, 0x00, 0x55]⟩ = .ok ⟨15, [0x55]⟩ ∧
    workSkipAll QParams.std 15 [⟨false, some 2⟩]
      ⟨7, [0x81, 0xa1, 0x01, 0x9f, 0x02, 0xff, 0x41, 0x00, 0x55]⟩ = 12 := by decide +kernel

end TCose.Props
