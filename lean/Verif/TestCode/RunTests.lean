import Verif.Basic

/-!
# The test runner

Model of test/run_tests.c and main.c, compiled without
`STRING_RETURNING_TESTS`. A test function is modelled by the value it returns.
`int` is 32 bits; the counters are unbounded here (the table has fewer than 30
entries, lines 51-99). Strings are octets without the terminating NUL.
-/

namespace TCose.RunTests

/-- What `NumToString` returns: a string literal, or the octets of `StringMem`
up to the NUL. `ub` is the overflow of `-nNum` for `INT32_MIN`. -/
inductive NumStr where
  | str (s : Bytes)
  | ub
  deriving DecidableEq, Repr

/-- "XXX" (test/run_tests.c:129). -/
def xxx : Bytes := [0x58, 0x58, 0x58]

/-- A `UsefulOutBuf` that only ever gets one octet appended: the octets and
whether one did not fit. -/
structure OutBuf where
  cap : Nat
  out : Bytes
  err : Bool
  deriving DecidableEq, Repr

/-- `UsefulOutBuf_AppendByte`: nothing is stored after the first failure. -/
def OutBuf.append (o : OutBuf) (b : UInt8) : OutBuf :=
  if o.err then o
  else if o.out.length < o.cap then { o with out := o.out ++ [b] }
  else { o with err := true }

/-- The loop over the digits (test/run_tests.c:132-140): `n` is the divisor. -/
def digitLoop (n num : Nat) (did : Bool) (o : OutBuf) : Bool × OutBuf :=
  if n = 0 then (did, o)
  else if num / n ≠ 0 ∨ did then
    digitLoop (n / 10) (num - num / n * n) true (o.append (UInt8.ofNat (0x30 + num / n)))
  else digitLoop (n / 10) num did o
termination_by n
decreasing_by all_goals omega

/-- `NumToString` (test/run_tests.c:117-147) for a 32-bit number and a buffer of
`cap` octets. A minus sign already written is forgotten when "XXX" is returned. -/
def numToString (n : Int) (cap : Nat) : NumStr :=
  let o : OutBuf := ⟨cap, [], false⟩
  if n = -2147483648 then .ub
  else
    let o := if n < 0 then o.append 0x2d else o
    let num := n.natAbs
    if num > 999999999 then .str xxx
    else
      let r := digitLoop 1000000000 num false o
      let o := if r.1 then r.2 else r.2.append 0x30
      let o := o.append 0
      if o.err then .str [] else .str (o.out.take (o.out.length - 1))

/-- `test_entry` (test/run_tests.c:33-37); `result` is what the test function
returns, an `int_fast32_t`. -/
structure Entry where
  name : Bytes
  result : Int
  enabled : Bool

/-- The cast to `int32_t` (test/run_tests.c:236), which wraps (the type
`int_fast32_t` has 64 bits on x86-64). -/
def castInt32 (v : Int) : Int := (v + 2147483648) % 4294967296 - 2147483648

/-- Whether a test is run (test/run_tests.c:215-234); `names` is what precedes
the NULL in `szTestNames`. -/
def selected (names : List Bytes) (t : Entry) : Bool :=
  if names.isEmpty then t.enabled else names.contains t.name

/-- One call of the output function: string, newline. -/
abbrev Line := NumStr × Bool

/-- Fixed strings of the report (test/run_tests.c:244-265). -/
def sFailed : Bytes := " FAILED (returned ".toUTF8.toList
def sClose : Bytes := ")".toUTF8.toList
def sPassed : Bytes := " PASSED".toUTF8.toList
def sSummary : Bytes := "SUMMARY: ".toUTF8.toList
def sRun : Bytes := " tests run; ".toUTF8.toList
def sEnd : Bytes := " tests failed".toUTF8.toList

/-- State of the loop. -/
structure RunState where
  run : Nat
  failed : Nat
  lines : List Line
  deriving DecidableEq, Repr

/-- The loop over the table (test/run_tests.c:214-254). -/
def loop (names : List Bytes) : List Entry → RunState → RunState
  | [], st => st
  | t :: ts, st =>
    if selected names t then
      let r := castInt32 t.result
      if r ≠ 0 then
        loop names ts ⟨st.run + 1, st.failed + 1,
          st.lines ++ [(.str t.name, false), (.str sFailed, false), (numToString r 12, false),
            (.str sClose, true)]⟩
      else
        loop names ts ⟨st.run + 1, st.failed,
          st.lines ++ [(.str t.name, false), (.str sPassed, true)]⟩
    else loop names ts st

/-- `RunTestsTCose` (test/run_tests.c:153-269): the return value, the number of
tests run, and the output. -/
def runTests (tests : List Entry) (names : List Bytes) : RunState :=
  let st := loop names tests ⟨0, 0, []⟩
  { st with lines := st.lines ++
      [(.str sSummary, false), (numToString st.run 12, false), (.str sRun, false),
       (numToString st.failed 12, false), (.str sEnd, true)] }

/-- Exit status of `main` (main.c:31-54): the number of failed tests, or the
number of leaked keys if there are none; the environment sees the low eight bits. -/
def mainStatus (tests : List Entry) (names : List Bytes) (leaks : Nat) : Nat :=
  let f := (runTests tests names).failed
  (if f ≠ 0 then f else leaks) % 256

end TCose.RunTests
