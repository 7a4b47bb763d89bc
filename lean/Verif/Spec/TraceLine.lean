import Verif.Model.TraceLine

/-!
# Lines of debug output: what they should say
-/

namespace LDL.Spec.Trace
open LDL.Trace

/-- The macros between `LDL_TRACE_BEGIN` and `LDL_TRACE_FINAL`: formatted text, bytes in hexadecimal, bytes as bits. -/
inductive Item
  | part (text : Bytes)
  | hex (data : Bytes)
  | bits (data : Bytes)

/-- The hexadecimal digits, in capitals as `%X` prints them. -/
def hexDigit (n : Nat) : UInt8 :=
  [0x30, 0x31, 0x32, 0x33, 0x34, 0x35, 0x36, 0x37, 0x38, 0x39, 0x41, 0x42, 0x43, 0x44, 0x45, 0x46].getD n 0

/-- What an item should add to the line: the text, two digits for each byte, eight bits for each byte, highest first. -/
def Item.says : Item → Bytes
  | .part text => text
  | .hex data => data.flatMap fun b => [hexDigit (b.toNat / 16), hexDigit (b.toNat % 16)]
  | .bits data => data.flatMap fun b => [7, 6, 5, 4, 3, 2, 1, 0].map fun i => if b.toNat.testBit i then 49 else 48

/-- The items carried out on the buffer. -/
def Item.run (l : Line) : Item → Option Line
  | .part text => LDL.Trace.part l text
  | .hex data => LDL.Trace.hex l data
  | .bits data => LDL.Trace.bitstring l data

def runAll (l : Line) : List Item → Option Line
  | [] => some l
  | i :: rest => (i.run l).bind fun l => runAll l rest

/-- A whole line: what is printed (`none` inside: nothing), or `none` if memory outside of the buffer is written. -/
def line (l : Line) (items : List Item) : Option (Option Bytes) := (runAll (begin_ l) items).map end_

end LDL.Spec.Trace
