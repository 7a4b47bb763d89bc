import Verif.Model.Ctr

/-!
# Model of wrappers/mbed/mbed_ldl_port.cpp, built with `MBED_CONF_LDL_ENABLE_VERBOSE_DEBUG`

A line of debug output is put together in a buffer of 1024 bytes.  `size_t` has 32 bits.  The mutex is held from
`my_trace_begin` to `my_trace_end`, so lines are put together one at a time.
-/

namespace LDL.Trace

/-- `buffer` and `pos` (wrappers/mbed/mbed_ldl_port.cpp:8-9).  `buffer` has 1024 bytes. -/
structure Line where
  buffer : Bytes
  pos : Nat
deriving Repr, DecidableEq

/-- `sizeof(buffer)` (wrappers/mbed/mbed_ldl_port.cpp:8). -/
def SIZE : Nat := 1024

/-- `snprintf(&buffer[pos], n, ...)` where the format yields `text` (the C standard, 7.21.6.5): at most `n - 1` characters and a
terminating zero are written, or nothing if `n` is zero.  `none` is a write outside of the buffer. -/
def snprintf (buffer : Bytes) (pos n : Nat) (text : Bytes) : Option Bytes :=
  if n = 0 then some buffer
  else
    let w := text.take (n - 1) ++ [0]
    if pos + w.length ≤ buffer.length then some (memcpyAt buffer pos w) else none

/-- `my_trace_begin` (wrappers/mbed/mbed_ldl_port.cpp:14-21). -/
def begin_ (l : Line) : Line := { buffer := memcpyAt l.buffer 0 [0], pos := 0 }

/-- `my_trace_part` (wrappers/mbed/mbed_ldl_port.cpp:33-46) for a format that yields `text`; `vsnprintf` returns the length of
`text`, however much of it was written.  Errors of `vsnprintf` (a negative result) are not modelled. -/
def part (l : Line) (text : Bytes) : Option Line :=
  (snprintf l.buffer l.pos (sub32 SIZE l.pos) text).map fun buffer =>
    { buffer := buffer, pos := u32 (l.pos + text.length) }

/-- One digit of `%X` or `%u`. -/
def digit (n : Nat) : UInt8 := if n < 10 then UInt8.ofNat (48 + n) else UInt8.ofNat (55 + n)

/-- `%X` of a byte: no leading zero. -/
def formatX (n : Nat) : Bytes := if n < 16 then [digit n] else [digit (n / 16), digit (n % 16)]

/-- `my_trace_hex` (wrappers/mbed/mbed_ldl_port.cpp:48-65): `"%X%X"` of `ptr[i] >> 4` and `ptr[i]`. -/
def hex (l : Line) : Bytes → Option Line
  | [] => some l
  | b :: rest => (part l (formatX (b.toNat >>> 4) ++ formatX b.toNat)).bind fun l => hex l rest

/-- `my_trace_bitstring` (wrappers/mbed/mbed_ldl_port.cpp:67-89). -/
def bitstring (l : Line) : Bytes → Option Line
  | [] => some l
  | b :: rest =>
    (part l [digit ((b.toNat >>> 7) &&& 1), digit ((b.toNat >>> 6) &&& 1), digit ((b.toNat >>> 5) &&& 1),
      digit ((b.toNat >>> 4) &&& 1), digit ((b.toNat >>> 3) &&& 1), digit ((b.toNat >>> 2) &&& 1),
      digit ((b.toNat >>> 1) &&& 1), digit (b.toNat &&& 1)]).bind fun l => bitstring l rest

/-- `my_trace_end` (wrappers/mbed/mbed_ldl_port.cpp:91-100): the line given to `tr_debug`, if any.  `tr_debug` takes it for a
format; what it makes of `%` is not modelled. -/
def end_ (l : Line) : Option Bytes := if l.pos > 0 then some (l.buffer.takeWhile (· != 0)) else none

/-- The line on the channel mask in `debugSession` (src/ldl_mac.c:3243-3246): `"chMask="` and the bits. -/
def maskLine (l : Line) (chMask : Bytes) : Option (Option Bytes) :=
  ((part (begin_ l) [0x63, 0x68, 0x4d, 0x61, 0x73, 0x6b, 0x3d]).bind fun l => bitstring l chMask).map end_

end LDL.Trace
