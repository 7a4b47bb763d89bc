import Verif.Model.Basic

/-!
# Model of src/ldl_stream.c

A stream is a cursor over a caller supplied buffer.  `mem` is the buffer.  The ghost field
`fault` records whether any access so far was outside `mem` (undefined behaviour in C).
-/

namespace LDL

/-- `struct ldl_stream` (include/ldl_stream.h:32-39).  `writable` stands for `write != NULL`.
`fault` is a ghost field with no counterpart in C. -/
structure Stream where
  mem : Bytes
  writable : Bool
  size : Nat
  pos : Nat
  error : Bool
  fault : Bool
deriving Repr, DecidableEq

namespace Stream

/-- `LDL_Stream_init` (src/ldl_stream.c:28-38). -/
def init (buf : Bytes) (size : Nat) : Stream :=
  { mem := buf, writable := true, size := size, pos := 0, error := false, fault := false }

/-- `LDL_Stream_initReadOnly` (src/ldl_stream.c:40-50). -/
def initReadOnly (buf : Bytes) (size : Nat) : Stream :=
  { mem := buf, writable := false, size := size, pos := 0, error := false, fault := false }

/-- `LDL_Stream_read` (src/ldl_stream.c:52-74).  The result is `none` for `false`.  The
comparison `(size - pos) >= count` is done in `int` in C, hence the form used here, and
`pos += count` wraps at 8 bits. -/
def read (s : Stream) (count : Nat) : Option Bytes × Stream :=
  if s.error then (none, s)
  else if s.pos + count ≤ s.size then
    (some ((s.mem.drop s.pos).take count),
      { s with pos := u8 (s.pos + count), fault := s.fault || decide (s.mem.length < s.pos + count) })
  else (none, { s with error := true })

/-- `LDL_Stream_write` (src/ldl_stream.c:76-100). -/
def write (s : Stream) (bs : Bytes) : Bool × Stream :=
  if s.writable then
    if s.error then (false, s)
    else if s.pos + bs.length ≤ s.size then
      (true,
        { s with
          mem := s.mem.take s.pos ++ bs ++ s.mem.drop (s.pos + bs.length)
          pos := u8 (s.pos + bs.length)
          fault := s.fault || decide (s.mem.length < s.pos + bs.length) })
    else (false, { s with error := true })
  else (false, s)

/-- `LDL_Stream_tell` (src/ldl_stream.c:102-107). -/
def tell (s : Stream) : Nat := s.pos

/-- `LDL_Stream_remaining` (src/ldl_stream.c:109-114): the `int` difference is truncated to
`uint8_t` on return. -/
def remaining (s : Stream) : Nat := u8 (s.size + 256 - s.pos)

/-- `LDL_Stream_peek` (src/ldl_stream.c:116-129).  Const in C; the stream is returned only for
the ghost field. -/
def peek (s : Stream) : Option UInt8 × Stream :=
  if 0 < s.remaining then
    (some (s.mem.getD s.pos 0), { s with fault := s.fault || decide (s.mem.length < s.pos + 1) })
  else (none, s)

/-- `LDL_Stream_seekSet` (src/ldl_stream.c:131-144). -/
def seekSet (s : Stream) (offset : Nat) : Bool × Stream :=
  if offset ≤ s.size then (true, { s with pos := offset }) else (false, s)

/-- `LDL_Stream_rewind` (src/ldl_stream.c:146-151). -/
def rewind (s : Stream) : Stream := { s with pos := 0 }

/-- `LDL_Stream_seekCur` (src/ldl_stream.c:153-177).  For a negative offset the C code computes
`self->pos -= U8(offset)`, where `U8(offset)` is `offset` modulo 256. -/
def seekCur (s : Stream) (offset : Int) : Bool × Stream :=
  if 0 ≤ (s.pos : Int) + offset ∧ (s.pos : Int) + offset ≤ (s.size : Int) then
    if 0 ≤ offset then
      (true, { s with pos := u8 (s.pos + (offset % 256).toNat) })
    else
      (true, { s with pos := u8 (s.pos + 256 - (offset % 256).toNat) })
  else (false, s)

/-- `LDL_Stream_error` (src/ldl_stream.c:376-381). -/
def hasError (s : Stream) : Bool := s.error

/-- The bytes written by `LDL_Stream_putU16` (src/ldl_stream.c:195-198). -/
def bytes16 (v : Nat) : Bytes := [UInt8.ofNat v, UInt8.ofNat (v >>> 8)]

/-- The bytes written by `LDL_Stream_putU24` (src/ldl_stream.c:215-219). -/
def bytes24 (v : Nat) : Bytes := [UInt8.ofNat v, UInt8.ofNat (v >>> 8), UInt8.ofNat (v >>> 16)]

/-- The bytes written by `LDL_Stream_putU32` (src/ldl_stream.c:236-241). -/
def bytes32 (v : Nat) : Bytes :=
  [UInt8.ofNat v, UInt8.ofNat (v >>> 8), UInt8.ofNat (v >>> 16), UInt8.ofNat (v >>> 24)]

/-- `LDL_Stream_putU8` (src/ldl_stream.c:179-184). -/
def putU8 (s : Stream) (v : Nat) : Bool × Stream := s.write [UInt8.ofNat v]

/-- `LDL_Stream_putU16` (src/ldl_stream.c:186-204), the portable branch.  (With
`LDL_LITTLE_ENDIAN` defined on a little-endian machine the same bytes are copied.) -/
def putU16 (s : Stream) (v : Nat) : Bool × Stream := s.write (bytes16 v)

/-- `LDL_Stream_putU24` (src/ldl_stream.c:206-225), the portable branch. -/
def putU24 (s : Stream) (v : Nat) : Bool × Stream := s.write (bytes24 v)

/-- `LDL_Stream_putU32` (src/ldl_stream.c:227-247), the portable branch. -/
def putU32 (s : Stream) (v : Nat) : Bool × Stream := s.write (bytes32 v)

/-- `LDL_Stream_putEUI` (src/ldl_stream.c:249-265): eight bytes, reversed.  `value` is an array of
eight bytes in C; a shorter list is read as zero padded. -/
def putEUI (s : Stream) (value : Bytes) : Bool × Stream :=
  s.write [value.getD 7 0, value.getD 6 0, value.getD 5 0, value.getD 4 0,
           value.getD 3 0, value.getD 2 0, value.getD 1 0, value.getD 0 0]

/-- `LDL_Stream_getU8` (src/ldl_stream.c:267-272).  On failure the C output variable is left as it
was; here the result is `none`. -/
def getU8 (s : Stream) : Option Nat × Stream :=
  match s.read 1 with
  | (some [b0], s') => (some b0.toNat, s')
  | (_, s') => (none, s')

/-- `LDL_Stream_getU16` (src/ldl_stream.c:274-296), portable branch.  Shift-or of disjoint bytes is
written as arithmetic. -/
def getU16 (s : Stream) : Option Nat × Stream :=
  match s.read 2 with
  | (some [b0, b1], s') => (some (b0.toNat + 256 * b1.toNat), s')
  | (_, s') => (none, s')

/-- `LDL_Stream_getU24` (src/ldl_stream.c:298-322), portable branch. -/
def getU24 (s : Stream) : Option Nat × Stream :=
  match s.read 3 with
  | (some [b0, b1, b2], s') => (some (b0.toNat + 256 * b1.toNat + 65536 * b2.toNat), s')
  | (_, s') => (none, s')

/-- `LDL_Stream_getU32` (src/ldl_stream.c:324-350), portable branch. -/
def getU32 (s : Stream) : Option Nat × Stream :=
  match s.read 4 with
  | (some [b0, b1, b2, b3], s') =>
    (some (b0.toNat + 256 * b1.toNat + 65536 * b2.toNat + 16777216 * b3.toNat), s')
  | (_, s') => (none, s')

/-- `LDL_Stream_getEUI` (src/ldl_stream.c:352-374): eight bytes, reversed. -/
def getEUI (s : Stream) : Option Bytes × Stream :=
  match s.read 8 with
  | (some [b0, b1, b2, b3, b4, b5, b6, b7], s') => (some [b7, b6, b5, b4, b3, b2, b1, b0], s')
  | (_, s') => (none, s')

/-- The operations a client can perform on a stream. -/
inductive Op
  | read (count : Nat)
  | write (bs : Bytes)
  | peek
  | seekSet (offset : Nat)
  | seekCur (offset : Int)
  | rewind
  | putU8 (v : Nat) | putU16 (v : Nat) | putU24 (v : Nat) | putU32 (v : Nat) | putEUI (v : Bytes)
  | getU8 | getU16 | getU24 | getU32 | getEUI

/-- One stream operation, result ignored (dispatch to the functions above). -/
def step (s : Stream) : Op → Stream
  | .read n => (s.read n).2
  | .write bs => (s.write bs).2
  | .peek => s.peek.2
  | .seekSet n => (s.seekSet n).2
  | .seekCur n => (s.seekCur n).2
  | .rewind => s.rewind
  | .putU8 v => (s.putU8 v).2
  | .putU16 v => (s.putU16 v).2
  | .putU24 v => (s.putU24 v).2
  | .putU32 v => (s.putU32 v).2
  | .putEUI v => (s.putEUI v).2
  | .getU8 => s.getU8.2
  | .getU16 => s.getU16.2
  | .getU24 => s.getU24.2
  | .getU32 => s.getU32.2
  | .getEUI => s.getEUI.2

/-- A sequence of operations. -/
def run (s : Stream) (ops : List Op) : Stream := ops.foldl step s

end Stream
end LDL
