import Verif.Model.Basic

/-!
# Model of the byte transfers of wrappers/mbed/wl55.cpp

The STM32WL reaches its radio through the peripheral SUBGHZSPI.  Every byte written to the data register clocks one byte
in, which some time later can be read from the same register.  Selection of the chip, the busy line and the mutex are in
`Verif/Model/Spi.lean`.
-/

namespace LDL
namespace WlSpi

/-- `count_preset` (wrappers/mbed/wl55.cpp:157, 189).  `uint32_t` arithmetic. -/
def countPreset (coreClock : Nat) : Nat := u32 (100 * (u32 (coreClock * 28) >>> 19))

/-- The peripheral and the radio.  `wire` records the bytes clocked out, in order. -/
structure Port where
  wire : Bytes := []
  /-- bytes being clocked in, in order, each with the number of readings of the status register before it is there -/
  flight : List (Nat × UInt8) := []
  /-- bytes to be read -/
  fifo : Bytes := []
  /-- what the data register gives when there is no byte -/
  last : UInt8 := 0

/-- What the radio does with the `n`-th byte clocked out: how many readings of the status register find nothing, and the
byte it clocks in. -/
structure Chip where
  delay : Nat → Nat
  answer : Nat → UInt8

/-- A byte is written to the data register (wrappers/mbed/wl55.cpp:170-174, 202-206). -/
def Port.put (p : Port) (c : Chip) (b : UInt8) : Port :=
  { p with wire := p.wire ++ [b], flight := p.flight ++ [(c.delay p.wire.length, c.answer p.wire.length)] }

/-- The status register is read, and `SPI_SR_RXNE` with it (wrappers/mbed/wl55.cpp:178, 210). -/
def Port.poll (p : Port) : Bool × Port :=
  let p := match p.flight with
    | [] => p
    | (0, b) :: rest => { p with flight := rest, fifo := p.fifo ++ [b] }
    | (n + 1, b) :: rest => { p with flight := (n, b) :: rest }
  (!p.fifo.isEmpty, p)

/-- The loop that waits for a byte (wrappers/mbed/wl55.cpp:176-182, 208-214). -/
def Port.await : Nat → Port → Port
  | 0, p => p
  | count + 1, p => if p.poll.1 then p.poll.2 else Port.await count p.poll.2

/-- The data register is read (wrappers/mbed/wl55.cpp:184, 216). -/
def Port.get (p : Port) : UInt8 × Port :=
  match p.fifo with
  | [] => (p.last, p)
  | b :: rest => (b, { p with fifo := rest, last := b })

/-- One byte out and one in: a pass of the loops (wrappers/mbed/wl55.cpp:168-185, 200-217). -/
def Port.exchange (p : Port) (c : Chip) (preset : Nat) (b : UInt8) : UInt8 × Port :=
  ((p.put c b).await preset).get

/-- `write_spi` (wrappers/mbed/wl55.cpp:153-186).  Simplification: the wait for `SPI_SR_TXE` before the first byte is left
out, as the previous transfer has ended. -/
def writeSpi (c : Chip) (preset : Nat) : Bytes → Port → Port
  | [], p => p
  | b :: data, p => writeSpi c preset data (p.exchange c preset b).2

/-- `read_spi` (wrappers/mbed/wl55.cpp:188-218), with the simplification of `writeSpi`.  Gives the bytes read. -/
def readSpi (c : Chip) (preset : Nat) : Nat → Port → Bytes × Port
  | 0, p => ([], p)
  | size + 1, p =>
    let r := p.exchange c preset 0
    let s := readSpi c preset size r.2
    (r.1 :: s.1, s.2)

/-- The transfers of `chip_write` (wrappers/mbed/wl55.cpp:356-357). -/
def chipWrite (c : Chip) (preset : Nat) (opcode data : Bytes) (p : Port) : Port :=
  writeSpi c preset data (writeSpi c preset opcode p)

/-- The transfers of `chip_read` (wrappers/mbed/wl55.cpp:390-391). -/
def chipRead (c : Chip) (preset : Nat) (opcode : Bytes) (size : Nat) (p : Port) : Bytes × Port :=
  readSpi c preset size (writeSpi c preset opcode p)

end WlSpi
end LDL
