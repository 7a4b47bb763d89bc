import Verif.Model.Chip

/-!
# The SX1261, SX1262 and the radio of the STM32WL55 as seen from the host

What a command on the SPI bus does to the chip and what the chip then puts on the air or listens for, from the Semtech
data sheet (SX1261/2, rev 2.1).  Nothing here depends on the driver.  Only what a LoRa device needs is described;
what the chip has in its memory after a reset or a cold start is arbitrary unless the data sheet says otherwise.
-/

namespace LDL.Spec.Sx126x

/-- Operating modes. -/
inductive Mode | sleep | standbyRc | standbyXosc | rx | tx
deriving Repr, DecidableEq

/-- `f` with `v` at `a`. -/
def keep {α : Type} (f : Nat → α) (a : Nat) (v : α) : Nat → α := fun i => if i = a then v else f i

/-- A LoRa transmission. -/
structure Emission where
  bytes : Bytes
  /-- carrier frequency in 1/16384 Hz -/
  carrier : Nat
  bw : Option Bw
  sf : Nat
  /-- 1 is 4/5 -/
  codingRate : Nat
  explicitHeader : Bool
  crc : Bool
  lowRate : Bool
  syncWord : Nat
  inverted : Bool
  preamble : Nat
  /-- nominal power at the chip's output in dBm, if the amplifier is configured as the data sheet says -/
  power : Option Int
  /-- the high power amplifier is used, not the low power one -/
  hp : Bool
  /-- the accessory lines -/
  io : ChipMode
  /-- the end of the transmission is signalled on DIO1 -/
  signalled : Bool
  /-- the transmission is given up after this time (0: never) -/
  timer : Nat
  /-- parameters of SetRegulatorMode -/
  regulator : Bytes
  /-- parameters of SetDIO2AsRfSwitchCtrl -/
  rfSwitch : Bytes
  /-- parameters of SetDIO3AsTCXOCtrl, none if the oscillator is a crystal -/
  tcxo : Bytes
  /-- parameters of the last CalibrateImage, none if the image has not been calibrated -/
  image : Bytes

/-- A LoRa reception. -/
structure Listening where
  /-- carrier frequency in 1/16384 Hz -/
  carrier : Nat
  bw : Option Bw
  sf : Nat
  codingRate : Nat
  explicitHeader : Bool
  lowRate : Bool
  syncWord : Nat
  inverted : Bool
  preamble : Nat
  /-- symbols to wait for a preamble -/
  symbols : Nat
  /-- reception is given up after this time (0: never) -/
  timer : Nat
  /-- longest payload accepted -/
  max : Nat
  io : ChipMode
  /-- reception and giving up are signalled on DIO1 -/
  signalled : Bool
  regulator : Bytes
  rfSwitch : Bytes
  tcxo : Bytes
  image : Bytes

/-- The chip.  `last op` are the parameters that came with the last command `op`. -/
structure Chip where
  io : ChipMode
  mode : Mode
  last : Nat → Bytes
  regs : Nat → UInt8
  buffer : Nat → UInt8
  /-- pending interrupts, 16 bits -/
  irq : Nat
  rxLength : UInt8
  rxStart : UInt8
  /-- the three bytes of the packet status -/
  status : Nat → UInt8
  /-- memory contents after a cold start -/
  defaults : Nat → Bytes
  defaultRegs : Nat → UInt8
  noise : Nat → UInt8
  /-- transmissions so far, `none` for one that was not LoRa -/
  aired : List (Option Emission)
  /-- receptions so far -/
  heard : List (Option Listening)

namespace Chip

/-- Parameter `i` of the last command `op`. -/
def arg (c : Chip) (op i : Nat) : Nat := ((c.last op).getD i 0).toNat

/-- SetPacketType. -/
def lora (c : Chip) : Bool := decide (c.arg 0x8a 0 = 1)

/-- SetRfFrequency; the frequency step is 32 MHz / 2^25 = 15625/16384 Hz. -/
def carrier (c : Chip) : Nat :=
  (c.arg 0x86 0 * 0x1000000 + c.arg 0x86 1 * 0x10000 + c.arg 0x86 2 * 0x100 + c.arg 0x86 3) * 15625

/-- SetModulationParams. -/
def bw (c : Chip) : Option Bw :=
  match c.arg 0x8b 1 with
  | 4 => some .b125
  | 5 => some .b250
  | 6 => some .b500
  | _ => none

/-- Nominal output power: full output and the value of SetTxParams that gives it for each amplifier setting of the data
sheet (table 13-21), one dB less for each step below. -/
def nominal (duty hpMax device : Nat) (setting : Int) : Option Int :=
  match duty, hpMax, device with
  | 4, 0, 1 => some (14 - (14 - setting))
  | 1, 0, 1 => some (10 - (13 - setting))
  | 4, 7, 0 => some (22 - (22 - setting))
  | 3, 5, 0 => some (20 - (22 - setting))
  | 2, 3, 0 => some (17 - (22 - setting))
  | 2, 2, 0 => some (14 - (22 - setting))
  | _, _, _ => none

/-- A two's complement byte. -/
def signed (n : Nat) : Int := if n < 128 then n else (n : Int) - 256

/-- SetPaConfig and SetTxParams. -/
def power (c : Chip) : Option Int := nominal (c.arg 0x95 0) (c.arg 0x95 1) (c.arg 0x95 2) (signed (c.arg 0x8e 0))

/-- SetDioIrqParams: interrupts recorded. -/
def irqMask (c : Chip) : Nat := c.arg 0x08 0 * 256 + c.arg 0x08 1

/-- SetDioIrqParams: interrupts signalled on DIO1. -/
def dio1Mask (c : Chip) : Nat := c.arg 0x08 2 * 256 + c.arg 0x08 3

/-- Interrupt `bit` is recorded and signalled on DIO1. -/
def signals (c : Chip) (bit : Nat) : Bool := c.irqMask.testBit bit && c.dio1Mask.testBit bit

/-- The payload: the length of SetPacketParams from the base address of SetBufferBaseAddress. -/
def payload (c : Chip) : Bytes :=
  (List.range (c.arg 0x8c 3)).map fun i => c.buffer ((c.arg 0x8f 0 + i) % 256)

def syncWord (c : Chip) : Nat := (c.regs 0x740).toNat * 256 + (c.regs 0x741).toNat

/-- What a transmission started now looks like. -/
def emission (c : Chip) (timer : Nat) : Emission :=
  { bytes := c.payload, carrier := c.carrier, bw := c.bw, sf := c.arg 0x8b 0, codingRate := c.arg 0x8b 2
    explicitHeader := decide (c.arg 0x8c 2 = 0), crc := decide (c.arg 0x8c 4 = 1), lowRate := decide (c.arg 0x8b 3 = 1)
    syncWord := c.syncWord, inverted := decide (c.arg 0x8c 5 = 1), preamble := c.arg 0x8c 0 * 256 + c.arg 0x8c 1
    power := c.power, hp := decide (c.arg 0x95 2 = 0), io := c.io, signalled := c.signals 0, timer := timer
    regulator := c.last 0x96, rfSwitch := c.last 0x9d, tcxo := c.last 0x97, image := c.last 0x98 }

/-- What a reception started now looks like. -/
def listening (c : Chip) (timer : Nat) : Listening :=
  { carrier := c.carrier, bw := c.bw, sf := c.arg 0x8b 0, codingRate := c.arg 0x8b 2
    explicitHeader := decide (c.arg 0x8c 2 = 0), lowRate := decide (c.arg 0x8b 3 = 1), syncWord := c.syncWord
    inverted := decide (c.arg 0x8c 5 = 1), preamble := c.arg 0x8c 0 * 256 + c.arg 0x8c 1, symbols := c.arg 0xa0 0
    timer := timer, max := c.arg 0x8c 3, io := c.io, signalled := c.signals 1 && c.signals 9
    regulator := c.last 0x96, rfSwitch := c.last 0x9d, tcxo := c.last 0x97, image := c.last 0x98 }

/-- A cold start: all settings are lost, the oscillator is a crystal, DIO2 is not used for the antenna switch, the image
is not calibrated and no interrupt pending. -/
def lose (c : Chip) : Chip :=
  { c with last := keep (keep (keep c.defaults 0x97 []) 0x98 []) 0x9d [0], regs := c.defaultRegs, buffer := c.noise, irq := 0 }

/-- The reset line is asserted. -/
def reset (c : Chip) : Chip := { c.lose with io := .reset, mode := .standbyRc }

/-- The chip wakes up when it is selected. -/
def woken (c : Chip) : Chip := { c with mode := if c.mode = .sleep then .standbyRc else c.mode }

/-- The command `op` with parameters `a`, on a chip that is awake.  With SetSleep the data buffer is lost, and all
settings too unless bit 2 is set.  SetPacketType loses modulation and packet parameters. -/
def obey (c : Chip) (op : Nat) (a : Bytes) : Chip :=
  let p (i : Nat) : Nat := (a.getD i 0).toNat
  if op = 0x84 then
    if (p 0).testBit 2 then { c with mode := .sleep, buffer := c.noise } else { c.lose with mode := .sleep }
  else if op = 0x80 then { c with mode := if p 0 = 0 then .standbyRc else .standbyXosc }
  else if op = 0x83 then
    { c with
      mode := .tx
      aired := c.aired ++ [if c.lora then some (c.emission (p 0 * 65536 + p 1 * 256 + p 2)) else none] }
  else if op = 0x82 then
    { c with
      mode := .rx
      heard := c.heard ++ [if c.lora then some (c.listening (p 0 * 65536 + p 1 * 256 + p 2)) else none] }
  else if op = 0x02 then { c with irq := c.irq &&& (65535 - (p 0 * 256 + p 1)) }
  else if op = 0x0d then
    { c with regs := fun r => if p 0 * 256 + p 1 ≤ r then (a.drop 2).getD (r - (p 0 * 256 + p 1)) (c.regs r) else c.regs r }
  else if op = 0x0e then
    { c with buffer := fun i => (a.drop 1).getD ((i + 256 - p 0) % 256) (c.buffer i) }
  else if op = 0x8a then
    { c with last := keep (keep (keep c.last 0x8b (c.defaults 0x8b)) 0x8c (c.defaults 0x8c)) 0x8a a }
  else { c with last := keep c.last op a }

/-- The bytes of a write on the bus: a command and its parameters. -/
def write (c : Chip) : Bytes → Chip
  | [] => c
  | op :: a => if c.io = .reset then c else c.woken.obey op.toNat a

/-- The accessory lines are set, among them the reset line. -/
def setIo (c : Chip) (m : ChipMode) : Chip := if m = .reset then c.reset else { c with io := m }

/-- The effect of one call on the chip interface. -/
def exec (c : Chip) : BusOp → Chip
  | .mode m => c.setIo m
  | .write op data => c.write (op ++ data)
  | .read _ _ => if c.io = .reset then c else c.woken

/-- The effect of a sequence of calls. -/
def run (c : Chip) (ops : List BusOp) : Chip := ops.foldl exec c

/-- What a read returns. -/
def answer (c : Chip) : BusOp → Bytes
  | .read [0x12, _] n => ([UInt8.ofNat (c.irq / 256), UInt8.ofNat c.irq]).take n
  | .read [0x13, _] n => [c.rxLength, c.rxStart].take n
  | .read [0x14, _] n => (List.range n).map c.status
  | .read [0x1e, offset, _] n => (List.range n).map fun i => c.buffer ((offset.toNat + i) % 256)
  | .read [0x1d, hi, lo, _] n => (List.range n).map fun i => c.regs (hi.toNat * 256 + lo.toNat + i)
  | _ => []

/-- What the reads among a sequence of calls return. -/
def answers (c : Chip) : List BusOp → List Bytes
  | [] => []
  | .read op n :: l => c.answer (.read op n) :: answers (c.exec (.read op n)) l
  | o :: l => answers (c.exec o) l

/-- What the chip does on its own.  Interrupts other than TxDone (bit 0), RxDone (1) and Timeout (9) may be raised too
(`x`). -/
inductive Acts : Chip → Chip → Prop
  | txDone (c : Chip) (x : Nat) (h : c.mode = .tx) (hx : x &&& 0x203 = 0x001) :
      Acts c { c with mode := .standbyRc, irq := c.irq ||| (x &&& c.irqMask) }
  | rxTimeout (c : Chip) (x : Nat) (h : c.mode = .rx) (hx : x &&& 0x203 = 0x200) :
      Acts c { c with mode := .standbyRc, irq := c.irq ||| (x &&& c.irqMask) }
  | rxDone (c : Chip) (x : Nat) (packet : Bytes) (status : Nat → UInt8) (h : c.mode = .rx) (hx : x &&& 0x203 = 0x002)
      (hl : packet.length ≤ c.arg 0x8c 3) :
      Acts c { c with
        mode := .standbyRc
        irq := c.irq ||| (x &&& c.irqMask)
        buffer := fun i => packet.getD ((i + 256 - c.arg 0x8f 1) % 256) (c.buffer i)
        rxLength := UInt8.ofNat packet.length
        rxStart := UInt8.ofNat (c.arg 0x8f 1)
        status := status }

end Chip
end LDL.Spec.Sx126x
