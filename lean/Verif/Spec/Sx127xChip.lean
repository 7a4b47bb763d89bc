import Verif.Model.Chip

/-!
# The SX1272 and SX1276 as seen from the host

What a write on the SPI bus does to the chip and what the chip then puts on the air or listens for, from the
Semtech data sheets (SX1272 rev 3, SX1276 rev 7).  Nothing here depends on the driver.  Only what a LoRa device
needs is described; unspecified register defaults are arbitrary (`defaults`).
-/

namespace LDL.Spec.Sx127x
open LDL.Sx127x (Kind)

/-- Register file `f` with register `a` set to `v`. -/
def put (f : Nat → UInt8) (a : Nat) (v : UInt8) : Nat → UInt8 := fun i => if i = a then v else f i

/-- A LoRa transmission. -/
structure Emission where
  bytes : Bytes
  /-- carrier frequency in 1/256 Hz -/
  carrier : Nat
  bw : Option Bw
  sf : Nat
  /-- 1 is 4/5 -/
  codingRate : Nat
  explicitHeader : Bool
  crc : Bool
  lowRate : Bool
  syncWord : Nat
  inverted : Bool
  preamble : Nat
  /-- at the chip's output, in hundredths of a dBm -/
  power : Int
  /-- the PA_BOOST pin is used, not RFO -/
  boost : Bool
  /-- the accessory lines -/
  io : ChipMode
  /-- the end of the transmission is signalled on DIO0 -/
  signalled : Bool
deriving DecidableEq

/-- A LoRa reception. -/
structure Listening where
  /-- carrier frequency in 1/256 Hz -/
  carrier : Nat
  bw : Option Bw
  sf : Nat
  codingRate : Nat
  explicitHeader : Bool
  lowRate : Bool
  syncWord : Nat
  inverted : Bool
  preamble : Nat
  /-- symbols to wait for a preamble -/
  symbols : Nat
  /-- longest payload accepted -/
  max : Nat
  io : ChipMode
  /-- reception is signalled on DIO0 and giving up on DIO1 -/
  signalled : Bool
deriving DecidableEq

/-- The chip.  `mode` is the low three bits of RegOpMode: 0 sleep, 1 standby, 3 transmit, 5 receive continuously,
6 receive single.  Registers 0x0D to 0x3F exist twice: `page` in LoRa mode, `fsk` in FSK mode. -/
structure Chip where
  kind : Kind
  io : ChipMode
  lora : Bool
  mode : Nat
  common : Nat → UInt8
  page : Nat → UInt8
  fsk : Nat → UInt8
  fifo : Nat → UInt8
  defaults : Nat → UInt8
  /-- transmissions so far, `none` for one that was not LoRa -/
  aired : List (Option Emission)
  /-- single receptions so far -/
  heard : List (Option Listening)

namespace Chip

/-- Registers that exist once per modem. -/
def paged (a : Nat) : Bool := decide (0x0D ≤ a ∧ a ≤ 0x3F)

/-- Value of a register. -/
def reg (c : Chip) (a : Nat) : UInt8 :=
  if paged a then (if c.lora then c.page a else c.fsk a) else c.common a

/-- RegFrf, 24 bits; the frequency step is 32 MHz / 2^19 = 15625/256 Hz. -/
def carrier (c : Chip) : Nat :=
  ((c.common 0x06).toNat * 65536 + (c.common 0x07).toNat * 256 + (c.common 0x08).toNat) * 15625

/-- RegModemConfig1: two bits on the SX1272, four on the SX1276. -/
def bw (c : Chip) : Option Bw :=
  match c.kind with
  | .sx1272 =>
    match (c.page 0x1D).toNat / 64 with
    | 0 => some .b125
    | 1 => some .b250
    | 2 => some .b500
    | _ => none
  | .sx1276 =>
    match (c.page 0x1D).toNat / 16 with
    | 7 => some .b125
    | 8 => some .b250
    | 9 => some .b500
    | _ => none

/-- RegModemConfig2. -/
def sf (c : Chip) : Nat := (c.page 0x1E).toNat / 16

def codingRate (c : Chip) : Nat :=
  match c.kind with
  | .sx1272 => (c.page 0x1D).toNat / 8 % 8
  | .sx1276 => (c.page 0x1D).toNat / 2 % 8

def explicitHeader (c : Chip) : Bool :=
  match c.kind with
  | .sx1272 => !(c.page 0x1D).toNat.testBit 2
  | .sx1276 => !(c.page 0x1D).toNat.testBit 0

def crc (c : Chip) : Bool :=
  match c.kind with
  | .sx1272 => (c.page 0x1D).toNat.testBit 1
  | .sx1276 => (c.page 0x1E).toNat.testBit 2

def lowRate (c : Chip) : Bool :=
  match c.kind with
  | .sx1272 => (c.page 0x1D).toNat.testBit 0
  | .sx1276 => (c.page 0x26).toNat.testBit 3

/-- RegPreambleMsb, RegPreambleLsb. -/
def preamble (c : Chip) : Nat := (c.page 0x20).toNat * 256 + (c.page 0x21).toNat

/-- RegModemConfig2 bits 1-0, RegSymbTimeoutLsb. -/
def symbols (c : Chip) : Nat := (c.page 0x1E).toNat % 4 * 256 + (c.page 0x1F).toNat

/-- RegPaDac: +20 dBm on the PA_BOOST pin. -/
def highPower (c : Chip) : Bool :=
  match c.kind with
  | .sx1272 => decide ((c.common 0x5A).toNat % 8 = 7)
  | .sx1276 => decide ((c.common 0x4D).toNat % 8 = 7)

/-- RegPaConfig bit 7: the PA_BOOST pin is used, not RFO. -/
def boost (c : Chip) : Bool := (c.common 0x09).toNat.testBit 7

/-- Output power in hundredths of a dBm.  SX1272: -1 + OutputPower on RFO, 2 + OutputPower on PA_BOOST.  SX1276:
Pmax - (15 - OutputPower) with Pmax = 10.8 + 0.6 MaxPower on RFO and 17 on PA_BOOST.  Three dB more on PA_BOOST in
high power mode. -/
def power (c : Chip) : Int :=
  let output : Int := (c.common 0x09).toNat % 16
  let maxPower : Int := (c.common 0x09).toNat / 16 % 8
  let high : Int := if c.highPower then 300 else 0
  match c.kind with
  | .sx1272 => if c.boost then 200 + 100 * output + high else -100 + 100 * output
  | .sx1276 => if c.boost then 1700 - 100 * (15 - output) + high else 1080 + 60 * maxPower - 100 * (15 - output)

/-- Interrupt `bit` of RegIrqFlags is not masked by RegIrqFlagsMask. -/
def unmasked (c : Chip) (bit : Nat) : Bool := !(c.page 0x11).toNat.testBit bit

/-- RegDioMapping1 bits 7-6: 0 RxDone, 1 TxDone. -/
def dio0 (c : Chip) : Nat := (c.common 0x40).toNat / 64

/-- RegDioMapping1 bits 5-4: 0 RxTimeout. -/
def dio1 (c : Chip) : Nat := (c.common 0x40).toNat / 16 % 4

/-- The payload: RegPayloadLength bytes from RegFifoTxBaseAddr. -/
def payload (c : Chip) : Bytes :=
  (List.range (c.page 0x22).toNat).map fun i => c.fifo (((c.page 0x0E).toNat + i) % 256)

/-- What a transmission started now looks like.  RegInvertIQ bit 0 is set for normal IQ on transmit. -/
def emission (c : Chip) : Emission :=
  { bytes := c.payload, carrier := c.carrier, bw := c.bw, sf := c.sf, codingRate := c.codingRate
    explicitHeader := c.explicitHeader, crc := c.crc, lowRate := c.lowRate, syncWord := (c.page 0x39).toNat
    inverted := !(c.page 0x33).toNat.testBit 0, preamble := c.preamble, power := c.power, boost := c.boost, io := c.io
    signalled := c.unmasked 3 && decide (c.dio0 = 1) }

/-- What a reception started now looks like.  RegInvertIQ bit 6 is set for inverted IQ on receive. -/
def listening (c : Chip) : Listening :=
  { carrier := c.carrier, bw := c.bw, sf := c.sf, codingRate := c.codingRate, explicitHeader := c.explicitHeader
    lowRate := c.lowRate, syncWord := (c.page 0x39).toNat, inverted := (c.page 0x33).toNat.testBit 6
    preamble := c.preamble, symbols := c.symbols, max := (c.page 0x23).toNat, io := c.io
    signalled := c.unmasked 6 && c.unmasked 7 && decide (c.dio0 = 0 ∧ c.dio1 = 0) }

/-- A write to RegOpMode.  LongRangeMode (bit 7) can be changed in sleep mode only. -/
def setOpMode (c : Chip) (v : Nat) : Chip :=
  let lora := if c.mode = 0 then decide (v ≥ 128) else c.lora
  { c with
    lora := lora
    mode := v % 8
    aired := if v % 8 = 3 then c.aired ++ [if lora then some c.emission else none] else c.aired
    heard := if v % 8 = 6 then c.heard ++ [if lora then some c.listening else none] else c.heard }

/-- A write to one register other than RegFifo.  Writing a one to RegIrqFlags clears the flag. -/
def setReg (c : Chip) (a : Nat) (v : UInt8) : Chip :=
  if a = 1 then c.setOpMode v.toNat
  else if paged a then
    if c.lora then
      { c with page := put c.page a (if a = 0x12 then c.page 0x12 &&& ~~~v else v) }
    else { c with fsk := put c.fsk a v }
  else { c with common := put c.common a v }

/-- A write to RegFifo, from RegFifoAddrPtr on; not possible in sleep mode. -/
def setFifo (c : Chip) (data : Bytes) : Chip :=
  if c.lora = true ∧ c.mode ≠ 0 then
    let ptr := (c.page 0x0D).toNat
    { c with
      fifo := fun i => data.getD ((i + 256 - ptr) % 256) (c.fifo i)
      page := put c.page 0x0D (UInt8.ofNat (ptr + data.length)) }
  else c

/-- Registers after a reset: FSK standby, preamble 8, RX base address 0, no interrupt flag. -/
def reset (c : Chip) : Chip :=
  { c with
    io := .reset
    lora := false
    mode := 1
    common := c.defaults
    fsk := c.defaults
    page := put (put (put (put c.defaults 0x20 0) 0x21 8) 0x0F 0) 0x12 0 }

/-- A write on the bus.  The opcode is an address with bit 7 set. -/
def write (c : Chip) (op : Nat) (data : Bytes) : Chip :=
  if c.io = .reset ∨ op < 128 then c
  else if op = 128 then c.setFifo data
  else data.zipIdx.foldl (fun c x => c.setReg (op - 128 + x.2) x.1) c

/-- A read on the bus has no effect except on the FIFO pointer. -/
def read (c : Chip) (op size : Nat) : Chip :=
  if op = 0 ∧ c.io ≠ .reset ∧ c.lora = true ∧ c.mode ≠ 0 then
    { c with page := put c.page 0x0D (UInt8.ofNat ((c.page 0x0D).toNat + size)) }
  else c

/-- The accessory lines are set, among them the reset line. -/
def setIo (c : Chip) (m : ChipMode) : Chip := if m = .reset then c.reset else { c with io := m }

/-- The effect of one call on the chip interface. -/
def exec (c : Chip) : BusOp → Chip
  | .mode m => c.setIo m
  | .write op data => if op.length = 1 then c.write (op.headD 0).toNat data else c
  | .read op size => if op.length = 1 then c.read (op.headD 0).toNat size else c

/-- The effect of a sequence of calls. -/
def run (c : Chip) (ops : List BusOp) : Chip := ops.foldl exec c

/-- What a read of `size` bytes from RegFifo returns. -/
def readFifo (c : Chip) (size : Nat) : Bytes :=
  (List.range size).map fun i => c.fifo (((c.page 0x0D).toNat + i) % 256)

/-- What the reads among a sequence of calls return: a register, or bytes of the FIFO. -/
def answers (c : Chip) : List BusOp → List Bytes
  | [] => []
  | .read op size :: l =>
    (if op = [0] then c.readFifo size else (List.range size).map fun i => c.reg ((op.headD 0).toNat + i)) ::
      answers (c.exec (.read op size)) l
  | o :: l => answers (c.exec o) l

/-- RegIrqFlags with the interrupts `f` added, as far as RegIrqFlagsMask lets them. -/
def raise (c : Chip) (f : UInt8) : Nat → UInt8 :=
  put c.page 0x12 (c.page 0x12 ||| (f &&& ~~~c.page 0x11))

/-- What the chip does on its own.  Flags other than TxDone (bit 3), RxDone (6) and RxTimeout (7) may be raised too
(`x`). -/
inductive Acts : Chip → Chip → Prop
  | txDone (c : Chip) (x : UInt8) (h : c.mode = 3) (hx : x &&& 0xC8 = 0x08) :
      Acts c { c with mode := 1, page := c.raise x }
  | rxTimeout (c : Chip) (x : UInt8) (h : c.mode = 6) (hx : x &&& 0xC8 = 0x80) :
      Acts c { c with mode := 1, page := c.raise x }
  | rxDone (c : Chip) (x : UInt8) (packet : Bytes) (snr rssi : UInt8) (h : c.mode = 6) (hx : x &&& 0xC8 = 0x40)
      (hl : packet.length ≤ (c.page 0x23).toNat) :
      Acts c { c with
        mode := 1
        fifo := fun i => packet.getD ((i + 256 - (c.page 0x0F).toNat) % 256) (c.fifo i)
        page := put (put (put (c.raise x) 0x13 (UInt8.ofNat packet.length)) 0x19 snr) 0x1A rssi }

end Chip
end LDL.Spec.Sx127x
