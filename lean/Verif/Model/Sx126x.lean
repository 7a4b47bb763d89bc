import Verif.Model.Chip

/-!
# Model of src/ldl_sx126x.c (SX1261, SX1262, WL55)

All three chips are built in (`LDL_ENABLE_SX1261`, `LDL_ENABLE_SX1262`, `LDL_ENABLE_WL55`); `LDL_ENABLE_RADIO_DEBUG` is
not defined: it only adds reads and log lines.  `chip_write` and `chip_read` return false while the chip is busy: in
the model `busy i` says that access number `i` of a call of the driver fails.
-/

namespace LDL.Sx126x

/-- `enum ldl_sx126x_pa` (include/ldl_radio.h:138-142). -/
inductive Pa | auto | lp | hp
deriving Repr, DecidableEq

/-- `struct ldl_radio` (include/ldl_radio.h:183-241), the fields this driver uses.  `trim_xtal`, `xta` and `xtb` are
stored but never used by the C code. -/
structure Driver where
  type : Kind
  mode : RadioMode := .reset
  xtal : Xtal
  pa : Pa
  txGain : Int
  /-- `enum ldl_sx126x_regulator` (include/ldl_radio.h:147-151) as a number -/
  regulator : Nat
  /-- `enum ldl_sx126x_voltage` (include/ldl_radio.h:154-164) as a number -/
  voltage : Nat
  /-- `enum ldl_sx126x_txen` (include/ldl_radio.h:167-171) as a number -/
  txen : Nat
  imagePending : Bool := false
deriving Repr, DecidableEq

/-- `init_state` (src/ldl_sx126x.c:744-773). -/
def init (type : Kind) (xtal : Xtal) (pa : Pa) (txGain : Int) (regulator voltage txen : Nat) : Driver :=
  { type := type, xtal := xtal, pa := pa, txGain := txGain, regulator := regulator, voltage := voltage, txen := txen }

/-! ### Access to the chip -/

/-- Calls made one after the other until one fails: the calls that reached the chip, from access number `i` on.
`chip_set_mode` does not fail. -/
def attempt (busy : Nat → Bool) : Nat → List BusOp → List BusOp
  | _, [] => []
  | i, .mode m :: l => .mode m :: attempt busy i l
  | i, op :: l => if busy i then [] else op :: attempt busy (i + 1) l

/-- Calls made one after the other whether or not they fail: the calls that reached the chip. -/
def each (busy : Nat → Bool) : Nat → List BusOp → List BusOp
  | _, [] => []
  | i, .mode m :: l => .mode m :: each busy i l
  | i, op :: l => if busy i then each busy (i + 1) l else op :: each busy (i + 1) l

/-- `chip_write` of an opcode with its parameters (src/ldl_sx126x.c:906-1516). -/
def command (l : List Nat) : BusOp := .write (l.map UInt8.ofNat) []

/-- `SetSleep` (src/ldl_sx126x.c:906-914). -/
def setSleep (warm : Bool) : BusOp := command [0x84, if warm then 4 else 0]

/-- `SetStandby` (src/ldl_sx126x.c:916-924), 0 is STDBY_RC, 1 is STDBY_XOSC. -/
def setStandby (v : Nat) : BusOp := command [0x80, u8 v]

/-- `SetTx` (src/ldl_sx126x.c:926-936). -/
def setTx (timeout : Nat) : BusOp := command [0x83, u8 (timeout >>> 16), u8 (timeout >>> 8), u8 timeout]

/-- `SetRx` (src/ldl_sx126x.c:938-948). -/
def setRx (timeout : Nat) : BusOp := command [0x82, u8 (timeout >>> 16), u8 (timeout >>> 8), u8 timeout]

/-- `SetRegulatorMode` (src/ldl_sx126x.c:1067-1075). -/
def setRegulatorMode (v : Nat) : BusOp := command [0x96, u8 v]

/-- `Calibrate` (src/ldl_sx126x.c:1077-1085). -/
def calibrate (param : Nat) : BusOp := command [0x89, param &&& 0x7f]

/-- `CalibrateImage` (src/ldl_sx126x.c:1087-1126). -/
def calibrateImage (freq : Nat) : BusOp :=
  if freq < 440000000 then command [0x98, 0x6b, 0x6f]
  else if freq < 510000000 then command [0x98, 0x75, 0x81]
  else if freq < 787000000 then command [0x98, 0xc1, 0xc5]
  else if freq < 870000000 then command [0x98, 0xd7, 0xdb]
  else command [0x98, 0xe1, 0xe9]

/-- `SetPaConfig` (src/ldl_sx126x.c:1128-1139). -/
def setPaConfig (duty hpMax pa : Nat) : BusOp := command [0x95, duty, hpMax, pa, 1]

/-- `SetDioIrqParams` (src/ldl_sx126x.c:1141-1156). -/
def setDioIrqParams (irq dio1 dio2 dio3 : Nat) : BusOp :=
  command [0x08, u8 (irq >>> 8), u8 irq, u8 (dio1 >>> 8), u8 dio1, u8 (dio2 >>> 8), u8 dio2, u8 (dio3 >>> 8), u8 dio3]

/-- `GetIrqStatus` (src/ldl_sx126x.c:1158-1179), the access. -/
def getIrqStatus : BusOp := .read [0x12, 0] 2

/-- `ClearIrqStatus` (src/ldl_sx126x.c:1181-1190). -/
def clearIrqStatus (irq : Nat) : BusOp := command [0x02, u8 (irq >>> 8), u8 irq]

/-- `SetDIO2AsRfSwitchCtrl` (src/ldl_sx126x.c:1193-1201). -/
def setDIO2AsRfSwitchCtrl (v : Nat) : BusOp := command [0x9d, u8 v]

/-- `SetDIO3AsTcxoCtrl` (src/ldl_sx126x.c:1204-1218). -/
def setDIO3AsTcxoCtrl (voltage ms : Nat) : BusOp :=
  command [0x97, u8 voltage, u8 (u32 (ms * 64) >>> 16), u8 (u32 (ms * 64) >>> 8), u8 (u32 (ms * 64))]

/-- The frequency in steps of 32 MHz / 2^25 (src/ldl_sx126x.c:1222). -/
def freqSteps (freq : Nat) : Nat := u32 ((freq <<< 25) / 32000000)

/-- `SetRfFrequency` (src/ldl_sx126x.c:1220-1233). -/
def setRfFrequency (freq : Nat) : BusOp :=
  command [0x86, u8 (freqSteps freq >>> 24), u8 (freqSteps freq >>> 16), u8 (freqSteps freq >>> 8), u8 (freqSteps freq)]

/-- `SetPacketType` (src/ldl_sx126x.c:1235-1243), 1 is LoRa. -/
def setPacketType (v : Nat) : BusOp := command [0x8a, u8 v]

/-- `SetTxParams` (src/ldl_sx126x.c:1245-1254); the power is an `int8_t`, SET_RAMP_200U is 4. -/
def setTxParams (power : Int) : BusOp := command [0x8e, u8i power, 4]

/-- `SetModulationParams` (src/ldl_sx126x.c:1256-1273). -/
def setModulationParams (sf : Nat) (bw : Bw) (cr : Nat) (low : Bool) : BusOp :=
  command [0x8b, u8 sf, (match bw with | .b125 => 4 | .b250 => 5 | .b500 => 6), u8 cr, if low then 1 else 0]

/-- `SetPacketParams` (src/ldl_sx126x.c:1275-1288). -/
def setPacketParams (preamble : Nat) (fixed : Bool) (len : Nat) (crc invert : Bool) : BusOp :=
  command [0x8c, u8 (preamble >>> 8), u8 preamble, if fixed then 1 else 0, len, if crc then 1 else 0,
    if invert then 1 else 0]

/-- `SetBufferBaseAddress` (src/ldl_sx126x.c:1290-1303). -/
def setBufferBaseAddress (tx rx : Nat) : BusOp := command [0x8f, tx, rx]

/-- `SetLoRaSymbNumTimeout` (src/ldl_sx126x.c:1305-1313). -/
def setLoRaSymbNumTimeout (n : Nat) : BusOp := command [0xa0, n]

/-- `GetRxBufferStatus` (src/ldl_sx126x.c:1315-1335), the access. -/
def getRxBufferStatus : BusOp := .read [0x13, 0] 2

/-- `GetPacketStatus` (src/ldl_sx126x.c:1337-1358), the access. -/
def getPacketStatus : BusOp := .read [0x14, 0] 3

/-- `ReadBuffer` (src/ldl_sx126x.c:1484-1493). -/
def readBufferAt (offset size : Nat) : BusOp := .read [0x1e, UInt8.ofNat (u8 offset), 0] size

/-- `WriteBuffer` (src/ldl_sx126x.c:1495-1503). -/
def writeBuffer (offset : Nat) (data : Bytes) : BusOp := .write [0x0e, UInt8.ofNat (u8 offset)] data

/-- `SetSyncWord` (src/ldl_sx126x.c:1505-1516): a write to the registers from 0x0740 on. -/
def setSyncWord (v : Nat) : BusOp := command [0x0d, 0x07, 0x40, u8 (v >>> 8), u8 v]

/-! ### Power -/

/-- The amplifier `SetPower` (src/ldl_sx126x.c:784-819) uses.  On the WL55 both branches of the conditional for
PA_AUTO are HP. -/
def usesHp (d : Driver) : Bool :=
  match d.type with
  | .sx1261 => false
  | .sx1262 => true
  | .wl55 => match d.pa with
    | .auto => true
    | .lp => false
    | .hp => true

/-- Limits of the LP amplifier (src/ldl_sx126x.c:829-840). -/
def clampLp (dbm : Int) : Int := if dbm > 14 then 14 else if dbm < -17 then -17 else dbm

/-- Limits of the HP amplifier (src/ldl_sx126x.c:860-871). -/
def clampHp (dbm : Int) : Int := if dbm > 22 then 22 else if dbm < -9 then -9 else dbm

/-- Duty cycle and hpMax of the HP amplifier (src/ldl_sx126x.c:874-893). -/
def paHp (dbm : Int) : Nat × Nat :=
  if dbm > 20 then (4, 7) else if dbm > 17 then (3, 5) else if dbm > 14 then (2, 3) else (2, 2)

/-- `SetPower` (src/ldl_sx126x.c:775-904).  `dbm /= 100` rounds towards zero. -/
def setPower (d : Driver) (centi : Int) : List BusOp :=
  let dbm := centi.tdiv 100
  if usesHp d then
    let dbm' := clampHp dbm
    [.mode .txBoost, setPaConfig (paHp dbm').1 (paHp dbm').2 0, setTxParams dbm']
  else
    let dbm' := clampLp dbm
    [.mode .txRfo, setPaConfig (if dbm' > 10 then 4 else 1) 0 1, setTxParams dbm']

/-! ### The interface -/

/-- `LDL_PARAM_XTAL_DELAY` (include/ldl_platform.h:350). -/
def XTAL_DELAY : Nat := 25

/-- Antenna switch (src/ldl_sx126x.c:420-429): not on the WL55. -/
def switchOps (d : Driver) : List BusOp :=
  match d.type with
  | .sx1261 | .sx1262 => [setDIO2AsRfSwitchCtrl d.txen]
  | .wl55 => []

/-- Oscillator (src/ldl_sx126x.c:430-449). -/
def xtalOps (d : Driver) : List BusOp :=
  match d.xtal with
  | .tcxo => [setDIO3AsTcxoCtrl d.voltage (XTAL_DELAY - 4), calibrate 0x3f]
  | .crystal => [setStandby 1]

/-- From sleep to ready (src/ldl_sx126x.c:416-452). -/
def wakeOps (d : Driver) : List BusOp :=
  [.mode .standby, setRegulatorMode d.regulator] ++ switchOps d ++ xtalOps d

/-- The accesses of `LDL_SX126X_setMode` (src/ldl_sx126x.c:336-491), `none` where the C code aborts. -/
def setModeOps (d : Driver) : RadioMode → Option (List BusOp)
  | .reset => some [.mode .reset]
  | .boot => match d.mode with
    | .reset => some [.mode .sleep]
    | _ => none
  | .sleep => match d.mode with
    | .boot => some [setSleep false]
    | .sleep => some []
    | .rx | .tx | .hold => some [clearIrqStatus 0xffff, setSleep false, .mode .sleep]
    | .reset => none
  | .rx | .tx => match d.mode with
    | .boot | .sleep => some (wakeOps d)
    | .hold => some [.mode .standby, setStandby 1]
    | .reset | .rx | .tx => none
  | .hold => match d.mode with
    | .rx | .tx => some [clearIrqStatus 0xffff, setSleep true]
    | _ => none

/-- `LDL_SX126X_setMode` (src/ldl_sx126x.c:336-491).  Failed accesses are ignored.  Image calibration is due after a
cold start (src/ldl_sx126x.c:451). -/
def setMode (d : Driver) (mode : RadioMode) (busy : Nat → Bool) : Option (Driver × List BusOp) :=
  (setModeOps d mode).map fun ops =>
    ({ d with
        mode := mode
        imagePending := if (mode = .rx ∨ mode = .tx) ∧ (d.mode = .boot ∨ d.mode = .sleep) then true else d.imagePending },
      each busy 0 ops)

/-- Packet type and, if due, image calibration (src/ldl_sx126x.c:505-514, 583-592). -/
def beginOps (d : Driver) (freq : Nat) : List BusOp :=
  [setPacketType 1] ++ (if d.imagePending then [calibrateImage freq] else [])

/-- All accesses of `LDL_SX126X_transmit` (src/ldl_sx126x.c:493-569). -/
def transmitOps (d : Driver) (s : TxSetting) (data : Bytes) : List BusOp :=
  beginOps d s.freq ++ setPower d (s16 (s.eirp - d.txGain)) ++
  [setBufferBaseAddress 0 0, setRfFrequency s.freq, writeBuffer 0 data,
    setModulationParams s.sf s.bw 1 (lowRate s.bw s.sf), setPacketParams 8 false (u8 data.length) true false,
    setDioIrqParams 1 1 0 0, setSyncWord 0x3444, setTx 0]

/-- `LDL_SX126X_transmit` (src/ldl_sx126x.c:493-569): accesses until one fails.  Image calibration is no longer due
once the second access, which it is, has succeeded. -/
def transmit (d : Driver) (s : TxSetting) (data : Bytes) (busy : Nat → Bool) : Driver × List BusOp :=
  ({ d with imagePending := d.imagePending && (busy 0 || busy 1) }, attempt busy 0 (transmitOps d s data))

/-- All accesses of `LDL_SX126X_receive` (src/ldl_sx126x.c:571-645). -/
def receiveOps (d : Driver) (s : RxSetting) : List BusOp :=
  [.mode .rx] ++ beginOps d s.freq ++
  [setBufferBaseAddress 0 0, setRfFrequency s.freq, setModulationParams s.sf s.bw 1 (lowRate s.bw s.sf),
    setPacketParams 8 false (u8 s.max) false true, setDioIrqParams 0x202 0x202 0 0, setSyncWord 0x3444,
    setLoRaSymbNumTimeout (if s.timeout > 255 then 255 else u8 s.timeout), setRx 0]

/-- `LDL_SX126X_receive` (src/ldl_sx126x.c:571-645). -/
def receive (d : Driver) (s : RxSetting) (busy : Nat → Bool) : Driver × List BusOp :=
  ({ d with imagePending := d.imagePending && (busy 0 || busy 1) }, attempt busy 0 (receiveOps d s))

/-- `LDL_SX126X_receiveEntropy` (src/ldl_sx126x.c:681-703). -/
def receiveEntropy (busy : Nat → Bool) : List BusOp :=
  attempt busy 0 [.mode .rx, setPacketType 1, setDioIrqParams 0 0 0 0, setRx 0]

/-- `LDL_SX126X_readEntropy` (src/ldl_sx126x.c:705-721), the access: four bytes from register 0x0819 on. -/
def readEntropyOps (busy : Nat → Bool) : List BusOp := attempt busy 0 [.read [0x1d, 0x08, 0x19, 0] 4]

/-- `LDL_SX126X_readEntropy` (src/ldl_sx126x.c:705-721), the value; the host is little endian. -/
def readEntropyValue (busy : Bool) (b : Nat → UInt8) : Nat :=
  if busy then 0 else (b 0).toNat + (b 1).toNat * 0x100 + (b 2).toNat * 0x10000 + (b 3).toNat * 0x1000000

/-- `LDL_SX126X_getStatus` (src/ldl_sx126x.c:723-739); `hi`, `lo` are the bytes read. -/
def getStatus (busy : Bool) (hi lo : UInt8) : RadioStatus :=
  if busy then {}
  else
    let irq := hi.toNat <<< 8 ||| lo.toNat
    { tx := decide (irq &&& 0x1 > 0), rx := decide (irq &&& 0x2 > 0), timeout := decide (irq &&& 0x200 > 0) }

/-- `(int8_t)` of a byte. -/
def s8 (b : UInt8) : Int := if b.toNat < 128 then b.toNat else (b.toNat : Int) - 256

/-- The accesses of `LDL_SX126X_readBuffer` (src/ldl_sx126x.c:647-679), given the length the first one returns. -/
def readBufferOps (size max : Nat) (busy : Nat → Bool) : List BusOp :=
  attempt busy 0 [getRxBufferStatus, getPacketStatus, readBufferAt 0 (if size > max then max else size)]

/-- The size `LDL_SX126X_readBuffer` returns and the meta data it stores, if any (src/ldl_sx126x.c:647-679,
1350-1352); `status` are the bytes of the packet status.  `(int8_t)x / n` rounds towards zero. -/
def readBufferMeta (size max : Nat) (status : Nat → UInt8) (busy : Nat → Bool) : Nat × Option PacketMeta :=
  if busy 0 then (0, none)
  else if busy 1 then (size, none)
  else
    (if busy 2 then 0 else if size > max then max else size,
      some { rssi := (s8 (status 2)).tdiv 2, snr := (s8 (status 1)).tdiv 4 })

end LDL.Sx126x
