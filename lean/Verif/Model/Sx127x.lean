import Verif.Model.Chip

/-!
# Model of src/ldl_sx127x.c (SX1272, SX1276)

`LDL_ENABLE_RADIO_DEBUG` is not defined: it only adds reads and log lines.  The return value of `chip_write` and
`chip_read` is ignored by this driver, these chips have no busy line.
-/

namespace LDL.Sx127x

/-- `struct ldl_radio` (include/ldl_radio.h:183-231), the fields this driver uses. -/
structure Driver where
  type : Kind
  mode : RadioMode := .reset
  xtal : Xtal
  pa : Pa
  txGain : Int
deriving Repr, DecidableEq

/-- `init_state` (src/ldl_sx127x.c:668-689). The mode is the first enumerator, RESET, after `memset`. -/
def init (type : Kind) (xtal : Xtal) (pa : Pa) (txGain : Int) : Driver :=
  { type := type, mode := .reset, xtal := xtal, pa := pa, txGain := txGain }

/-! Register addresses (`enum ldl_radio_sx1272_sx1276_register`, src/ldl_sx127x.c:31-142). -/

def RegFifo := 0x00
def RegOpMode := 0x01
def RegFrfMsb := 0x06
def RegFrfMid := 0x07
def RegFrfLsb := 0x08
def RegPaConfig := 0x09
def RegLna := 0x0C
def RegFifoAddrPtr := 0x0D
def RegFifoTxBaseAddr := 0x0E
def RegIrqFlagsMask := 0x11
def RegIrqFlags := 0x12
def RegRxNbBytes := 0x13
def RegPktSnrValue := 0x19
def RegPktRssiValue := 0x1A
def RegModemConfig1 := 0x1D
def RegModemConfig2 := 0x1E
def RegSymbTimeoutLsb := 0x1F
def LoraRegPayloadLength := 0x22
def RegPayloadMaxLength := 0x23
def RegModemConfig3 := 0x26
def RegRssiWideband := 0x2C
def RegInvertIQ := 0x33
def RegSyncWord := 0x39
def RegDioMapping1 := 0x40
def SX1272RegTcxo := 0x58
def SX1276RegTcxo := 0x4B
def SX1272RegPaDac := 0x5A
def SX1276RegPaDac := 0x4D

/-- `writeReg` (src/ldl_sx127x.c:1048-1057). -/
def writeReg (reg data : Nat) : BusOp := .write [UInt8.ofNat (u8 reg ||| 0x80)] [UInt8.ofNat data]

/-- `readReg` (src/ldl_sx127x.c:1023-1035), the call it makes. -/
def readReg (reg : Nat) : BusOp := .read [UInt8.ofNat (u8 reg &&& 0x7f)] 1

/-- `burstRead` (src/ldl_sx127x.c:1037-1046), the call it makes. -/
def burstRead (reg len : Nat) : BusOp := .read [UInt8.ofNat (u8 reg &&& 0x7f)] len

/-- `burstWrite` (src/ldl_sx127x.c:1059-1068). -/
def burstWrite (reg : Nat) (data : Bytes) : BusOp := .write [UInt8.ofNat (u8 reg ||| 0x80)] data

/-- `setOpSleep` (src/ldl_sx127x.c:691-695). -/
def setOpSleep : List BusOp := [writeReg RegOpMode 0x80, writeReg RegOpMode 0x80]

/-- `setOpStandby` (src/ldl_sx127x.c:697-700). -/
def setOpStandby : List BusOp := [writeReg RegOpMode 0x81]

/-- `setOpTX` (src/ldl_sx127x.c:702-705). -/
def setOpTX : List BusOp := [writeReg RegOpMode 0x83]

/-- `setOpRXContinuous` (src/ldl_sx127x.c:707-710). -/
def setOpRXContinuous : List BusOp := [writeReg RegOpMode 0x85]

/-- `setOpRXSingle` (src/ldl_sx127x.c:712-715). -/
def setOpRXSingle : List BusOp := [writeReg RegOpMode 0x86]

/-- `setXTALReg` (src/ldl_sx127x.c:1070-1088); `rd` is what register reads return. -/
def setXTALReg (d : Driver) (reg : Nat) (rd : Nat → UInt8) : List BusOp :=
  let value := (rd reg).toNat
  [readReg reg] ++
    if value &&& 0x10 > 0 then
      if d.xtal = .crystal then [writeReg reg (value &&& 0xef)] else []
    else if d.xtal = .tcxo then [writeReg reg (value ||| 0x10)] else []

/-- `setXTAL` (src/ldl_sx127x.c:1090-1108). -/
def setXTAL (d : Driver) (rd : Nat → UInt8) : List BusOp :=
  match d.type with
  | .sx1272 => setXTALReg d SX1272RegTcxo rd
  | .sx1276 => setXTALReg d SX1276RegTcxo rd

/-- Clearing and masking of interrupts (src/ldl_sx127x.c:292-293, 345-346). -/
def maskIrq : List BusOp := [writeReg RegIrqFlags 0xff, writeReg RegIrqFlagsMask 0xff]

/-- The switch of `LDL_SX127X_setMode` (src/ldl_sx127x.c:237-358): the chip calls, or `none` where the code
reaches `LDL_ABORT`. -/
def setModeOps (d : Driver) (mode : RadioMode) (rd : Nat → UInt8) : Option (List BusOp) :=
  match mode with
  | .reset => some [.mode .reset]
  | .boot =>
    match d.mode with
    | .reset => some [.mode .sleep]
    | _ => none
  | .sleep =>
    match d.mode with
    | .boot => some (setOpSleep ++ [.mode .sleep])
    | .sleep => some []
    | .rx | .tx => some (maskIrq ++ [.mode .sleep] ++ setOpSleep)
    | .hold => some ([.mode .sleep] ++ setOpSleep)
    | .reset => none
  | .rx | .tx =>
    match d.mode with
    | .sleep => some ([.mode .standby] ++ (if d.xtal = .tcxo then setXTAL d rd else []) ++ setOpStandby)
    | .hold => some (if d.xtal = .crystal then setOpStandby else [])
    | _ => none
  | .hold =>
    match d.mode with
    | .rx | .tx => some ([.mode .standby] ++ maskIrq ++ (if d.xtal = .crystal then setOpSleep else []))
    | _ => none

/-- `LDL_SX127X_setMode` (src/ldl_sx127x.c:229-368): `none` is an abort, otherwise the driver state and the chip
calls. -/
def setMode (d : Driver) (mode : RadioMode) (rd : Nat → UInt8) : Option (Driver × List BusOp) :=
  (setModeOps d mode rd).map fun ops => ({ d with mode := mode }, ops)

/-- The power amplifier used for `dbm` (src/ldl_sx127x.c:727-730, 847-850). -/
def choosePa (pa : Pa) (dbm : Int) : Pa :=
  match pa with
  | .auto => if dbm ≤ 14 then .rfo else .boost
  | p => p

/-- `paConfig` of `SX1272_setPower` for the RFO output (src/ldl_sx127x.c:739-751). -/
def paConfigRfo1272 (dbm : Int) : Nat :=
  if dbm ≥ 14 then 0x0f
  else if dbm ≥ -1 then (u8i dbm + 1) &&& 0xf
  else 0

/-- `paConfig` and `paDac` of `SX1272_setPower` for the BOOST output (src/ldl_sx127x.c:761-785). -/
def paBoost1272 (dbm : Int) : Nat × Nat :=
  if dbm ≥ 20 then (0x80 ||| 0x0f, 0x87)
  else if dbm > 17 then (0x80 ||| 0xf, 0x84)
  else if dbm < 2 then (0x80 ||| 0, 0x84)
  else (0x80 ||| (u8i dbm - 2), 0x84)

/-- `SX1272_setPower` (src/ldl_sx127x.c:718-797). `dbm` arrives in hundredths. -/
def setPower1272 (pa : Pa) (dbm : Int) : List BusOp :=
  let dbm := dbm.tdiv 100
  match choosePa pa dbm with
  | .boost =>
    [.mode .txBoost, writeReg RegPaConfig (paBoost1272 dbm).1, writeReg SX1272RegPaDac (paBoost1272 dbm).2]
  | _ => [.mode .txRfo, writeReg RegPaConfig (paConfigRfo1272 dbm), writeReg SX1272RegPaDac 0x84]

/-- `paConfig` of `SX1276_setPower` for the RFO output (src/ldl_sx127x.c:861-899). -/
def paConfigRfo1276 (dbm : Int) : Nat :=
  if dbm ≥ 14 then 0x5f
  else if dbm = 13 then 0x5e
  else if dbm ≥ -3 then u8 (0x20 ||| (u8i dbm + 3))
  else 0x10

/-- `paConfig` and `paDac` of `SX1276_setPower` for the BOOST output (src/ldl_sx127x.c:911-939). -/
def paBoost1276 (dbm : Int) : Nat × Nat :=
  if dbm ≥ 20 then (0xc0 ||| 0xf, 0x87)
  else if dbm > 17 then (0xc0 ||| 0xf, 0x84)
  else if dbm < 2 then (0xc0 ||| 0x40, 0x84)
  else (0xc0 ||| (u8i dbm - 2), 0x84)

/-- `SX1276_setPower` (src/ldl_sx127x.c:838-950). -/
def setPower1276 (pa : Pa) (dbm : Int) : List BusOp :=
  let dbm := dbm.tdiv 100
  match choosePa pa dbm with
  | .boost =>
    [.mode .txBoost, writeReg RegPaConfig (paBoost1276 dbm).1, writeReg SX1276RegPaDac (paBoost1276 dbm).2]
  | _ => [.mode .txRfo, writeReg RegPaConfig (paConfigRfo1276 dbm), writeReg SX1276RegPaDac 0x84]

/-- `SX1272_setModemConfig1` and `SX1272_setModemConfig2` (src/ldl_sx127x.c:799-834). -/
def modemConfig1272 (bw : Bw) (sf : Nat) (crc : Bool) (timeout : Nat) : List BusOp :=
  let b := match bw with
    | .b125 => 0x00
    | .b250 => 0x40
    | .b500 => 0x80
  [writeReg RegModemConfig1 (b ||| 8 ||| 0 ||| (if crc then 2 else 0) ||| (if lowRate bw sf then 1 else 0)),
   writeReg RegModemConfig2 (((u8 sf &&& 0xf) <<< 4) ||| 0 ||| 4 ||| (u8 (timeout >>> 8) &&& 3))]

/-- `SX1276_setModemConfig1`, `SX1276_setModemConfig2`, `SX1276_setModemConfig3` (src/ldl_sx127x.c:952-995). -/
def modemConfig1276 (bw : Bw) (sf : Nat) (crc : Bool) (timeout : Nat) : List BusOp :=
  let b := match bw with
    | .b125 => 0x70
    | .b250 => 0x80
    | .b500 => 0x90
  [writeReg RegModemConfig1 (b ||| 2 ||| 0),
   writeReg RegModemConfig2 (((u8 sf &&& 0xf) <<< 4) ||| 0 ||| (if crc then 4 else 0) ||| 0 ||| (u8 (timeout >>> 8) &&& 3)),
   writeReg RegModemConfig3 (0 ||| (if lowRate bw sf then 8 else 0) ||| 4 ||| 0)]

/-- Modem configuration for the chip in use (src/ldl_sx127x.c:395-411, 489-503). -/
def modemConfig (d : Driver) (bw : Bw) (sf : Nat) (crc : Bool) (timeout : Nat) : List BusOp :=
  match d.type with
  | .sx1272 => modemConfig1272 bw sf crc timeout
  | .sx1276 => modemConfig1276 bw sf crc timeout

/-- Power for the chip in use (src/ldl_sx127x.c:397, 405). -/
def setPower (d : Driver) (dbm : Int) : List BusOp :=
  match d.type with
  | .sx1272 => setPower1272 d.pa dbm
  | .sx1276 => setPower1276 d.pa dbm

/-- The frequency word of `setFreq` (src/ldl_sx127x.c:1000). -/
def freqWord (freq : Nat) : Nat := u32 ((freq <<< 19) / 32000000)

/-- `setFreq` (src/ldl_sx127x.c:998-1005). -/
def setFreq (freq : Nat) : List BusOp :=
  [writeReg RegFrfMsb (freqWord freq >>> 16), writeReg RegFrfMid (freqWord freq >>> 8), writeReg RegFrfLsb (freqWord freq)]

/-- `LDL_SX127X_transmit` (src/ldl_sx127x.c:370-449). -/
def transmit (d : Driver) (s : TxSetting) (data : Bytes) : List BusOp :=
  setPower d (s16 (s.eirp - d.txGain)) ++
  modemConfig d s.bw s.sf true 0 ++
  [writeReg RegSyncWord 0x34,
   writeReg RegInvertIQ 0x27,
   writeReg RegDioMapping1 0x40,
   writeReg RegIrqFlags 0xff,
   writeReg RegIrqFlagsMask 0xf7,
   writeReg RegFifoTxBaseAddr 0,
   writeReg RegFifoAddrPtr 0,
   writeReg LoraRegPayloadLength data.length,
   burstWrite RegFifo data] ++
  setFreq s.freq ++
  setOpTX

/-- The symbol timeout used for a request (src/ldl_sx127x.c:459-473). -/
def symbTimeout (timeout : Nat) : Nat :=
  if timeout > 0x3ff then 0x3ff else if timeout < 8 then 8 else timeout

/-- `LDL_SX127X_receive` (src/ldl_sx127x.c:451-543). -/
def receive (d : Driver) (s : RxSetting) : List BusOp :=
  [.mode .rx] ++
  modemConfig d s.bw s.sf false (symbTimeout s.timeout) ++
  [writeReg RegSymbTimeoutLsb (u8 (symbTimeout s.timeout)),
   writeReg RegSyncWord 0x34,
   writeReg RegLna 0x23,
   writeReg RegPayloadMaxLength s.max,
   writeReg RegInvertIQ (u8 (0x40 + 0x27)),
   writeReg RegDioMapping1 0,
   writeReg RegIrqFlags 0xff,
   writeReg RegIrqFlagsMask 0x3f,
   writeReg RegFifoAddrPtr 0] ++
  setFreq s.freq ++
  setOpRXSingle

/-- The size `readFIFO` reads (src/ldl_sx127x.c:1009-1011). -/
def fifoSize (nb max : Nat) : Nat := if nb > max then max else nb

/-- The chip calls of `LDL_SX127X_readBuffer` with `readFIFO` (src/ldl_sx127x.c:545-585, 1007-1021). -/
def readBufferOps (rd : Nat → UInt8) (max : Nat) : List BusOp :=
  let size := fifoSize (rd RegRxNbBytes).toNat max
  [readReg RegRxNbBytes] ++
  (if size > 0 then [writeReg RegFifoAddrPtr 0, burstRead RegFifo size] else []) ++
  [readReg RegPktRssiValue, readReg RegPktSnrValue]

/-- The size and meta data `LDL_SX127X_readBuffer` returns (src/ldl_sx127x.c:558-585): `S16` of a `uint8_t`. -/
def readBufferMeta (d : Driver) (rd : Nat → UInt8) (max : Nat) : Nat × PacketMeta :=
  let offset := match d.type with
    | .sx1272 => 139
    | .sx1276 => 157
  (fifoSize (rd RegRxNbBytes).toNat max,
    { snr := (s16 (rd RegPktSnrValue).toNat).tdiv 4, rssi := s16 (s16 (rd RegPktRssiValue).toNat - offset) })

/-- `LDL_SX127X_receiveEntropy` (src/ldl_sx127x.c:587-622). -/
def receiveEntropy (d : Driver) : List BusOp :=
  [.mode .rx] ++ maskIrq ++
  (match d.type with
    | .sx1272 => [writeReg RegModemConfig1 0x0a, writeReg RegModemConfig2 0x74]
    | .sx1276 => [writeReg RegModemConfig1 0x72, writeReg RegModemConfig2 0x70]) ++
  setOpRXContinuous

/-- `LDL_SX127X_readEntropy` (src/ldl_sx127x.c:624-653), the chip calls. -/
def readEntropyOps : List BusOp :=
  List.replicate 32 (readReg RegRssiWideband) ++ setOpStandby ++ [.mode .standby] ++ maskIrq

/-- `LDL_SX127X_readEntropy` (src/ldl_sx127x.c:637-641), the value: bit 0 of 32 successive samples. -/
def readEntropyValue (samples : Nat → UInt8) : Nat :=
  (List.range 32).foldl (fun r i => u32 (r <<< 1) ||| ((samples i).toNat &&& 1)) 0

/-- `LDL_SX127X_getStatus` (src/ldl_sx127x.c:655-664). -/
def getStatus (flags : UInt8) : RadioStatus :=
  { tx := decide (flags.toNat &&& 0x08 > 0)
    rx := decide (flags.toNat &&& 0x40 > 0)
    timeout := decide (flags.toNat &&& 0x80 > 0) }

end LDL.Sx127x
