import Verif.Model.Sx127x

/-!
# Model of src/ldl_sx127x.c built with `LDL_ENABLE_RADIO_DEBUG`

The debug build reads registers back and keeps a log of the accesses made by each call of the driver, which it prints at
the end of the call.
-/

namespace LDL.Sx127x.Debug

/-! More register addresses (`enum ldl_radio_sx1272_sx1276_register`, src/ldl_sx127x.c:31-142). -/

def RegRxHeaderCntValueMsb := 0x14
def RegRxHeaderCntValueLsb := 0x15
def RegRxPacketCntValueMsb := 0x16
def RegRxPacketCntValueLsb := 0x17
def RegModemStat := 0x18
def RegHopChannel := 0x1C
def LoraRegFeiMsb := 0x28
def RegFeiMid := 0x29
def LoraRegFeiLsb := 0x2A

/-- `rxDiagnostics` (src/ldl_sx127x.c:1148-1162). -/
def rxDiagnostics : List BusOp :=
  [readReg RegOpMode, readReg RegIrqFlags, readReg RegModemStat, readReg RegHopChannel, readReg RegRxHeaderCntValueMsb,
   readReg RegRxHeaderCntValueLsb, readReg RegRxPacketCntValueMsb, readReg RegRxPacketCntValueLsb, readReg RegRxNbBytes,
   readReg LoraRegFeiMsb, readReg RegFeiMid, readReg LoraRegFeiLsb]

/-- `LDL_SX127X_setMode` in a debug build (src/ldl_sx127x.c:229-368): RESET out of RX is preceded by `rxDiagnostics`
(src/ldl_sx127x.c:246-251). -/
def setMode (d : Driver) (mode : RadioMode) (rd : Nat → UInt8) : Option (Driver × List BusOp) :=
  (setModeOps d mode rd).map fun ops =>
    ({ d with mode := mode }, (if mode = .reset ∧ d.mode = .rx then rxDiagnostics else []) ++ ops)

/-- `SX1272_setPower` and `SX1276_setPower` in a debug build (src/ldl_sx127x.c:718-797, 838-948). -/
def setPower (d : Driver) (dbm : Int) : List BusOp :=
  Sx127x.setPower d dbm ++
  match d.type with
  | .sx1272 => [readReg RegPaConfig, readReg SX1272RegPaDac]
  | .sx1276 => [readReg RegPaConfig, readReg SX1276RegPaDac]

/-- The modem configuration read back (src/ldl_sx127x.c:424-430, 517-523). -/
def readModem (d : Driver) : List BusOp :=
  [readReg RegModemConfig1, readReg RegModemConfig2] ++
  match d.type with
  | .sx1272 => []
  | .sx1276 => [readReg RegModemConfig3]

/-- What `LDL_SX127X_transmit` reads back (src/ldl_sx127x.c:431-441). -/
def readTx : List BusOp :=
  [readReg RegSyncWord, readReg RegInvertIQ, readReg RegDioMapping1, readReg RegIrqFlags, readReg RegIrqFlagsMask,
   readReg RegFifoTxBaseAddr, readReg RegFifoAddrPtr, readReg LoraRegPayloadLength, readReg RegFrfMsb, readReg RegFrfMid,
   readReg RegFrfLsb]

/-- What `LDL_SX127X_receive` reads back (src/ldl_sx127x.c:524-535). -/
def readRx : List BusOp :=
  [readReg RegSymbTimeoutLsb, readReg RegSyncWord, readReg RegLna, readReg RegPayloadMaxLength, readReg RegInvertIQ,
   readReg RegDioMapping1, readReg RegIrqFlags, readReg RegIrqFlagsMask, readReg RegFifoAddrPtr, readReg RegFrfMsb,
   readReg RegFrfMid, readReg RegFrfLsb]

/-- `LDL_SX127X_transmit` in a debug build (src/ldl_sx127x.c:370-449). -/
def transmit (d : Driver) (s : TxSetting) (data : Bytes) : List BusOp :=
  setPower d (s16 (s.eirp - d.txGain)) ++
  modemConfig d s.bw s.sf true 0 ++
  [writeReg RegSyncWord 0x34,
   writeReg RegInvertIQ 0x27,
   writeReg RegDioMapping1 0x40,
   writeReg RegIrqFlags 0xff,
   writeReg RegIrqFlagsMask 0xf7,
   writeReg RegFifoTxBaseAddr 0,
   writeReg RegFifoAddrPtr 0,
   writeReg LoraRegPayloadLength data.length,
   burstWrite RegFifo data] ++
  setFreq s.freq ++
  readModem d ++
  readTx ++
  setOpTX

/-- `LDL_SX127X_receive` in a debug build (src/ldl_sx127x.c:451-543). -/
def receive (d : Driver) (s : RxSetting) : List BusOp :=
  [.mode .rx] ++
  modemConfig d s.bw s.sf false (symbTimeout s.timeout) ++
  [writeReg RegSymbTimeoutLsb (u8 (symbTimeout s.timeout)),
   writeReg RegSyncWord 0x34,
   writeReg RegLna 0x23,
   writeReg RegPayloadMaxLength s.max,
   writeReg RegInvertIQ (u8 (0x40 + 0x27)),
   writeReg RegDioMapping1 0,
   writeReg RegIrqFlags 0xff,
   writeReg RegIrqFlagsMask 0x3f,
   writeReg RegFifoAddrPtr 0] ++
  setFreq s.freq ++
  readModem d ++
  readRx ++
  setOpRXSingle

/-! ## The log -/

/-- `struct ldl_sx127x_debug_log_entry` (include/ldl_radio.h:177-182). -/
structure Entry where
  opcode : UInt8
  value : UInt8
  size : Nat
deriving Repr, DecidableEq

/-- `LDL_RADIO_DEBUG_LOG_SIZE` (include/ldl_radio.h:184-186). -/
def LOG_SIZE : Nat := 20

/-- `struct ldl_sx127x_debug_log` (include/ldl_radio.h:188-193).  `log` has `LOG_SIZE` elements. -/
structure Log where
  log : List Entry
  pos : Nat
  overflow : Bool
deriving Repr, DecidableEq

/-- `debugLogReset` (src/ldl_sx127x.c:1111-1115). -/
def Log.reset (g : Log) : Log := { g with pos := 0, overflow := false }

/-- `debugLogPush` (src/ldl_sx127x.c:1117-1132).  `none` is undefined behaviour: `*data` of no data, or an element beyond
the array.  (`LDL_ASSERT(size > 0)` may be defined as nothing.) -/
def Log.push (g : Log) (opcode : UInt8) (data : Bytes) : Option Log :=
  if g.pos < LOG_SIZE then
    match data with
    | [] => none
    | value :: _ =>
      if g.pos < g.log.length then
        some { g with log := g.log.set g.pos { opcode := opcode, value := value, size := u8 data.length }, pos := u8 (g.pos + 1) }
      else none
  else some { g with overflow := true }

/-- The pushes made during one call of the driver. -/
def Log.pushAll (g : Log) : List (UInt8 × Bytes) → Option Log
  | [] => some g
  | a :: rest => (g.push a.1 a.2).bind fun g' => g'.pushAll rest

/-- `debugLogFlush` (src/ldl_sx127x.c:1134-1145): the entries printed. -/
def Log.flush (g : Log) : List Entry × Log := (g.log.take g.pos, { g with pos := 0, overflow := false })

/-- What one call of the driver prints (`debugLogReset` at its start, `debugLogFlush` at its end), and the log after it. -/
def Log.call (g : Log) (accesses : List (UInt8 × Bytes)) : Option (List Entry × Log) :=
  (g.reset.pushAll accesses).map Log.flush

end LDL.Sx127x.Debug
