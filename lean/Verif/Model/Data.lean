import Verif.Model.Mac

/-!
# Model of src/ldl_mac.c: sending data, the public interface as a transition system, restarts
-/

namespace LDL

/-- One pending answer in `externalDataCommand`: serialised when pending, and no longer pending afterwards
when it is sent only once (`single`) (e.g. src/ldl_mac.c:1814-1817). -/
def answer (t : CmdType) (single : Bool) (put : Session → Stream → Stream) (p : Stream × Session) :
    Stream × Session :=
  if commandIsPending p.2 t then (put p.2 p.1, if single then clearPending p.2 t else p.2) else p

/-- The answers serialised by `externalDataCommand` into `macs[30]` (src/ldl_mac.c:1768-1895). -/
def putAnswers (cfg : Cfg) (ctx : Session) (opts : DataOpts) : Stream × Session :=
  let v := cfg.v11
  let p := (Stream.init (List.replicate 30 0) 30, ctx)
  let p := if v then answer .rekey false (fun c s => MacCmd.putRekeyInd v s c.version) p else p
  let p := answer .rxParamSetup false (fun c s => MacCmd.putRXParamSetupAns v s c.rxParamSetupAns) p
  let p := answer .dlChannel false (fun c s => MacCmd.putDLChannelAns v s c.dlChannelAns) p
  let p := answer .rxTimingSetup false (fun _ s => MacCmd.putRXTimingSetupAns v s) p
  let p := answer .linkADR true (fun c s => MacCmd.putLinkADRAns v s c.linkADRAns) p
  let p := answer .devStatus true (fun c s => MacCmd.putDevStatusAns v s c.devStatusAns) p
  let p := answer .newChannel true (fun c s => MacCmd.putNewChannelAns v s c.newChannelAns) p
  let p := if v then
      let p := answer .rejoinParamSetup true (fun c s => MacCmd.putRejoinParamSetupAns v s c.rejoinTimeOK) p
      answer .adrParamSetup true (fun _ s => MacCmd.putADRParamSetupAns v s) p
    else p
  let p := answer .txParamSetup true (fun _ s => MacCmd.putTXParamSetupAns v s) p
  let p := answer .dutyCycle true (fun _ s => MacCmd.putDutyCycleAns v s) p
  let p := if opts.check then (MacCmd.putLinkCheckReq v p.1, p.2) else p
  if opts.getTime then (MacCmd.putDeviceTimeReq v p.1, p.2) else p

/-- The frame header set up by `externalDataCommand` (src/ldl_mac.c:1743-1758), before MAC commands. -/
def dataHeader (m : Mac) (confirmed : Bool) (port : Nat) : Frame.Data := {
  type := if confirmed then Frame.DATA_CONFIRMED_UP else Frame.DATA_UNCONFIRMED_UP
  devAddr := m.ctx.devAddr
  counter := u16 m.ctx.up
  adr := m.ctx.adr
  adrAckReq := m.adrAckReq
  port := port
  ack := m.pendingACK }

/-- The choice between MAC data alone on port 0, MAC data alone in FOpts, and both (src/ldl_mac.c:1896-1936).
`macs` are the bytes written to the stream.  Result: frame, whether the operation is confirmed, status. -/
def placeMacData (f : Frame.Data) (confirmed : Bool) (macs : Bytes) (data : Option Bytes)
    (len maxPayload : Nat) : Frame.Data × Bool × Status :=
  if macs.length > 15 then
    ({ f with type := Frame.DATA_UNCONFIRMED_UP, port := 0, data := some macs, dataLen := macs.length },
      false, .macPriority)
  else if len + Frame.dataOverhead + macs.length > maxPayload then
    ({ f with type := Frame.DATA_UNCONFIRMED_UP, opts := macs }, false, .macPriority)
  else
    ({ f with opts := macs, data := data, dataLen := len }, confirmed, .ok)

/-- The options of the operation (src/ldl_mac.c:1734-1741). -/
def dataOptions (opts : Option DataOpts) : DataOpts :=
  let o := opts.getD {}
  { o with nbTrans := o.nbTrans &&& 0xf }

/-- MAC commands for the uplink and the session they leave (src/ldl_mac.c:1764-1895). -/
def uplinkAnswers (cfg : Cfg) (m : Mac) (o : DataOpts) : Stream × Session :=
  putAnswers cfg { m.ctx with up := u32 (m.ctx.up + 1) } o

/-- The frame to send, whether it is confirmed, and the status (src/ldl_mac.c:1743-1936). -/
def uplinkFrame (cfg : Cfg) (m : Mac) (confirmed : Bool) (port : Nat) (data : Option Bytes) (len : Nat)
    (o : DataOpts) (maxPayload : Nat) : Frame.Data × Bool × Status :=
  let s := (uplinkAnswers cfg m o).1
  placeMacData (dataHeader m confirmed port) confirmed (s.mem.take s.tell) data len maxPayload

/-- Put a frame into the transmit buffer and append its MIC (src/ldl_mac.c:1938-1940). -/
def bufferFrame (cfg : Cfg) (m : Mac) (f : Frame.Data) : Mac :=
  let b := Ops.prepareData cfg m f m.buffer 255
  let m := { m with bufferLen := b.1, buffer := b.2 }
  { m with buffer := Ops.micDataFrame cfg m m.buffer m.bufferLen }

/-- Start an operation at once when the MAC is idle (src/ldl_mac.c:1944-1948). -/
def startIfIdle (e : Env) (m : Mac) : Mac :=
  if m.state = .idle then { m with state := .waitTX, timerA := Timer.set e 0 } else m

/-- The part of `externalDataCommand` after the size check (src/ldl_mac.c:1734-1952). -/
def sendData (cfg : Cfg) (e : Env) (m : Mac) (confirmed : Bool) (port : Nat) (data : Option Bytes) (len : Nat)
    (opts : Option DataOpts) (maxPayload : Nat) : Mac × Status :=
  let o := dataOptions opts
  let p := uplinkFrame cfg m confirmed port data len o maxPayload
  let m := { m with
    opts := o
    trials := 0
    tx := { m.tx with counter := m.ctx.up }
    ctx := (uplinkAnswers cfg m o).2
    op := if p.2.1 then .dataConfirmed else .dataUnconfirmed }
  (startIfIdle e (pushSessionUpdate (bufferFrame cfg m p.1)), p.2.2)

/-- `externalDataCommand` (src/ldl_mac.c:1702-1985), i.e. `LDL_MAC_confirmedData` and
`LDL_MAC_unconfirmedData`.  `data = none` is a NULL pointer; `data = some d` is a buffer of at least `len`
bytes. -/
def dataCommand (cfg : Cfg) (e : Env) (m : Mac) (confirmed : Bool) (port : Nat) (data : Option Bytes)
    (len : Nat) (opts : Option DataOpts) : Mac × Status :=
  if m.ctx.joined then
    if m.op = .none then
      if port > 0 ∧ port ≤ 223 then
        if m.band GLOBAL = 0 then
          let rate := m.ctx.region.applyUplinkDwell (uplinkDwell m.ctx.txParamSetup) m.ctx.rate
          let m := { m with tx := { m.tx with power := m.ctx.power, rate := rate } }
          match selectChannel m (e.draw 1) m.ctx.rate 0 with
          | some (freq, ch, rate) =>
            let m := { m with tx := { m.tx with freq := freq, chIndex := ch, rate := rate } }
            let maxPayload := (m.ctx.region.convertRate m.ctx.rate).mtu
            if len + Frame.dataOverhead ≤ maxPayload then
              sendData cfg e m confirmed port data len opts maxPayload
            else (m, .size)
          | none => (m, .noChannel)
        else (m, .noChannel)
      else (m, .port)
    else (m, .busy)
  else (m, .notJoined)

/-- The calls an application (or an interrupt handler, `radioEvent`) can make that have an effect. -/
inductive Call
  /-- `LDL_MAC_entropy` -/
  | entropy
  /-- `LDL_MAC_otaa` -/
  | otaa
  /-- `LDL_MAC_abp` -/
  | abp (devAddr : Nat)
  /-- `LDL_MAC_unconfirmedData`, `LDL_MAC_confirmedData` -/
  | data (confirmed : Bool) (port : Nat) (payload : Option Bytes) (len : Nat) (opts : Option DataOpts)
  /-- `LDL_MAC_forget` -/
  | forget
  /-- `LDL_MAC_cancel` -/
  | cancel
  /-- `LDL_MAC_process` -/
  | process
  /-- `LDL_MAC_setRate` -/
  | setRate (rate : Nat)
  /-- `LDL_MAC_setPower` -/
  | setPower (power : Nat)
  /-- `LDL_MAC_setADR` -/
  | setADR (value : Bool)
  /-- `LDL_MAC_setMaxDCycle` -/
  | setMaxDCycle (value : Nat)
  /-- `LDL_MAC_addChannel` -/
  | addChannel (ch freq minRate maxRate : Nat)
  /-- `LDL_MAC_maskChannel` -/
  | maskChannel (ch : Nat)
  /-- `LDL_MAC_unmaskChannel` -/
  | unmaskChannel (ch : Nat)
  /-- `LDL_MAC_radioEventWithTicks`; `LDL_MAC_radioEvent` passes the current tick -/
  | radioEvent (ticks : Nat)
  /-- the rest of an interrupt during the preceding call: see `Mac.late` -/
  | lateEvent (ticks : Nat)

/-- Argument ranges given by the C types, and buffers as long as announced. -/
def Call.WF : Call → Prop
  | .abp d => d < 4294967296
  | .data _ port payload len opts =>
      port < 256 ∧ len < 256 ∧ (∀ d, payload = some d → d.length = len) ∧ ∀ o, opts = some o → o.nbTrans < 256
  | .setRate r => r < 256
  | .setPower p => p < 256
  | .setMaxDCycle v => v < 256
  | .addChannel ch f a b => ch < 256 ∧ f < 4294967296 ∧ a < 256 ∧ b < 256
  | .maskChannel ch => ch < 256
  | .unmaskChannel ch => ch < 256
  | .radioEvent t => t < 4294967296
  | .lateEvent t => t < 4294967296
  | _ => True

/-- One API call (the functions cited at `Call`).  Functions without a status return `ok`, functions returning
`false` are given the status `rate` here. -/
def step (cfg : Cfg) (m : Mac) (e : Env) : Call → Mac × Status
  | .entropy => entropy e m
  | .otaa => otaa cfg e m
  | .abp d => abp m d
  | .data c p d l o => dataCommand cfg e m c p d l o
  | .forget => (forget m, .ok)
  | .cancel => (cancel m, .ok)
  | .process => (process cfg e m, .ok)
  | .setRate r => setRate m r
  | .setPower p => setPower m p
  | .setADR v => (setADR m v, .ok)
  | .setMaxDCycle v => (setMaxDCycle m v, .ok)
  | .addChannel ch f a b =>
    let r := setChannel m.ctx ch f a b
    ({ m with ctx := r.2 }, if r.1 then .ok else .rate)
  | .maskChannel ch =>
    ({ m with ctx := { m.ctx with chMask := maskChannel m.ctx.chMask m.ctx.region ch } },
      if maskable m.ctx.region ch then .ok else .rate)
  | .unmaskChannel ch =>
    ({ m with ctx := { m.ctx with chMask := unmaskChannel m.ctx.chMask m.ctx.region ch } },
      if maskable m.ctx.region ch then .ok else .rate)
  | .radioEvent t => (inputSignal m t, .ok)
  | .lateEvent t => (m.late t, .ok)

/-- Run a sequence of calls, each in its own environment. -/
def run (cfg : Cfg) : Mac → List (Env × Call) → Mac
  | m, [] => m
  | m, (e, c) :: rest => run cfg (step cfg m e c).1 rest

end LDL
