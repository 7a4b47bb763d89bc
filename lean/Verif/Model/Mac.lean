import Verif.Model.Commands
import Verif.Model.Ops

/-!
# Model of src/ldl_mac.c: the state machine and the public interface

Compile time options at their defaults: device time, link check, TX parameter setup and ABP enabled; test mode,
class B, `LDL_ENABLE_OTAA_DITHER` and `LDL_ENABLE_STATIC_RX_BUFFER` disabled.  Assertions are compiled out.
Debug output is not modelled.
-/

namespace LDL

/-- `pushSessionUpdate` (src/ldl_mac.c:3202-3211). -/
def pushSessionUpdate (m : Mac) : Mac := m.emit (.sessionUpdated m.ctx)

/-- `forgetNetwork` (src/ldl_mac.c:2744-2780).  `ADRAckLimit` is 64, `ADRAckDelay` is 32
(include/ldl_platform.h / src/ldl_mac.c:55-60). -/
def forgetNetwork (m : Mac) : Mac :=
  let region := m.ctx.region
  let ctx : Session := {
    region := region
    rate := m.ctx.rate
    power := m.ctx.power
    adr := m.ctx.adr
    magic := magicNumber
    rx1DROffset := region.getRX1Offset
    rx1Delay := region.getRX1Delay
    rx2DataRate := region.getRX2Rate
    rx2Freq := region.getRX2Freq
    adrAckLimit := 64
    adrAckDelay := 32
    txParamSetup := 0xff
    maxDutyCycle := m.maxDutyCycle }
  { m with fPending := false, pendingACK := false, ctx := getDefaultChannels ctx }

/-- `initSession` (src/ldl_mac.c:2734-2742).  `forgetNetwork` runs before the region is set, on a zeroed structure
whose region is therefore the enumerator with value 0. -/
def initSession (cfg : Cfg) (m : Mac) (region : Region) : Mac :=
  let m := forgetNetwork { m with ctx := { region := cfg.firstRegion } }
  { m with ctx := { m.ctx with region := region, rate := cfg.minRate, power := 0, adr := true } }

/-- `struct ldl_mac_init_arg` (include/ldl_mac.h:517-631) and the root keys given to `LDL_SM_init`.  NULL
pointers to the identifiers leave them zero. -/
structure InitArg where
  session : Option Session := none
  joinEUI : Bytes := List.replicate 8 0
  devEUI : Bytes := List.replicate 8 0
  devNonce : Nat := 0
  joinNonce : Nat := 0
  appKey : Bytes := List.replicate 16 0
  nwkKey : Bytes := List.replicate 16 0

/-- `LDL_MAC_init` (src/ldl_mac.c:150-246) after `LDL_SM_init` (src/ldl_sm.c:45-73).  `LDL_STARTUP_DELAY` is 0. -/
def init (cfg : Cfg) (region : Region) (arg : InitArg) (e : Env) : Mac :=
  let m : Mac := {
    tx := { chIndex := UINT8_MAX }
    devNonce := u32 arg.devNonce
    joinNonce := u32 arg.joinNonce
    devEUI := arg.devEUI
    joinEUI := arg.joinEUI
    keys := Sm.init cfg arg.appKey arg.nwkKey }
  let m := initSession cfg m region
  let m :=
    match arg.session with
    | none => m
    | some s =>
      if s.magic = magicNumber then
        if s.region = region then Ops.deriveKeys cfg { m with ctx := s } else m
      else m
  { m with band := upd m.band GLOBAL (msToTime 0), timeTicks := e.ticks, timerA := Timer.set e 0 }

/-- `selectJoinChannelAndRate` (src/ldl_mac.c:2568-2601).  When `selectChannel` fails (excluded by an assertion),
`tx` keeps its contents. -/
def selectJoinChannelAndRate (cfg : Cfg) (e : Env) (m : Mac) : Tx :=
  let desired := m.ctx.region.getJoinRate cfg.minRate m.trials
  let desired := m.ctx.region.applyUplinkDwell (uplinkDwell m.ctx.txParamSetup) desired
  if m.ctx.region.isDynamic then
    match selectChannel m (e.draw 1) desired (timeUntilNextChannel m) with
    | some (freq, ch, rate) => { m.tx with freq := freq, chIndex := ch, rate := rate }
    | none => m.tx
  else
    let ch := m.ctx.region.getJoinIndex m.trials (e.draw 1)
    match m.ctx.region.getChannel ch with
    | some c => { m.tx with
        chIndex := ch, freq := c.freq, rate := requiredRate desired c.minRate c.maxRate }
    | none => { m.tx with chIndex := ch, rate := requiredRate desired 0 0 }

/-- `fillJoinBuffer` (src/ldl_mac.c:3361-3379).  Version 1.0.3 uses a random DevNonce. -/
def fillJoinBuffer (cfg : Cfg) (e : Env) (m : Mac) (devNonce : Nat) : Mac :=
  let devNonce := if cfg.version = .v103 then u16 (e.draw 0) else devNonce
  let m := { m with ctx := { m.ctx with devNonce := devNonce } }
  let f : Frame.JoinRequest := { joinEUI := m.joinEUI, devEUI := m.devEUI, devNonce := devNonce }
  let r := Ops.prepareJoinRequest cfg m f m.buffer 255
  let m := { m with bufferLen := r.1, buffer := r.2 }
  { m with tx := selectJoinChannelAndRate cfg e m }

/-- The sequence `fillJoinBuffer; devNonce++; DEV_NONCE_UPDATED` (src/ldl_mac.c:321-327, 3142-3147). -/
def nextJoinRequest (cfg : Cfg) (e : Env) (m : Mac) : Mac :=
  let m := fillJoinBuffer cfg e m (u16 m.devNonce)
  let m := { m with devNonce := u32 (m.devNonce + 1) }
  m.emit (.devNonceUpdated m.devNonce)

/-- `adaptRate` (src/ldl_mac.c:1987-2039): whether the session changed, and the new state.  `% 0` (undefined in
C) is possible only with `adrAckDelay = 0`, which the MAC itself never stores (`c48_delay_positive`). -/
def adaptRate (cfg : Cfg) (m : Mac) : Bool × Mac :=
  let m := { m with adrAckReq := false }
  if m.ctx.adr then
    if m.adrAckCounter < 255 then
      let (changed, m) :=
        if m.adrAckCounter ≥ m.ctx.adrAckLimit then
          let m := { m with adrAckReq := true }
          if m.adrAckCounter ≥ m.ctx.adrAckLimit + m.ctx.adrAckDelay ∧
              (m.adrAckCounter - (m.ctx.adrAckLimit + m.ctx.adrAckDelay)) % m.ctx.adrAckDelay = 0 then
            if m.ctx.power = 0 then
              if m.ctx.rate > cfg.minRate then
                (true, { m with ctx := { m.ctx with rate := m.ctx.rate - 1 } })
              else
                (true, { m with ctx := { m.ctx with chMask := unmaskAll }, adrAckCounter := 255 })
            else (true, { m with ctx := { m.ctx with power := 0 } })
          else (false, m)
        else (false, m)
      (changed, { m with adrAckCounter := u8 (m.adrAckCounter + 1) })
    else (false, m)
  else (false, m)

/-- The number of transmissions of a data frame (src/ldl_mac.c:3086-3093). -/
def nbTransOf (m : Mac) : Nat :=
  if m.opts.nbTrans > 0 then m.opts.nbTrans
  else if m.ctx.nbTrans > 0 then m.ctx.nbTrans else 1

/-- The retry branch of `downlinkMissingHandler` for data (src/ldl_mac.c:3112-3126). -/
def retryData (cfg : Cfg) (e : Env) (m : Mac) : Mac :=
  let timeout := if m.op = .dataConfirmed then u32 (cfg.tps <<< m.trials) else 0
  { m with
    buffer := Ops.micDataFrame cfg m m.buffer m.bufferLen, timerA := Timer.set e timeout, state := .waitTX }

/-- The final branch of `downlinkMissingHandler` for data (src/ldl_mac.c:3127-3138). -/
def giveUpData (cfg : Cfg) (m : Mac) : Mac :=
  let r := adaptRate cfg m
  let m := if r.1 then pushSessionUpdate r.2 else r.2
  let m := m.emit (if m.op = .dataConfirmed then .dataTimeout else .dataComplete)
  { m with state := .idle, op := .none }

/-- The joining branch of `downlinkMissingHandler` (src/ldl_mac.c:3142-3166). -/
def retryJoin (cfg : Cfg) (e : Env) (m : Mac) : Mac :=
  if m.devNonce ≤ 65535 then
    let m := nextJoinRequest cfg e m
    { m with state := .waitOTAA, timerA := Timer.set e 0 }
  else
    let m := m.emit .joinExhausted
    { m with state := .idle, op := .none }

/-- Whether `downlinkMissingHandler` repeats a data frame (src/ldl_mac.c:3086-3111), after `trials` was
incremented. -/
def shouldRetry (e : Env) (m : Mac) : Bool :=
  let limit := m.ctx.region.getMaxDCycleOffLimit
  decide (m.trials < nbTransOf m) && decide (m.band GLOBAL < limit) &&
    (selectChannel m (e.draw 1) m.tx.rate limit).isSome

/-- `downlinkMissingHandler` (src/ldl_mac.c:3081-3168).  The channel selected for the retry is stored in a local
variable and discarded by the code. -/
def downlinkMissing (cfg : Cfg) (e : Env) (m : Mac) : Mac :=
  let m := { m with trials := u32 (m.trials + 1) }
  match m.op with
  | .dataUnconfirmed | .dataConfirmed => if shouldRetry e m then retryData cfg e m else giveUpData cfg m
  | .joining => retryJoin cfg e m
  | _ => m

/-- `handleRadioError` (src/ldl_mac.c:1663-1699). -/
def handleRadioError (cfg : Cfg) (e : Env) (m : Mac) : Mac :=
  let m := inputDisarm m
  let m := { m with timerA := m.timerA.clear, timerB := m.timerB.clear }
  let m :=
    if m.op = .joining then downlinkMissing cfg e m
    else ({ m with op := .none } : Mac).emit .opError
  let m := { m with state := .radioReset }
  let m := m.emit (.setMode .reset)
  { m with timerA := Timer.set e (cfg.tps / 1024) }

/-- `processInit` (src/ldl_mac.c:960-972). -/
def processInit (cfg : Cfg) (e : Env) (m : Mac) : Mac :=
  let m := { m with state := .radioReset }
  let m := m.emit (.setMode .reset)
  { m with timerA := Timer.set e (cfg.tps / 1024) }

/-- `processRadioReset` (src/ldl_mac.c:974-988). -/
def processRadioReset (cfg : Cfg) (e : Env) (ev : Sme) (m : Mac) : Mac :=
  if ev = .timerA then
    let m := { m with state := .radioBoot }
    let m := m.emit (.setMode .boot)
    { m with timerA := Timer.set e (cfg.tps / 128) }
  else m

/-- `processRadioBoot` (src/ldl_mac.c:990-1023). -/
def processRadioBoot (e : Env) (ev : Sme) (m : Mac) : Mac :=
  if ev = .timerA then
    let m := m.emit (.setMode .sleep)
    match m.op with
    | .entropy => { m with state := .waitEntropy, timerA := Timer.set e 0 }
    | .joining => { m with state := .waitOTAA, timerA := Timer.set e 0 }
    | .dataConfirmed | .dataUnconfirmed => { m with state := .waitTX, timerA := Timer.set e 0 }
    | _ => { m with state := .idle }
  else m

/-- `processStartRadioForEntropy` (src/ldl_mac.c:1025-1038). -/
def processStartRadioForEntropy (cfg : Cfg) (e : Env) (ev : Sme) (m : Mac) : Mac :=
  if ev = .timerA then
    let m := m.emit .receiveEntropy
    { m with state := .entropy, timerA := Timer.set e (cfg.tps / 1024) }
  else m

/-- `processEntropy` (src/ldl_mac.c:1040-1060). -/
def processEntropy (e : Env) (ev : Sme) (m : Mac) : Mac :=
  if ev = .timerA then
    let m := m.emit .readEntropy
    let m := m.emit (.setMode .sleep)
    let m := { m with state := .idle, op := .none }
    m.emit (.entropy (u32 e.entropy))
  else m

/-- Divisor of the delay of a join request (src/ldl_mac.c:1070-1081): `GET_TPS()*U32(30)`, or
`GET_TPS()*U32(self->otaaDither)` with `LDL_ENABLE_OTAA_DITHER`, both a `uint32_t`.  If it is 0 the code divides by 0, which
is undefined in C (`c104_undefined`). -/
def joinModulus (cfg : Cfg) : Nat :=
  match cfg.dither with
  | none => u32 (cfg.tps * 30)
  | some d => u32 (cfg.tps * d)

/-- The delay of a join request (src/ldl_mac.c:1070-1081). -/
def joinDelay (cfg : Cfg) (e : Env) : Nat :=
  match cfg.dither with
  | some 0 => 0
  | _ => e.draw 2 % joinModulus cfg

/-- `processWaitOTAA` (src/ldl_mac.c:1062-1090). -/
def processWaitOTAA (cfg : Cfg) (e : Env) (m : Mac) : Mac :=
  if m.band GLOBAL = 0 then
    { m with timerA := Timer.set e (joinDelay cfg e), state := .waitTX }
  else m

/-- `LDL_PARAM_XTAL_DELAY` in milliseconds (include/ldl_platform.h). -/
def XTAL_DELAY : Nat := 25

/-- `processWait` (src/ldl_mac.c:1092-1142). -/
def processWait (cfg : Cfg) (ev : Sme) (lag : Nat) (m : Mac) : Mac :=
  if ev = .timerA ∨ ev = .timerB then
    let delay := msToTicks cfg XTAL_DELAY
    let delay := if lag > delay then 0 else delay - lag
    match m.state with
    | .waitRX1 =>
      let m := { m with state := .startRadioForRX1 }
      let m := m.emit (.setMode .rx)
      { m with timerA := m.timerA.append delay }
    | .waitRX2 =>
      let m := { m with state := .startRadioForRX2 }
      let m := m.emit (.setMode .rx)
      { m with timerB := m.timerB.append delay }
    | .waitEntropy =>
      let m := { m with state := .startRadioForEntropy }
      let m := m.emit (.setMode .rx)
      { m with timerA := m.timerA.append delay }
    | _ =>
      let m := { m with state := .startRadioForTX }
      let m := m.emit (.setMode .tx)
      { m with timerA := m.timerA.append delay }
  else m

/-- `maxEIRP` (src/ldl_mac.c:1159-1176), dBm. -/
def maxEIRP (i : Nat) : Int := [8, 10, 12, 13, 14, 16, 18, 20, 21, 24, 26, 27, 29, 30, 33, 36].getD i 0

/-- The power used for a transmission (src/ldl_mac.c:1154-1189). -/
def txEirp (m : Mac) : Int :=
  let eirp := m.ctx.region.getTXPower m.tx.power
  if m.ctx.region.txParamSetupImplemented then
    let max := maxEIRP (m.ctx.txParamSetup &&& 0xf) * 100
    if eirp > max then max else eirp
  else eirp

/-- The radio setting of a transmission (src/ldl_mac.c:1152-1193). -/
def txSetting (m : Mac) : TxSetting :=
  let r := m.ctx.region.convertRate m.tx.rate
  { freq := m.tx.freq, bw := r.bw, sf := r.sf, eirp := txEirp m }

/-- The air time of the buffered frame in milliseconds (src/ldl_mac.c:1195). -/
def txAirTime (m : Mac) : Nat :=
  let r := m.ctx.region.convertRate m.tx.rate
  getAirTime r.bw r.sf m.bufferLen true

/-- `processStartRadioForTX` (src/ldl_mac.c:1144-1213). -/
def processStartRadioForTX (cfg : Cfg) (e : Env) (ev : Sme) (m : Mac) : Mac :=
  if ev = .timerA then
    let ms := txAirTime m
    { m with
      tx := { m.tx with airTime := msToTime ms }
      inputState := false, inputArmed := true
      out := m.out ++ [.transmit e.done (txSetting m) (m.buffer.take m.bufferLen)]
      state := .tx
      timerA := Timer.set e (u32 (msToTicks cfg ms <<< 1)) }
  else m

/-- `symbolPeriod` (src/ldl_mac.c:2041-2044). -/
def symbolPeriod (tps sf : Nat) (bw : Bw) : Nat := u32 ((1 <<< sf) * tps) / bwToNumber bw

/-- `extraSymbols` (src/ldl_mac.c:2046-2049).  A zero symbol period (undefined in C) is possible for low tick
rates, see DESIGN.md. -/
def extraSymbols (xtalError period : Nat) : Nat :=
  u32 (xtalError / period + (if xtalError % period > 0 then 1 else 0))

/-- Window parameters computed in `processTX` for one window (src/ldl_mac.c:1281-1297, 1301-1315): the number of
symbols to listen for and the advance. -/
def window (cfg : Cfg) (r : RateInfo) (xtalError advance : Nat) : Nat × Nat :=
  let period := symbolPeriod cfg.tps r.sf r.bw
  let extra := extraSymbols xtalError period
  let extra := if extra < 3 then 3 else extra
  let margin := u32 (extra * period)
  (u16 (5 + u16 extra), u32 (advance + margin / 2))

/-- Seconds from the end of a transmission to RX1 (src/ldl_mac.c:1264). -/
def waitSeconds (m : Mac) : Nat := if m.op = .joining then m.ctx.region.getJA1Delay else m.ctx.rx1Delay

/-- Ticks to be early for any window (src/ldl_mac.c:1272). -/
def baseAdvance (cfg : Cfg) (lag : Nat) : Nat := u32 (cfg.advance + lag + msToTicks cfg XTAL_DELAY)

/-- Clock error allowed for in RX1 (src/ldl_mac.c:1279). -/
def rx1Error (cfg : Cfg) (m : Mac) : Nat := u32 (waitSeconds m * cfg.a * 2 + cfg.b)

/-- Symbols and advance of RX1 (src/ldl_mac.c:1274-1291). -/
def windowRX1 (cfg : Cfg) (lag : Nat) (m : Mac) : Nat × Nat :=
  window cfg (m.ctx.region.convertRate (m.ctx.region.getRX1DataRate m.tx.rate m.ctx.rx1DROffset))
    (rx1Error cfg m) (baseAdvance cfg lag)

/-- Symbols and advance of RX2 (src/ldl_mac.c:1293-1309). -/
def windowRX2 (cfg : Cfg) (lag : Nat) (m : Mac) : Nat × Nat :=
  window cfg (m.ctx.region.convertRate m.ctx.rx2DataRate) (u32 (rx1Error cfg m + cfg.a * 2)) (baseAdvance cfg lag)

/-- Timers and state for the windows (src/ldl_mac.c:1311-1332).  Result: WAITA, WAITB, state. -/
def armWindows (cfg : Cfg) (e : Env) (waitTicks advanceA advanceB : Nat) (timerA : Timer) : Timer × Timer × St :=
  if advanceB ≤ u32 (waitTicks + cfg.tps) then
    if advanceA ≤ waitTicks then
      (Timer.set e (waitTicks - advanceA), Timer.set e (u32 (waitTicks + cfg.tps) - advanceB), .waitRX1)
    else (timerA.clear, Timer.set e (u32 (waitTicks + cfg.tps) - advanceB), .waitRX2)
  else (timerA.clear, Timer.set e 0, .waitRX2)

/-- The transmit complete branch of `processTX` (src/ldl_mac.c:1261-1334). -/
def txComplete (cfg : Cfg) (e : Env) (lag : Nat) (m : Mac) : Mac :=
  let a := windowRX1 cfg lag m
  let b := windowRX2 cfg lag m
  let t := armWindows cfg e (u32 (waitSeconds m * cfg.tps)) a.2 b.2 m.timerA
  let m := { m with
    pendingACK := false
    ticksAtTx := sub32 e.later lag
    rx1Symbols := a.1
    rx2Symbols := b.1
    timerA := t.1
    timerB := t.2.1
    state := t.2.2 }
  m.emit (.setMode .hold)

/-- `processTX` (src/ldl_mac.c:1215-1344). -/
def processTX (cfg : Cfg) (e : Env) (ev : Sme) (lag : Nat) (m : Mac) : Mac :=
  let m := if ev = .interrupt then m.emit .getStatus else m
  let m := if ev = .interrupt ∨ ev = .timerA then registerTime m else m
  if ev = .timerA then handleRadioError cfg e m
  else if ev = .interrupt ∧ e.statusTx = false then handleRadioError cfg e m
  else if ev = .interrupt then txComplete cfg e lag m
  else m

/-- `processStartRadioForRX1` (src/ldl_mac.c:1346-1385). -/
def processStartRadioForRX1 (cfg : Cfg) (e : Env) (ev : Sme) (m : Mac) : Mac :=
  if ev = .timerA then
    let rate := m.ctx.region.getRX1DataRate m.tx.rate m.ctx.rx1DROffset
    let freq := m.ctx.region.getRX1Freq m.tx.freq m.tx.chIndex
    let r := m.ctx.region.convertRate rate
    let setting : RxSetting :=
      { freq := freq, bw := r.bw, sf := r.sf, timeout := m.rx1Symbols, max := u8 (r.mtu + Frame.phyOverhead) }
    let m := { m with state := .rx1 }
    let m := inputArm m
    let m := m.emit (.receive e.done setting)
    { m with timerA := Timer.set e (u32 ((cfg.tps + cfg.a) <<< 2)) }
  else m

/-- `processStartRadioForRX2` (src/ldl_mac.c:1387-1419). -/
def processStartRadioForRX2 (cfg : Cfg) (e : Env) (ev : Sme) (m : Mac) : Mac :=
  if ev = .timerB then
    let r := m.ctx.region.convertRate m.ctx.rx2DataRate
    let setting : RxSetting :=
      { freq := m.ctx.rx2Freq, bw := r.bw, sf := r.sf, timeout := m.rx2Symbols,
        max := u8 (r.mtu + Frame.phyOverhead) }
    let m := { m with state := .rx2 }
    let m := inputArm m
    let m := m.emit (.receive e.done setting)
    { m with timerA := Timer.set e (u32 ((cfg.tps + cfg.a) * 4)) }
  else m

/-- Parameters taken from a join accept (src/ldl_mac.c:1486-1493). -/
def joinParams (cfg : Cfg) (m : Mac) (f : Frame.Down) : Session :=
  { m.ctx with
    joined := true
    rate := if m.ctx.adr then m.ctx.region.getJoinRate cfg.minRate m.trials else m.ctx.rate
    rx1DROffset := f.rx1DataRateOffset
    rx2DataRate := f.rx2DataRate
    rx1Delay := f.rxDelay }

/-- The channel list of a join accept (src/ldl_mac.c:1495-1498). -/
def joinCFList (ctx : Session) (f : Frame.Down) (buf : Bytes) : Session :=
  match f.cfList with
  | some off => processCFList ctx ((buf.drop off).take f.cfListLen)
  | none => ctx

/-- The protocol version chosen by a join accept, and the RekeyInd it requires (src/ldl_mac.c:1502-1509). -/
def joinVersion (cfg : Cfg) (ctx : Session) (f : Frame.Down) : Session :=
  if cfg.v11 then
    if f.optNeg then setPending { ctx with version := 1 } .rekey else { ctx with version := 0 }
  else ctx

/-- The session established by a join accept (src/ldl_mac.c:1486-1512). -/
def joinSession (cfg : Cfg) (m : Mac) (f : Frame.Down) (buf : Bytes) : Session :=
  let ctx := joinCFList (joinParams cfg m f) f buf
  let ctx := joinVersion cfg { ctx with devAddr := f.devAddr } f
  { ctx with netID := f.netID, joinNonce := f.joinNonce }

/-- The join accept case of `processRX` (src/ldl_mac.c:1483-1539). -/
def joinAccepted (cfg : Cfg) (m : Mac) (f : Frame.Down) (buf : Bytes) : Mac :=
  let m := { m with ctx := joinSession cfg m f buf, joinNonce := f.joinNonce }
  let m := Ops.deriveKeys cfg m
  let m := { m with joinNonce := u32 (m.joinNonce + 1) }
  let m := { m with band := upd m.band GLOBAL 0, day := 0, state := .idle, op := .none }
  m.emit (.joinComplete m.joinNonce m.ctx.netID m.ctx.devAddr)

/-- The end of the data case of `processRX` (src/ldl_mac.c:1579-1614). -/
def dataEnd (m : Mac) (ack : Bool) : Mac :=
  let m :=
    match m.op with
    | .dataConfirmed => m.emit (if ack then .dataComplete else .dataTimeout)
    | .rejoining => m
    | _ => m.emit .dataComplete
  { m with state := .idle, op := .none }

/-- The beginning of the data cases of `processRX` (src/ldl_mac.c:1545-1556). -/
def dataBegin (cfg : Cfg) (m : Mac) (f : Frame.Down) : Mac :=
  let ctx := Ops.syncDownCounter cfg m.ctx f.port f.counter
  { m with
    fPending := f.pending
    pendingACK := decide (f.type = Frame.DATA_CONFIRMED_DOWN)
    ctx := clearPending (clearPending (clearPending ctx .rxParamSetup) .dlChannel) .rxTimingSetup
    adrAckCounter := 0
    adrAckReq := false }

/-- Commands in the options of a data frame (src/ldl_mac.c:1558-1561). -/
def dataOpts (cfg : Cfg) (e : Env) (m : Mac) (f : Frame.Down) (buf : Bytes) : Mac :=
  match f.opts with
  | some off => processCommands cfg e m ((buf.drop off).take f.optsLen)
  | none => m

/-- The payload of a data frame (src/ldl_mac.c:1563-1577). -/
def dataPayload (cfg : Cfg) (e : Env) (m : Mac) (f : Frame.Down) (buf : Bytes) : Mac :=
  match f.data with
  | some off =>
    if f.port = 0 then processCommands cfg e m ((buf.drop off).take f.dataLen)
    else m.emit (.rx f.port ((buf.drop off).take f.dataLen))
  | none => m

/-- The data cases of `processRX` (src/ldl_mac.c:1541-1614). -/
def dataReceived (cfg : Cfg) (e : Env) (m : Mac) (f : Frame.Down) (buf : Bytes) : Mac :=
  dataEnd (dataPayload cfg e (dataOpts cfg e (dataBegin cfg m f) f buf) f buf) f.ack

/-- The bytes `read_buffer` delivers: at most `LDL_MAX_PACKET` (255). -/
def Env.received (e : Env) : Bytes := e.packet.take 255

/-- The 255 byte receive buffer after `read_buffer` (src/ldl_mac.c:1425-1429, 1471): the packet, then whatever
was there before. -/
def Env.rxBuffer (e : Env) : Bytes :=
  memcpyAt ((e.stale ++ List.replicate 255 0).take 255) 0 e.received

/-- The `status.rx` branch of `processRX` (src/ldl_mac.c:1464-1623). -/
def packetReceived (cfg : Cfg) (e : Env) (m : Mac) : Mac :=
  let m := { m with timerA := m.timerA.clear, timerB := m.timerB.clear }
  let m := m.emit .readBuffer
  let m := m.emit (.setMode .sleep)
  let m := { m with rxSnr := e.snr }
  match Ops.receiveFrame cfg m e.rxBuffer e.received.length with
  | (some f, buf) =>
    let m :=
      if f.type = Frame.DATA_CONFIRMED_DOWN ∨ f.type = Frame.DATA_UNCONFIRMED_DOWN
      then dataReceived cfg e m f buf else joinAccepted cfg m f buf
    pushSessionUpdate m
  | (none, _) => downlinkMissing cfg e m

/-- The `status.timeout` branch of `processRX` (src/ldl_mac.c:1626-1647). -/
def rxTimeout (cfg : Cfg) (e : Env) (m : Mac) : Mac :=
  if m.state = .rx2 then
    let m := m.emit (.setMode .sleep)
    let m := { m with timerB := m.timerB.clear }
    let r := m.ctx.region.convertRate m.tx.rate
    let ms := getAirTime r.bw r.sf r.mtu false
    { m with timerA := Timer.set e (msToTicks cfg ms), state := .rx2Lockout }
  else
    let m := m.emit (.setMode .hold)
    { m with timerA := m.timerA.clear, state := .waitRX2 }

/-- `processRX` (src/ldl_mac.c:1421-1653). -/
def processRX (cfg : Cfg) (e : Env) (ev : Sme) (m : Mac) : Mac :=
  if ev = .timerA then
    handleRadioError cfg e (m.emit .getStatus)
  else if ev = .interrupt then
    let m := m.emit .getStatus
    if e.statusRx = false ∧ e.statusTimeout = false then handleRadioError cfg e m
    else if e.statusRx then packetReceived cfg e m
    else rxTimeout cfg e m
  else m

/-- `processRX2Lockout` (src/ldl_mac.c:1655-1661). -/
def processRX2Lockout (cfg : Cfg) (e : Env) (ev : Sme) (m : Mac) : Mac :=
  if ev = .timerA then downlinkMissing cfg e m else m

/-- Choice of the event in `LDL_MAC_process` (src/ldl_mac.c:471-492). -/
def pickEvent (e : Env) (channelReady : Bool) (m : Mac) : Sme × Nat × Mac :=
  match inputCheck e m with
  | (some lag, m) => (.interrupt, lag, m)
  | (none, m) =>
    match m.timerA.check e with
    | some lag => (.timerA, lag, { m with timerA := m.timerA.clear })
    | none =>
      match m.timerB.check e with
      | some lag => (.timerB, lag, { m with timerB := m.timerB.clear })
      | none => (if channelReady then .band else .none, 0, m)

/-- The `switch` of `LDL_MAC_process` (src/ldl_mac.c:496-568). -/
def dispatch (cfg : Cfg) (e : Env) (ev : Sme) (lag : Nat) (m : Mac) : Mac :=
  match m.state with
  | .idle => m
  | .init => processInit cfg e m
  | .radioReset => processRadioReset cfg e ev m
  | .radioBoot => processRadioBoot e ev m
  | .waitEntropy | .waitTX | .waitRX1 | .waitRX2 => processWait cfg ev lag m
  | .startRadioForEntropy => processStartRadioForEntropy cfg e ev m
  | .entropy => processEntropy e ev m
  | .waitOTAA => processWaitOTAA cfg e m
  | .startRadioForTX => processStartRadioForTX cfg e ev m
  | .tx => processTX cfg e ev lag m
  | .startRadioForRX1 => processStartRadioForRX1 cfg e ev m
  | .startRadioForRX2 => processStartRadioForRX2 cfg e ev m
  | .rx1 | .rx2 => processRX cfg e ev m
  | .rx2Lockout => processRX2Lockout cfg e ev m

/-- `LDL_MAC_process` (src/ldl_mac.c:461-572). -/
def process (cfg : Cfg) (e : Env) (m : Mac) : Mac :=
  let r := processBands cfg e m
  let p := pickEvent e r.1 r.2
  let m := if p.1 = .none then p.2.2 else dispatch cfg e p.1 p.2.1 p.2.2
  setNextBandEvent cfg e m

/-- `LDL_MAC_entropy` (src/ldl_mac.c:248-272). -/
def entropy (e : Env) (m : Mac) : Mac × Status :=
  if m.op = .none then
    let m := { m with op := .entropy }
    let m := if m.state = .idle then { m with state := .radioBoot, timerA := Timer.set e 0 } else m
    (m, .ok)
  else (m, .busy)

/-- `LDL_MAC_otaa` (src/ldl_mac.c:299-355). -/
def otaa (cfg : Cfg) (e : Env) (m : Mac) : Mac × Status :=
  if m.ctx.joined then (m, .joined)
  else if m.op = .none then
    if m.devNonce ≤ 65535 then
      let m := { m with trials := 0, day := 60 * 60 * 24 * timeTPS }
      let m := Ops.deriveJoinKeys cfg m
      let m := nextJoinRequest cfg e m
      let m := { m with tx := { m.tx with power := 0 }, op := .joining }
      let m := if m.state = .idle then { m with state := .waitOTAA, timerA := Timer.set e 0 } else m
      (m, .ok)
    else (m, .devNonce)
  else (m, .busy)

/-- `LDL_MAC_abp` (src/ldl_mac.c:358-384). -/
def abp (m : Mac) (devAddr : Nat) : Mac × Status :=
  if m.ctx.joined then (m, .joined)
  else if m.op = .none then
    ({ m with
        ctx := { m.ctx with joined := true, devAddr := devAddr }
        band := upd m.band GLOBAL 0
        day := 0 }, .ok)
  else (m, .busy)

/-- `LDL_MAC_cancel` (src/ldl_mac.c:408-459).  The state is changed before it is compared with
`LDL_STATE_TX`. -/
def cancel (m : Mac) : Mac :=
  let op := m.op
  let m := { m with op := .none }
  let m :=
    match m.state with
    | .init | .radioReset | .radioBoot => m
    | _ =>
      let m := { m with timerA := m.timerA.clear, timerB := m.timerB.clear }
      let m := inputDisarm m
      let m := { m with state := .radioReset }
      m.emit (.setMode .reset)
  let m := if m.state = .tx then registerTime m else m
  if op = .none then m else m.emit .opCancelled

/-- `LDL_MAC_forget` (src/ldl_mac.c:392-406). -/
def forget (m : Mac) : Mac :=
  let m := cancel m
  if m.ctx.joined then
    let m := { m with band := upd m.band GLOBAL 0 }
    let m := forgetNetwork m
    pushSessionUpdate m
  else m

/-- `LDL_MAC_setRate` (src/ldl_mac.c:588-608). -/
def setRate (m : Mac) (rate : Nat) : Mac × Status :=
  if rateSettingIsValid m.ctx.region rate then
    (pushSessionUpdate { m with ctx := { m.ctx with rate := rate } }, .ok)
  else (m, .rate)

/-- `LDL_MAC_setPower` (src/ldl_mac.c:617-637). -/
def setPower (m : Mac) (power : Nat) : Mac × Status :=
  if m.ctx.region.validateTXPower power then
    (pushSessionUpdate { m with ctx := { m.ctx with power := power } }, .ok)
  else (m, .power)

/-- `LDL_MAC_getRate` (src/ldl_mac.c:610-615). -/
def getRate (m : Mac) : Nat := m.ctx.rate

/-- `LDL_MAC_getPower` (src/ldl_mac.c:639-644). -/
def getPower (m : Mac) : Nat := m.ctx.power

/-- `LDL_MAC_setADR` (src/ldl_mac.c:646-653). -/
def setADR (m : Mac) (v : Bool) : Mac := pushSessionUpdate { m with ctx := { m.ctx with adr := v } }

/-- `LDL_MAC_setMaxDCycle` (src/ldl_mac.c:744-752). -/
def setMaxDCycle (m : Mac) (v : Nat) : Mac :=
  pushSessionUpdate { m with maxDutyCycle := v &&& 0xf, ctx := { m.ctx with maxDutyCycle := v &&& 0xf } }

/-- `LDL_MAC_ready` (src/ldl_mac.c:662-674). -/
def ready (m : Mac) : Bool := if m.state = .idle then decide (timeUntilNextChannel m = 0) else false

/-- `LDL_MAC_priority` (src/ldl_mac.c:903-926). -/
def priority (m : Mac) : Bool :=
  match m.state with
  | .tx | .waitRX1 | .rx1 | .waitRX2 | .rx2 => true
  | _ => false

/-- The rate used by `LDL_MAC_mtu` (src/ldl_mac.c:700-714). -/
def mtuRate (m : Mac) : Nat :=
  (List.range m.ctx.region.numChannels).foldl
    (fun rate i =>
      if channelIsMasked m.ctx.chMask m.ctx.region i then rate
      else
        match getChannel m.ctx i with
        | some c => if c.freq > 0 then requiredRate rate c.minRate c.maxRate else rate
        | none => rate)
    m.ctx.rate

/-- The commands whose size `LDL_MAC_mtu` counts (src/ldl_mac.c:722-733). -/
def mtuCommands (cfg : Cfg) : List CmdType :=
  [.linkADR, .dutyCycle, .rxParamSetup, .devStatus, .newChannel, .rxTimingSetup, .dlChannel] ++
    (if cfg.v11 then [.rekey, .adrParamSetup, .rejoinParamSetup] else [])

/-- `LDL_MAC_mtu` (src/ldl_mac.c:688-742). -/
def mtu (cfg : Cfg) (m : Mac) : Nat :=
  let max := (m.ctx.region.convertRate (mtuRate m)).mtu
  let overhead :=
    if m.ctx.joined then
      (mtuCommands cfg).foldl
        (fun n t => u8 (n + (if commandIsPending m.ctx t then MacCmd.sizeofCommandUp t else 0)))
        Frame.dataOverhead
    else Frame.dataOverhead
  if overhead > max then 0 else max - overhead

end LDL
