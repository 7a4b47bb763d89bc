import Verif.Model.Data

/-!
# Model of src/ldl_mac.c: `LDL_MAC_process` with an application that calls the MAC from its callback

`LDL_MAC_process` hands events to the application by `self->handler` in the middle of its work.  The functions below
are those of `Model/Mac.lean`, `Model/Commands.lean` and `Model/Timer.lean` that do so, with what the application does
inside the callback: `h ev m` is the state after the callback for event `ev`, which was entered in state `m`.  Events
on the radio interface are not callbacks.  With an application that does nothing they are the same functions
(`Re.process_id`).  Calls made inside a callback that hand out events themselves do so without a further call by the
application (`App` is a function of the outer event only).
-/

namespace LDL.Re

/-- What the application does in its callback. -/
abbrev App := Event → Mac → Mac

/-- `self->handler(self->app, ...)`, e.g. src/ldl_mac.c:456. -/
def tell (h : App) (m : Mac) (ev : Event) : Mac := h ev (m.emit ev)

/-- `pushSessionUpdate` (src/ldl_mac.c:3202-3211). -/
def pushSessionUpdate (h : App) (m : Mac) : Mac := tell h m (.sessionUpdated m.ctx)

/-- The sequence `fillJoinBuffer; devNonce++; DEV_NONCE_UPDATED` (src/ldl_mac.c:3147-3152). -/
def nextJoinRequest (h : App) (cfg : Cfg) (e : Env) (m : Mac) : Mac :=
  let m := fillJoinBuffer cfg e m (u16 m.devNonce)
  let m := { m with devNonce := u32 (m.devNonce + 1) }
  tell h m (.devNonceUpdated m.devNonce)

/-- The final branch of `downlinkMissingHandler` for data (src/ldl_mac.c:3127-3138). -/
def giveUpData (h : App) (cfg : Cfg) (m : Mac) : Mac :=
  let r := adaptRate cfg m
  let m := if r.1 then pushSessionUpdate h r.2 else r.2
  let m := tell h m (if m.op = .dataConfirmed then .dataTimeout else .dataComplete)
  { m with state := .idle, op := .none }

/-- The joining branch of `downlinkMissingHandler` (src/ldl_mac.c:3142-3166). -/
def retryJoin (h : App) (cfg : Cfg) (e : Env) (m : Mac) : Mac :=
  if m.devNonce ≤ 65535 then
    let m := nextJoinRequest h cfg e m
    { m with state := .waitOTAA, timerA := Timer.set e 0 }
  else
    let m := tell h m .joinExhausted
    { m with state := .idle, op := .none }

/-- `downlinkMissingHandler` (src/ldl_mac.c:3081-3168). -/
def downlinkMissing (h : App) (cfg : Cfg) (e : Env) (m : Mac) : Mac :=
  let m := { m with trials := u32 (m.trials + 1) }
  match m.op with
  | .dataUnconfirmed | .dataConfirmed => if shouldRetry e m then retryData cfg e m else giveUpData h cfg m
  | .joining => retryJoin h cfg e m
  | _ => m

/-- `handleRadioError` (src/ldl_mac.c:1663-1699). -/
def handleRadioError (h : App) (cfg : Cfg) (e : Env) (m : Mac) : Mac :=
  let m := inputDisarm m
  let m := { m with timerA := m.timerA.clear, timerB := m.timerB.clear }
  let m :=
    if m.op = .joining then downlinkMissing h cfg e m
    else tell h { m with op := .none } .opError
  let m := { m with state := .radioReset }
  let m := m.emit (.setMode .reset)
  { m with timerA := Timer.set e (cfg.tps / 1024) }

/-- `processEntropy` (src/ldl_mac.c:1040-1060). -/
def processEntropy (h : App) (e : Env) (ev : Sme) (m : Mac) : Mac :=
  if ev = .timerA then
    let m := m.emit .readEntropy
    let m := m.emit (.setMode .sleep)
    let m := { m with state := .idle, op := .none }
    tell h m (.entropy (u32 e.entropy))
  else m

/-- `processTX` (src/ldl_mac.c:1215-1344). -/
def processTX (h : App) (cfg : Cfg) (e : Env) (ev : Sme) (lag : Nat) (m : Mac) : Mac :=
  let m := if ev = .interrupt then m.emit .getStatus else m
  let m := if ev = .interrupt ∨ ev = .timerA then registerTime m else m
  if ev = .timerA then handleRadioError h cfg e m
  else if ev = .interrupt ∧ e.statusTx = false then handleRadioError h cfg e m
  else if ev = .interrupt then txComplete cfg e lag m
  else m

/-- The `switch` in the loop of `processCommands` (src/ldl_mac.c:2087-2482): the two commands with a callback
(src/ldl_mac.c:2092-2107, 2401-2425). -/
def applyCommand (h : App) (cfg : Cfg) (e : Env) (nextIsADR : Bool) (cmd : DownCmd) (m : Mac) (adr : AdrState) :
    Mac × AdrState :=
  match cmd with
  | .linkCheck margin gwCount => (tell h m (.linkStatus margin gwCount), adr)
  | .deviceTime seconds fractions =>
    let time := (seconds <<< 8) ||| fractions
    let lag := timerDelta m.ticksAtTx e.later
    let time := time + lag * timeTPS / cfg.tps
    (tell h m (.deviceTime time (u32 (time >>> 8)) (u8 time)), adr)
  | cmd => LDL.applyCommand cfg e nextIsADR cmd m adr

/-- The loop of `processCommands` (src/ldl_mac.c:2085-2483). -/
def commandLoop (h : App) (cfg : Cfg) (e : Env) : Nat → Stream → Mac → AdrState → Mac × AdrState
  | 0, _, m, adr => (m, adr)
  | fuel + 1, s, m, adr =>
    match MacCmd.getDownCommand cfg.v11 s with
    | (none, _) => (m, adr)
    | (some cmd, s) =>
      let r := applyCommand h cfg e (MacCmd.peekNextCommand cfg.v11 s == some .linkADR) cmd m adr
      commandLoop h cfg e fuel s r.1 r.2

/-- `processCommands` (src/ldl_mac.c:2051-2496). -/
def processCommands (h : App) (cfg : Cfg) (e : Env) (m : Mac) (inp : Bytes) : Mac :=
  let nbTrans := m.ctx.nbTrans
  let power := m.ctx.power
  let rate := m.ctx.rate
  let chMask := m.ctx.chMask
  let m := { m with
    ctx := { m.ctx with linkADRAns := { m.ctx.linkADRAns with channelMaskOK := true } } }
  let r := commandLoop h cfg e (inp.length + 1) (Stream.initReadOnly inp inp.length) m .noAdr
  let m := r.1
  if r.2 = .bad then
    { m with ctx := { m.ctx with chMask := chMask, rate := rate, power := power, nbTrans := nbTrans } }
  else m

/-- The join accept case of `processRX` (src/ldl_mac.c:1483-1539). -/
def joinAccepted (h : App) (cfg : Cfg) (m : Mac) (f : Frame.Down) (buf : Bytes) : Mac :=
  let m := { m with ctx := joinSession cfg m f buf, joinNonce := f.joinNonce }
  let m := Ops.deriveKeys cfg m
  let m := { m with joinNonce := u32 (m.joinNonce + 1) }
  let m := { m with band := upd m.band GLOBAL 0, day := 0, state := .idle, op := .none }
  tell h m (.joinComplete m.joinNonce m.ctx.netID m.ctx.devAddr)

/-- The end of the data case of `processRX` (src/ldl_mac.c:1579-1614). -/
def dataEnd (h : App) (m : Mac) (ack : Bool) : Mac :=
  let m :=
    match m.op with
    | .dataConfirmed => tell h m (if ack then .dataComplete else .dataTimeout)
    | .rejoining => m
    | _ => tell h m .dataComplete
  { m with state := .idle, op := .none }

/-- Commands in the options of a data frame (src/ldl_mac.c:1558-1561). -/
def dataOpts (h : App) (cfg : Cfg) (e : Env) (m : Mac) (f : Frame.Down) (buf : Bytes) : Mac :=
  match f.opts with
  | some off => processCommands h cfg e m ((buf.drop off).take f.optsLen)
  | none => m

/-- The payload of a data frame (src/ldl_mac.c:1563-1577). -/
def dataPayload (h : App) (cfg : Cfg) (e : Env) (m : Mac) (f : Frame.Down) (buf : Bytes) : Mac :=
  match f.data with
  | some off =>
    if f.port = 0 then processCommands h cfg e m ((buf.drop off).take f.dataLen)
    else tell h m (.rx f.port ((buf.drop off).take f.dataLen))
  | none => m

/-- The data cases of `processRX` (src/ldl_mac.c:1541-1614). -/
def dataReceived (h : App) (cfg : Cfg) (e : Env) (m : Mac) (f : Frame.Down) (buf : Bytes) : Mac :=
  dataEnd h (dataPayload h cfg e (dataOpts h cfg e (dataBegin cfg m f) f buf) f buf) f.ack

/-- The `status.rx` branch of `processRX` (src/ldl_mac.c:1464-1623). -/
def packetReceived (h : App) (cfg : Cfg) (e : Env) (m : Mac) : Mac :=
  let m := { m with timerA := m.timerA.clear, timerB := m.timerB.clear }
  let m := m.emit .readBuffer
  let m := m.emit (.setMode .sleep)
  let m := { m with rxSnr := e.snr }
  match Ops.receiveFrame cfg m e.rxBuffer e.received.length with
  | (some f, buf) =>
    let m :=
      if f.type = Frame.DATA_CONFIRMED_DOWN ∨ f.type = Frame.DATA_UNCONFIRMED_DOWN
      then dataReceived h cfg e m f buf else joinAccepted h cfg m f buf
    pushSessionUpdate h m
  | (none, _) => downlinkMissing h cfg e m

/-- `processRX` (src/ldl_mac.c:1421-1653). -/
def processRX (h : App) (cfg : Cfg) (e : Env) (ev : Sme) (m : Mac) : Mac :=
  if ev = .timerA then
    handleRadioError h cfg e (m.emit .getStatus)
  else if ev = .interrupt then
    let m := m.emit .getStatus
    if e.statusRx = false ∧ e.statusTimeout = false then handleRadioError h cfg e m
    else if e.statusRx then packetReceived h cfg e m
    else rxTimeout cfg e m
  else m

/-- `processRX2Lockout` (src/ldl_mac.c:1655-1661). -/
def processRX2Lockout (h : App) (cfg : Cfg) (e : Env) (ev : Sme) (m : Mac) : Mac :=
  if ev = .timerA then downlinkMissing h cfg e m else m

/-- `processBands` (src/ldl_mac.c:2980-3026). -/
def processBands (h : App) (cfg : Cfg) (e : Env) (m : Mac) : Bool × Mac :=
  if m.parked then (false, m)
  else
    let time := (elapsed cfg (timerDelta m.timeTicks e.ticks) m.timeRemainder).1
    let m' := tickBands cfg e m
    if anyExpired m.band time ∧ m'.band GLOBAL = 0 then (true, tell h m' .channelReady) else (false, m')

/-- The `switch` of `LDL_MAC_process` (src/ldl_mac.c:496-568). -/
def dispatch (h : App) (cfg : Cfg) (e : Env) (ev : Sme) (lag : Nat) (m : Mac) : Mac :=
  match m.state with
  | .entropy => processEntropy h e ev m
  | .tx => processTX h cfg e ev lag m
  | .rx1 | .rx2 => processRX h cfg e ev m
  | .rx2Lockout => processRX2Lockout h cfg e ev m
  | _ => LDL.dispatch cfg e ev lag m

/-- `LDL_MAC_process` (src/ldl_mac.c:461-572). -/
def process (h : App) (cfg : Cfg) (e : Env) (m : Mac) : Mac :=
  let r := processBands h cfg e m
  let p := pickEvent e r.1 r.2
  let m := if p.1 = .none then p.2.2 else dispatch h cfg e p.1 p.2.1 p.2.2
  setNextBandEvent cfg e m

/-- `LDL_MAC_otaa` (src/ldl_mac.c:299-355). -/
def otaa (h : App) (cfg : Cfg) (e : Env) (m : Mac) : Mac × Status :=
  if m.ctx.joined then (m, .joined)
  else if m.op = .none then
    if m.devNonce ≤ 65535 then
      let m := { m with trials := 0, day := 60 * 60 * 24 * timeTPS }
      let m := Ops.deriveJoinKeys cfg m
      let m := nextJoinRequest h cfg e m
      let m := { m with tx := { m.tx with power := 0 }, op := .joining }
      let m := if m.state = .idle then { m with state := .waitOTAA, timerA := Timer.set e 0 } else m
      (m, .ok)
    else (m, .devNonce)
  else (m, .busy)

end LDL.Re
