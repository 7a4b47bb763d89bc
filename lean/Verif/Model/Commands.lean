import Verif.Model.Channel
import Verif.Model.Stream

/-!
# Model of src/ldl_mac.c: processing of downlink MAC commands
-/

namespace LDL

/-- `enum adr_validation_states` (src/ldl_mac.c:2064-2069). -/
inductive AdrState | noAdr | ok | bad
deriving Repr, DecidableEq

/-- `LDL_REDUNDANCY_MAX` (include/ldl_platform.h). -/
def REDUNDANCY_MAX : Nat := 3

/-- The channel mask part of a LinkADRReq (src/ldl_mac.c:2123-2189). -/
def linkADRMask (s : Session) (chMask cntl : Nat) : Session :=
  if s.region.isDynamic then
    if cntl = 0 then { s with chMask := applyMask16 s.region chMask 0 s.chMask }
    else if cntl = 6 then { s with chMask := unmaskAll }
    else { s with linkADRAns := { s.linkADRAns with channelMaskOK := false } }
  else
    if cntl = 6 then { s with chMask := (List.range 64).foldl (fun k i => unmaskChannel k s.region i) s.chMask }
    else if cntl = 7 then { s with chMask := (List.range 64).foldl (fun k i => maskChannel k s.region i) s.chMask }
    else { s with chMask := applyMask16 s.region chMask (cntl * 16) s.chMask }

/-- The repetitions of a LinkADRReq (src/ldl_mac.c:2196-2205). -/
def adrNbTrans (s : Session) (nbTrans : Nat) : Session :=
  if nbTrans > 0 then
    { s with nbTrans := if nbTrans &&& 0xf > REDUNDANCY_MAX then REDUNDANCY_MAX else nbTrans &&& 0xf }
  else s

/-- The data rate of a LinkADRReq (src/ldl_mac.c:2207-2219). -/
def adrRate (s : Session) (dataRate : Nat) : Session :=
  if dataRate < 0xf then
    if rateSettingIsValid s.region dataRate then { s with rate := dataRate }
    else { s with linkADRAns := { s.linkADRAns with dataRateOK := false } }
  else s

/-- The power of a LinkADRReq (src/ldl_mac.c:2221-2232). -/
def adrPower (s : Session) (txPower : Nat) : Session :=
  if txPower < 0xf then
    if s.region.validateTXPower txPower then { s with power := txPower }
    else { s with linkADRAns := { s.linkADRAns with powerOK := false } }
  else s

/-- The check of the channel mask at the end of a block (src/ldl_mac.c:2234-2239). -/
def adrMaskCheck (s : Session) : Session :=
  if allChannelsAreMasked s.chMask then { s with linkADRAns := { s.linkADRAns with channelMaskOK := false } }
  else s

/-- The end of a contiguous block of LinkADRReq (src/ldl_mac.c:2191-2250). -/
def linkADREnd (s : Session) (dataRate txPower nbTrans : Nat) : Session × AdrState :=
  let s := { s with linkADRAns := { s.linkADRAns with dataRateOK := true, powerOK := true } }
  let s := adrMaskCheck (adrPower (adrRate (adrNbTrans s nbTrans) dataRate) txPower)
  (setPending s .linkADR,
    if s.linkADRAns.dataRateOK && s.linkADRAns.powerOK && s.linkADRAns.channelMaskOK then .ok else .bad)

/-- DevStatusAns margin (src/ldl_mac.c:2302-2313). -/
def clampMargin (snr : Int) : Int := if snr > 31 then 31 else if snr < -32 then -32 else snr

/-- The `switch` in the loop of `processCommands` (src/ldl_mac.c:2087-2482).  `nextIsADR` is the result of
`LDL_MAC_peekNextCommand` on the rest of the stream. -/
def applyCommand (cfg : Cfg) (e : Env) (nextIsADR : Bool) (cmd : DownCmd) (m : Mac) (adr : AdrState) :
    Mac × AdrState :=
  match cmd with
  | .linkCheck margin gwCount => (m.emit (.linkStatus margin gwCount), adr)
  | .linkADR dataRate txPower chMask cntl nbTrans =>
    if commandIsPending m.ctx .linkADR then (m, adr)
    else
      let s := linkADRMask m.ctx chMask cntl
      if nextIsADR then ({ m with ctx := s }, adr)
      else
        let r := linkADREnd s dataRate txPower nbTrans
        ({ m with ctx := r.1 }, r.2)
  | .dutyCycle v => ({ m with ctx := setPending { m.ctx with maxDutyCycle := v } .dutyCycle }, adr)
  | .rxParamSetup off rate freq =>
    let s := { m.ctx with
      rx1DROffset := off, rx2DataRate := rate, rx2Freq := freq, rxParamSetupAns := ⟨true, true, true⟩ }
    ({ m with ctx := setPending s .rxParamSetup }, adr)
  | .devStatus =>
    let s := { m.ctx with devStatusAns := ⟨u8 e.battery, clampMargin m.rxSnr⟩ }
    ({ m with ctx := setPending s .devStatus }, adr)
  | .newChannel ch freq maxDR minDR =>
    if m.ctx.region.isDynamic then
      let ans : NewChannelAns :=
        ⟨m.ctx.region.validateRate ch minDR maxDR, m.ctx.region.validateFreq freq⟩
      let s := { m.ctx with newChannelAns := ans }
      let s := if ans.dataRateRangeOK && ans.channelFreqOK then (setChannel s ch freq minDR maxDR).2 else s
      ({ m with ctx := setPending s .newChannel }, adr)
    else (m, adr)
  | .dlChannel _ freq =>
    if m.ctx.region.isDynamic then
      let s := { m.ctx with dlChannelAns := ⟨true, m.ctx.region.validateFreq freq⟩ }
      ({ m with ctx := setPending s .dlChannel }, adr)
    else (m, adr)
  | .rxTimingSetup delay =>
    ({ m with ctx := setPending { m.ctx with rx1Delay := delay } .rxTimingSetup }, adr)
  | .txParamSetup v =>
    if m.ctx.region.txParamSetupImplemented then
      ({ m with ctx := setPending { m.ctx with txParamSetup := v } .txParamSetup }, adr)
    else (m, adr)
  | .deviceTime seconds fractions =>
    let time := (seconds <<< 8) ||| fractions
    let lag := timerDelta m.ticksAtTx e.later
    let time := time + lag * timeTPS / cfg.tps
    (m.emit (.deviceTime time (u32 (time >>> 8)) (u8 time)), adr)
  | .adrParamSetup limitExp delayExp =>
    let s := { m.ctx with adrAckLimit := u16 (1 <<< limitExp), adrAckDelay := u16 (1 <<< delayExp) }
    ({ m with ctx := setPending s .adrParamSetup }, adr)
  | .rekey version =>
    if version = m.ctx.version then ({ m with ctx := clearPending m.ctx .rekey }, adr) else (m, adr)
  | .forceRejoin _ _ _ _ => (m, adr)
  | .rejoinParamSetup _ _ =>
    ({ m with ctx := setPending { m.ctx with rejoinTimeOK := false } .rejoinParamSetup }, adr)

/-- The loop of `processCommands` (src/ldl_mac.c:2085-2483).  `fuel` bounds the number of iterations; a command
takes at least one byte, so the length of the input plus one is enough (`c08_terminates`). -/
def commandLoop (cfg : Cfg) (e : Env) : Nat → Stream → Mac → AdrState → Mac × AdrState
  | 0, _, m, adr => (m, adr)
  | fuel + 1, s, m, adr =>
    match MacCmd.getDownCommand cfg.v11 s with
    | (none, _) => (m, adr)
    | (some cmd, s) =>
      let r := applyCommand cfg e (MacCmd.peekNextCommand cfg.v11 s == some .linkADR) cmd m adr
      commandLoop cfg e fuel s r.1 r.2

/-- `processCommands` (src/ldl_mac.c:2051-2496); `inp.length` is the argument `len`. -/
def processCommands (cfg : Cfg) (e : Env) (m : Mac) (inp : Bytes) : Mac :=
  let nbTrans := m.ctx.nbTrans
  let power := m.ctx.power
  let rate := m.ctx.rate
  let chMask := m.ctx.chMask
  let m := { m with
    ctx := { m.ctx with linkADRAns := { m.ctx.linkADRAns with channelMaskOK := true } } }
  let r := commandLoop cfg e (inp.length + 1) (Stream.initReadOnly inp inp.length) m .noAdr
  let m := r.1
  if r.2 = .bad then
    { m with ctx := { m.ctx with chMask := chMask, rate := rate, power := power, nbTrans := nbTrans } }
  else m

end LDL
