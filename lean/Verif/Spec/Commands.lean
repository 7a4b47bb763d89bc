import Verif.Spec.Channel
import Verif.Spec.Answers

/-!
# What MAC commands from the network do

The effect of a list of commands on the parameters of a session, command by command, and separately that of a block
of LinkADRReq, which is taken as one.  This is what the device makes of them, in terms of their fields; `Spec/Standard`
has what the LoRaWAN standard requires.
-/

namespace LDL.Spec

/-- Regions whose channels are defined by the network. -/
def definable : Region → Bool
  | .eu868 | .eu433 => true
  | .us915 | .au915 => false

/-- Regions with the TxParamSetupReq command. -/
def hasTxParam : Region → Bool
  | .au915 => true
  | _ => false

/-- Frequencies taken for a channel. -/
def channelFreq (r : Region) (f : Nat) : Bool :=
  match r with
  | .eu868 => decide (863000000 < f ∧ f < 870000000)
  | .eu433 => decide (433175000 ≤ f ∧ f ≤ 434665000)
  | .us915 => decide (902000000 < f ∧ f < 928000000)
  | .au915 => decide (915000000 < f ∧ f < 928000000)

/-- Parameters set by MAC commands other than LinkADRReq, and the state of their answers. -/
structure Params where
  rx1Offset : Nat
  rx2Rate : Nat
  rx2Freq : Nat
  rx1Delay : Nat
  maxDutyCycle : Nat
  txParam : Nat
  adrAckLimit : Nat
  adrAckDelay : Nat
  /-- Frequency, lowest and highest rate of the channels that are defined. -/
  channels : Nat → Option (Nat × Nat × Nat)
  /-- Contents of the answers. -/
  rxParamAns : Bool × Bool × Bool
  newChannelAns : Bool × Bool
  dlChannelAns : Bool × Bool
  devStatusAns : Nat × Int
  rejoinParamAns : Bool
  /-- Answers due. -/
  due : CmdType → Bool

/-- The parameters of a session. -/
def params (s : Session) : Params where
  rx1Offset := s.rx1DROffset
  rx2Rate := s.rx2DataRate
  rx2Freq := s.rx2Freq
  rx1Delay := s.rx1Delay
  maxDutyCycle := s.maxDutyCycle
  txParam := s.txParamSetup
  adrAckLimit := s.adrAckLimit
  adrAckDelay := s.adrAckDelay
  channels := chan s
  rxParamAns := (s.rxParamSetupAns.rx1DROffsetOK, s.rxParamSetupAns.rx2DataRateOK, s.rxParamSetupAns.channelOK)
  newChannelAns := (s.newChannelAns.dataRateRangeOK, s.newChannelAns.channelFreqOK)
  dlChannelAns := (s.dlChannelAns.uplinkFreqOK, s.dlChannelAns.channelFreqOK)
  devStatusAns := (s.devStatusAns.battery, s.devStatusAns.margin)
  rejoinParamAns := s.rejoinTimeOK
  due := fun t => decide (Due s t ∧ t ≠ .linkADR)

/-- An answer becomes due. -/
def Params.answer (p : Params) (t : CmdType) : Params := { p with due := fun u => decide (u = t) || p.due u }

/-- An SNR as it can be reported. -/
def margin (snr : Int) : Int := max (-32) (min 31 snr)

/-- The effect of one command.  Requests the region does not have are ignored.  (`version` is that of the session;
`battery` and `snr` are those at reception.) -/
def obey (r : Region) (version battery : Nat) (snr : Int) (p : Params) : DownCmd → Params
  | .linkCheck _ _ | .deviceTime _ _ | .linkADR .. | .forceRejoin .. => p
  | .dutyCycle v => { p with maxDutyCycle := v }.answer .dutyCycle
  | .rxParamSetup o d f =>
    { p with rx1Offset := o, rx2Rate := d, rx2Freq := f, rxParamAns := (true, true, true) }.answer .rxParamSetup
  | .devStatus => { p with devStatusAns := (battery, margin snr) }.answer .devStatus
  | .newChannel i f hi lo =>
    if definable r then
      let rateOk := decide (i < 16 ∧ hi ≤ 5)
      let freqOk := channelFreq r f
      { p with
        newChannelAns := (rateOk, freqOk)
        channels := fun j => if j = i ∧ rateOk = true ∧ freqOk = true then some (f, lo, hi) else p.channels j
        }.answer .newChannel
    else p
  | .dlChannel _ f =>
    if definable r then { p with dlChannelAns := (true, channelFreq r f) }.answer .dlChannel else p
  | .rxTimingSetup d => { p with rx1Delay := d }.answer .rxTimingSetup
  | .txParamSetup v => if hasTxParam r then { p with txParam := v }.answer .txParamSetup else p
  | .adrParamSetup l d => { p with adrAckLimit := 2 ^ l, adrAckDelay := 2 ^ d }.answer .adrParamSetup
  | .rekey v => if v = version then { p with due := fun t => p.due t && !decide (t = .rekey) } else p
  | .rejoinParamSetup _ _ => { p with rejoinParamAns := false }.answer .rejoinParamSetup

/-- What a downlink does before its commands are looked at: the answers that are repeated until a downlink arrives
(RXParamSetupAns, DlChannelAns, RXTimingSetupAns) are retired. -/
def Params.retire (p : Params) : Params :=
  { p with due := fun t => p.due t && !decide (t = .rxParamSetup ∨ t = .dlChannel ∨ t = .rxTimingSetup) }

/-! ### LinkADRReq -/

/-- What LinkADRReq sets. -/
structure Adr where
  rate : Nat
  power : Nat
  nbTrans : Nat
  /-- Enabled channels. -/
  enabled : Nat → Bool

/-- The ADR parameters of a session. -/
def adr (s : Session) : Adr where
  rate := s.rate
  power := s.power
  nbTrans := s.nbTrans
  enabled := fun ch => decide (ch < 72 ∧ ¬ Masked s ch)

/-- The channel mask of one LinkADRReq, by ChMaskCntl; `none` if it is not legal.  In regions with a fixed plan,
ChMaskCntl 6 and 7 are taken to leave the 500 kHz channels as they are (the specification applies ChMask to them). -/
def adrMask (r : Region) (en : Nat → Bool) : DownCmd → Option (Nat → Bool)
  | .linkADR _ _ mask cntl _ =>
    if definable r then
      if cntl = 0 then some fun ch => if ch < 16 then mask.testBit ch else en ch
      else if cntl = 6 then some fun ch => decide (ch < 72)
      else none
    else if cntl = 6 then some fun ch => decide (ch < 64) || en ch
    else if cntl = 7 then some fun ch => !decide (ch < 64) && en ch
    else some fun ch => if 16 * cntl ≤ ch ∧ ch < 16 * cntl + 16 ∧ ch < 72 then mask.testBit (ch - 16 * cntl) else en ch
  | _ => some en

/-- The channel mask of a block of LinkADRReq. -/
def adrMasks (r : Region) (en : Nat → Bool) : List DownCmd → Option (Nat → Bool)
  | [] => some en
  | c :: cs =>
    match adrMask r en c with
    | some en' => adrMasks r en' cs
    | none => none

/-- The answer to a block of LinkADRReq whose last one has the given data rate and power: (mask, rate, power)
acceptable. -/
def adrAnswer (r : Region) (en : Nat → Bool) (blk : List DownCmd) (dr pw : Nat) : Bool × Bool × Bool :=
  ((match adrMasks r en blk with
    | some en' => (List.range 72).any en'
    | none => false),
   decide (dr = 15 ∨ dr ∈ upRates r), decide (pw = 15 ∨ pw ≤ maxPowerIndex r))

/-- The parameters after a block of LinkADRReq that is accepted, the last one having data rate `dr`, power `pw` and
repetitions `nb`: 15 means no change of rate and power, 0 no change of the repetitions; more than 3 repetitions are
taken as 3. -/
def adrApplied (r : Region) (a : Adr) (blk : List DownCmd) (dr pw nb : Nat) : Adr where
  rate := if dr = 15 then a.rate else dr
  power := if pw = 15 then a.power else pw
  nbTrans := if nb = 0 then a.nbTrans else min 3 nb
  enabled := (adrMasks r a.enabled blk).getD a.enabled

/-- Whether a command is a LinkADRReq. -/
def isLinkADR : DownCmd → Bool
  | .linkADR .. => true
  | _ => false

/-- The first block of contiguous LinkADRReq in a list of commands. -/
def adrBlock (cs : List DownCmd) : List DownCmd :=
  (cs.dropWhile fun c => !isLinkADR c).takeWhile isLinkADR

/-! ### What the application is told -/

/-- What the application is told of a command: the result of a link check, and the network time now.  The time is
that of the command, in 1/256 s, plus the time since the end of the uplink (`elapsed`, in ticks of `1/tps` s), rounded
down; it is given as a whole, and as seconds (modulo 2^32) and fractions. -/
def told (elapsed tps : Nat) : DownCmd → List Event
  | .linkCheck margin gateways => [.linkStatus margin gateways]
  | .deviceTime s f =>
    let t := s * 256 + f + elapsed * 256 / tps
    [.deviceTime t (t / 256 % 2 ^ 32) (t % 256)]
  | _ => []

end LDL.Spec
