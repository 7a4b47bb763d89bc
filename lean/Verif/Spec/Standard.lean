import Verif.Spec.Commands

/-!
# MAC commands of the network as the LoRaWAN standard has them

LoRaWAN 1.0.3, 1.0.4 and 1.1, section 5, and the Regional Parameters.  `obey` in `Spec/Commands` describes exactly what
the device makes of each command; this file says what it should make of it, with the checks the standard requires and
the cases it allows for.
-/

namespace LDL.Spec

/-- The parameters a network sets, apart from those of LinkADRReq. -/
structure Net where
  rx1Offset : Nat
  rx2Rate : Nat
  rx2Freq : Nat
  /-- seconds -/
  rx1Delay : Nat
  maxDutyCycle : Nat
  txParam : Nat
  adrAckLimit : Nat
  adrAckDelay : Nat
  /-- uplink frequency, lowest and highest rate of each channel that is defined -/
  channels : Nat → Option (Nat × Nat × Nat)
  /-- downlink frequency of each channel, where channels can be defined -/
  down : Nat → Option Nat

/-- The parameters of the device: a channel has one frequency, for both directions. -/
def Params.net (p : Params) : Net where
  rx1Offset := p.rx1Offset
  rx2Rate := p.rx2Rate
  rx2Freq := p.rx2Freq
  rx1Delay := p.rx1Delay
  maxDutyCycle := p.maxDutyCycle
  txParam := p.txParam
  adrAckLimit := p.adrAckLimit
  adrAckDelay := p.adrAckDelay
  channels := p.channels
  down := fun ch => (p.channels ch).map (·.1)

/-- The number of channels of a region that the network may not change. -/
def defaultChannels : Region → Nat
  | .eu868 | .eu433 => 3
  | .us915 | .au915 => 0

/-- What a request is to be answered with (1.0.4 sections 5.3 to 5.10; LinkADRReq is treated below).  The device has
no rejoin requests by time, and says so. -/
def reply (r : Region) (battery : Nat) (snr : Int) (n : Net) : DownCmd → Option UpCmd
  | .dutyCycle _ => some .dutyCycleAns
  | .rxParamSetup o d f =>
    some (.rxParamSetupAns (decide (o ≤ maxRx1Offset r)) (decide (d ∈ downRates r)) (channelFreq r f))
  | .devStatus => some (.devStatusAns battery (margin snr))
  | .newChannel i f hi lo =>
    if definable r then
      some (.newChannelAns (decide (defaultChannels r ≤ i ∧ i < 16 ∧ lo ≤ hi ∧ hi ∈ upRates r))
        (decide (f = 0) || channelFreq r f))
    else none
  | .dlChannel i f => if definable r then some (.dlChannelAns (n.channels i).isSome (channelFreq r f)) else none
  | .rxTimingSetup _ => some .rxTimingSetupAns
  | .txParamSetup _ => if hasTxParam r then some .txParamSetupAns else none
  | .adrParamSetup _ _ => some .adrParamSetupAns
  | .rejoinParamSetup _ _ => some (.rejoinParamSetupAns false)
  | _ => none

/-- What a request does.  A request that is refused in any respect does nothing; frequency 0 in NewChannelReq removes
the channel; a delay of 0 means one second. -/
def effect (r : Region) (n : Net) : DownCmd → Net
  | .dutyCycle v => { n with maxDutyCycle := v }
  | .rxParamSetup o d f =>
    if o ≤ maxRx1Offset r ∧ d ∈ downRates r ∧ channelFreq r f = true then
      { n with rx1Offset := o, rx2Rate := d, rx2Freq := f }
    else n
  | .newChannel i f hi lo =>
    if definable r = true ∧ defaultChannels r ≤ i ∧ i < 16 ∧ lo ≤ hi ∧ hi ∈ upRates r ∧ (f = 0 ∨ channelFreq r f = true) then
      { n with
        channels := fun j => if j = i then (if f = 0 then none else some (f, lo, hi)) else n.channels j
        down := fun j => if j = i then (if f = 0 then none else some f) else n.down j }
    else n
  | .dlChannel i f =>
    if definable r = true ∧ (n.channels i).isSome = true ∧ channelFreq r f = true then
      { n with down := fun j => if j = i then some f else n.down j }
    else n
  | .rxTimingSetup d => { n with rx1Delay := max 1 d }
  | .txParamSetup v => if hasTxParam r then { n with txParam := v } else n
  | .adrParamSetup l d => { n with adrAckLimit := 2 ^ l, adrAckDelay := 2 ^ d }
  | _ => n

/-- Requests for which the device does what the standard says.  The others: RXParamSetupReq with a value that is not
legal, NewChannelReq for a default channel, without a frequency, or with an empty range of rates, any DlChannelReq for a
channel that is not defined or that changes the frequency, RXTimingSetupReq with delay 0. -/
def Plain (r : Region) (n : Net) : DownCmd → Prop
  | .rxParamSetup o d f => o ≤ maxRx1Offset r ∧ d ∈ downRates r ∧ channelFreq r f = true
  | .newChannel i f hi lo => definable r = true → defaultChannels r ≤ i ∧ f ≠ 0 ∧ (lo ≤ hi ∨ 16 ≤ i ∨ hi ∉ upRates r)
  | .dlChannel i f => definable r = true → (n.channels i).isSome = true ∧ (channelFreq r f = true → n.down i = some f)
  | .rxTimingSetup d => d ≠ 0
  | _ => True

/-- All requests are plain when their turn comes. -/
def AllPlain (r : Region) : Net → List DownCmd → Prop
  | _, [] => True
  | n, c :: cs => Plain r n c ∧ AllPlain r (effect r n c) cs

/-! ### LinkADRReq -/

/-- The channel mask of one LinkADRReq by ChMaskCntl; `none` if it is not defined.  Fixed plans: 0 to 3 are sixteen
125 kHz channels each, 4 the 500 kHz channels, 5 banks of eight 125 kHz channels and one 500 kHz channel, 6 and 7 turn
all 125 kHz channels on and off, with the mask for the 500 kHz channels.  Plans with sixteen channels: 0 is these, 6 turns
all on. -/
def stdMask (r : Region) (en : Nat → Bool) (mask cntl : Nat) : Option (Nat → Bool) :=
  if definable r then
    if cntl = 0 then some fun ch => if ch < 16 then mask.testBit ch else en ch
    else if cntl = 6 then some fun ch => decide (ch < 72)
    else none
  else if cntl ≤ 3 then some fun ch => if ch / 16 = cntl then mask.testBit (ch % 16) else en ch
  else if cntl = 4 then some fun ch => if 64 ≤ ch ∧ ch < 72 then mask.testBit (ch - 64) else en ch
  else if cntl = 5 then
    some fun ch => if ch < 64 then mask.testBit (ch / 8) else if ch < 72 then mask.testBit (ch - 64) else en ch
  else if cntl = 6 then
    some fun ch => if ch < 64 then true else if ch < 72 then mask.testBit (ch - 64) else en ch
  else if cntl = 7 then
    some fun ch => if ch < 64 then false else if ch < 72 then mask.testBit (ch - 64) else en ch
  else none

/-- The channel mask of a block of LinkADRReq. -/
def stdMasks (r : Region) (en : Nat → Bool) : List DownCmd → Option (Nat → Bool)
  | [] => some en
  | .linkADR _ _ mask cntl _ :: cs =>
    match stdMask r en mask cntl with
    | some en' => stdMasks r en' cs
    | none => none
  | _ :: cs => stdMasks r en cs

/-- A request of a block enables a channel that is not defined. -/
def EnablesUndefined (r : Region) (channels : Nat → Option (Nat × Nat × Nat)) (blk : List DownCmd) : Prop :=
  definable r = true ∧ ∃ dr pw mask nb ch, .linkADR dr pw mask 0 nb ∈ blk ∧ ch < 16 ∧ mask.testBit ch = true ∧ channels ch = none

/-- The answer to a block whose last request has rate `dr` and power `pw` is that everything is acceptable: the masks
are defined, enable no channel that is not defined and leave one that is; the rate exists and can be used on a channel
enabled; the power exists. -/
def Acceptable (r : Region) (channels : Nat → Option (Nat × Nat × Nat)) (en : Nat → Bool) (blk : List DownCmd)
    (dr pw : Nat) : Prop :=
  ∃ en', stdMasks r en blk = some en' ∧ ¬ EnablesUndefined r channels blk ∧
    (∃ ch, en' ch = true ∧ (channels ch).isSome = true) ∧
    (dr = 15 ∨ dr ∈ upRates r ∧ ∃ ch f lo hi, en' ch = true ∧ channels ch = some (f, lo, hi) ∧ lo ≤ dr ∧ dr ≤ hi) ∧
    (pw = 15 ∨ pw ≤ maxPowerIndex r)

/-- The parameters after a block that is acceptable. -/
def stdApplied (r : Region) (a : Adr) (blk : List DownCmd) (dr pw nb : Nat) : Adr where
  rate := if dr = 15 then a.rate else dr
  power := if pw = 15 then a.power else pw
  nbTrans := if nb = 0 then a.nbTrans else nb
  enabled := (stdMasks r a.enabled blk).getD a.enabled

/-- Blocks for which the device does what the standard says.  The others: in fixed plans ChMaskCntl 5, 6 and 7; masks
that enable a channel that is not defined, or leave only such; a rate that no channel enabled allows; more than three
repetitions. -/
structure PlainBlock (r : Region) (channels : Nat → Option (Nat × Nat × Nat)) (en : Nat → Bool) (blk : List DownCmd)
    (dr nb : Nat) : Prop where
  cntl : definable r = false → ∀ dr pw mask cntl nb, .linkADR dr pw mask cntl nb ∈ blk → cntl ≤ 4
  defined : ¬ EnablesUndefined r channels blk
  left : ∀ en', stdMasks r en blk = some en' → (∀ ch < 72, en' ch = false) ∨ ∃ ch, en' ch = true ∧ (channels ch).isSome = true
  rate : ∀ en', stdMasks r en blk = some en' → (∀ ch < 72, en' ch = false) ∨ dr = 15 ∨ dr ∉ upRates r ∨
    ∃ ch f lo hi, en' ch = true ∧ channels ch = some (f, lo, hi) ∧ lo ≤ dr ∧ dr ≤ hi
  repetitions : nb ≤ 3

end LDL.Spec
