import Verif.Spec.Sx127xChip
import Verif.Spec.LoRaRate

/-!
# What a LoRaWAN device puts on the air and listens for

LoRaWAN regional parameters, physical layer: coding rate 4/5, eight preamble symbols, public sync word, explicit
header; uplinks carry a CRC and normal IQ, downlinks are received with inverted IQ.
-/

namespace LDL.Spec

/-- `c` (1/256 Hz) is the carrier for `freq` (Hz): the multiple of the synthesiser step (15625/256 Hz) next below. -/
def CarrierFor (c freq : Nat) : Prop := 15625 ∣ c ∧ c ≤ 256 * freq ∧ 256 * freq < c + 15625

namespace Sx127x
open LDL.Sx127x (Kind Pa)

/-- `em` is the uplink `data` sent with setting `s`. -/
structure Airs (s : TxSetting) (data : Bytes) (em : Emission) : Prop where
  bytes : em.bytes = data
  /-- the frequency register has 24 bits -/
  carrier : s.freq < 1024000000 → CarrierFor em.carrier s.freq
  bw : em.bw = some s.bw
  sf : em.sf = s.sf
  codingRate : em.codingRate = 1
  explicitHeader : em.explicitHeader = true
  crc : em.crc = true
  lowRate : em.lowRate = LongSymbol s.bw s.sf
  syncWord : em.syncWord = 0x34
  inverted : em.inverted = false
  preamble : em.preamble = 8
  signalled : em.signalled = true

/-- `l` is a receive window with setting `s`. -/
structure Hears (s : RxSetting) (l : Listening) : Prop where
  carrier : s.freq < 1024000000 → CarrierFor l.carrier s.freq
  bw : l.bw = some s.bw
  sf : l.sf = s.sf
  codingRate : l.codingRate = 1
  explicitHeader : l.explicitHeader = true
  lowRate : l.lowRate = LongSymbol s.bw s.sf
  syncWord : l.syncWord = 0x34
  inverted : l.inverted = true
  preamble : l.preamble = 8
  /-- the symbol timeout is a ten bit register -/
  symbols : l.symbols = max 8 (min 1023 s.timeout)
  max : l.max = s.max
  io : l.io = .rx
  signalled : l.signalled = true

/-- Weakest output in hundredths of a dBm. -/
def lowest (k : Kind) (boost : Bool) : Int :=
  if boost then 200 else match k with | .sx1272 => -100 | .sx1276 => -360

/-- Strongest output in hundredths of a dBm. -/
def highest (k : Kind) (boost : Bool) : Int :=
  if boost then 2000 else match k with | .sx1272 => 1400 | .sx1276 => 1380

/-- The pin to use for power `p`. -/
def Pin (pa : Pa) (p : Int) (boost : Bool) : Prop :=
  match pa with
  | .rfo => boost = false
  | .boost => boost = true
  | .auto => boost = decide (1500 ≤ p)

/-- `em` is as strong as asked (`p`, hundredths of a dBm): never stronger, unless the amplifier cannot go that low
or, below 0 dBm, by less than 1 dB; at most 1.2 dB weaker if the amplifier can go that high, 3 dB for 18 and 19 dBm
on PA_BOOST.  The accessory lines select the pin in use. -/
structure PowerOk (k : Kind) (pa : Pa) (p : Int) (em : Emission) : Prop where
  upper : em.power ≤ max (lowest k em.boost) (if 0 ≤ p then p else p + 99)
  lower : min (highest k em.boost) p - 299 ≤ em.power
  close : ¬(em.boost = true ∧ 1800 ≤ p ∧ p < 2000) → min (highest k em.boost) p - 119 ≤ em.power
  pin : Pin pa p em.boost
  io : em.io = if em.boost then .txBoost else .txRfo

/-- RegPktSnrValue is a two's complement number of quarters of a dB. -/
def quarterSnr (v : UInt8) : Int := if v.toNat < 128 then v.toNat else v.toNat - 256

/-- Signal strength in dBm (the data sheets' formula for the upper band, without the correction for weak signals). -/
def rssiOf (k : Kind) (v : UInt8) : Int :=
  match k with
  | .sx1272 => v.toNat - 139
  | .sx1276 => v.toNat - 157

end Sx127x
end LDL.Spec
