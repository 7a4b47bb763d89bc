import Verif.Model.Region

/-!
# Regional parameters, written from the LoRaWAN Regional Parameters document (RP001 1.0.3)

Only the names of the regions and bandwidths are taken from the model.
-/

namespace LDL
namespace Spec

/-- Uplink data rates of a region. -/
def upRates : Region → List Nat
  | .eu868 | .eu433 => [0, 1, 2, 3, 4, 5]
  | .us915 => [0, 1, 2, 3, 4]
  | .au915 => [0, 1, 2, 3, 4, 5, 6]

/-- Downlink data rates of a region. -/
def downRates : Region → List Nat
  | .eu868 | .eu433 => [0, 1, 2, 3, 4, 5]
  | .us915 | .au915 => [8, 9, 10, 11, 12, 13]

/-- Largest legal RX1 data rate offset. -/
def maxRx1Offset : Region → Nat
  | .us915 => 3
  | _ => 5

/-- The RX1 downlink data rate: one step down per offset, limited to the downlink rates of the region. -/
def rx1Rate : Region → Nat → Nat → Nat
  | .eu868, dr, off | .eu433, dr, off => dr - off
  | .us915, dr, off => min 13 (max 8 (dr + 10 - off))
  | .au915, dr, off => min 13 (max 8 (dr + 8 - off))

/-- The RX1 frequency: the uplink frequency, or in the 900 MHz regions one of eight downlink channels at
923.3 + 0.6 n MHz with n the uplink channel number modulo 8. -/
def rx1Freq : Region → (txFreq ch : Nat) → Nat
  | .eu868, f, _ | .eu433, f, _ => f
  | .us915, _, ch | .au915, _, ch => 923300000 + 600000 * (ch % 8)

/-- Default RX2 frequency and data rate. -/
def rx2Default : Region → Nat × Nat
  | .eu868 => (869525000, 0)
  | .eu433 => (434665000, 0)
  | .us915 | .au915 => (923300000, 8)

/-- Spreading factor of a data rate. -/
def sfOf : Region → Nat → Nat
  | .eu868, dr | .eu433, dr => 12 - dr
  | .us915, dr => if dr < 4 then 10 - dr else if dr = 4 then 8 else 20 - dr
  | .au915, dr => if dr < 6 then 12 - dr else if dr = 6 then 8 else 20 - dr

/-- Bandwidth of a data rate in Hz. -/
def bwOf : Region → Nat → Nat
  | .eu868, _ | .eu433, _ => 125000
  | .us915, dr => if dr < 4 then 125000 else 500000
  | .au915, dr => if dr < 6 then 125000 else 500000

/-- Maximum MAC payload (M). -/
def maxPayload : Region → Nat → Nat
  | .eu868, dr | .eu433, dr => if dr ≤ 2 then 59 else if dr = 3 then 123 else 250
  | .us915, dr =>
    if dr = 0 then 19 else if dr = 1 then 61 else if dr = 2 then 133
    else if dr = 8 then 61 else if dr = 9 then 137 else 250
  | .au915, dr =>
    if dr ≤ 2 then 59 else if dr = 3 then 123
    else if dr = 8 then 61 else if dr = 9 then 137 else 250

/-- Number of channels a region allows. -/
def channels : Region → Nat
  | .eu868 | .eu433 => 16
  | .us915 | .au915 => 72

/-- Frequency of a channel of a fixed channel plan. -/
def fixedFreq : Region → Nat → Nat
  | .us915, ch => if ch < 64 then 902300000 + 200000 * ch else 903000000 + 1600000 * (ch - 64)
  | .au915, ch => if ch < 64 then 915200000 + 200000 * ch else 915900000 + 1600000 * (ch - 64)
  | _, _ => 0

/-- Data rates allowed on a channel: the 125 kHz rates, except on the eight 500 kHz channels of the 900 MHz
regions. -/
def channelRates : Region → Nat → List Nat
  | .eu868, _ | .eu433, _ => [0, 1, 2, 3, 4, 5]
  | .us915, ch => if ch < 64 then [0, 1, 2, 3] else [4]
  | .au915, ch => if ch < 64 then [0, 1, 2, 3, 4, 5] else [6]

/-- The frequency range of a region in Hz (inclusive bounds of the allocation). -/
def freqRange : Region → Nat × Nat
  | .eu868 => (863000000, 870000000)
  | .eu433 => (433050000, 434790000)
  | .us915 => (902000000, 928000000)
  | .au915 => (915000000, 928000000)

/-- Largest TXPower index. -/
def maxPowerIndex : Region → Nat
  | .eu868 => 7
  | .eu433 => 5
  | .us915 | .au915 => 10

/-- Maximum EIRP in hundredths of dBm. -/
def maxEirp : Region → Int
  | .eu868 => 1600
  | .eu433 => 1215
  | .us915 | .au915 => 3000

/-- Off-time factor (off-time = air time x factor) for a frequency: the sub-bands of ETSI EN 300 220 for
863-870 MHz, 1% (listed as 10% in later editions) for 433 MHz, none in the 900 MHz regions.  `none` for a
frequency outside the sub-bands. -/
def offTimeFactor : Region → Nat → Option Nat
  | .eu868, f =>
    if 863000000 ≤ f ∧ f ≤ 868600000 then some 100
    else if 868700000 ≤ f ∧ f ≤ 869200000 then some 1000
    else if 869400000 ≤ f ∧ f ≤ 869650000 then some 10
    else if 869700000 ≤ f ∧ f < 870000000 then some 100
    else none
  | .eu433, _ => some 100
  | .us915, _ | .au915, _ => some 0

end Spec
end LDL
