import Verif.Model.ClassB
import Verif.Spec.MacCommands

/-!
# MAC commands of class B as in the LoRaWAN specification: C106
-/

namespace LDL.Spec
open ClassB

/-- What a device of class B sends. -/
inductive BUp
  | pingSlotInfoReq (periodicity : Nat)
  | pingSlotChannelAns (dataRateOK channelFreqOK : Bool)
  | beaconTimingReq
  | beaconFreqAns (ok : Bool)
deriving Repr, DecidableEq

/-- The bytes of an uplink command; the periodicity has three bits. -/
def encodeB : BUp → Bytes
  | .pingSlotInfoReq p => [0x10, UInt8.ofNat (p % 8)]
  | .pingSlotChannelAns d f => [0x11, UInt8.ofNat (2 * d.toNat + f.toNat)]
  | .beaconTimingReq => [0x12]
  | .beaconFreqAns ok => [0x13, UInt8.ofNat ok.toNat]

/-- The bytes of a downlink command: frequencies in units of 100 Hz, the data rate in the low half of its octet, the
high half (`rfu`) free. -/
def ofB (rfu : Nat) : BDown → Bytes
  | .pingSlotInfo => [0x10]
  | .pingSlotChannel f dr => 0x11 :: (le 3 (f / 100) ++ [UInt8.ofNat (16 * rfu + dr)])
  | .beaconTiming d c => 0x12 :: (le 2 d ++ [UInt8.ofNat c])
  | .beaconFreq f => 0x13 :: le 3 (f / 100)

/-- A downlink command whose fields fit its bytes. -/
def FitsB : BDown → Prop
  | .pingSlotInfo => True
  | .pingSlotChannel f dr => f % 100 = 0 ∧ f / 100 < 2 ^ 24 ∧ dr < 16
  | .beaconTiming d c => d < 2 ^ 16 ∧ c < 256
  | .beaconFreq f => f % 100 = 0 ∧ f / 100 < 2 ^ 24

/-- A command that is not of class B. -/
def _root_.LDL.ClassB.AnyDown.isA : AnyDown → Bool
  | .a _ => true
  | .b _ => false

end LDL.Spec
