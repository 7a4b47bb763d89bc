import Verif.Spec.Channel

/-!
# The state of a device that knows no network (RP001 1.0.3, LoRaWAN 1.0.4)
-/

namespace LDL
namespace Spec

/-- The channels a device starts with: frequency, lowest and highest data rate. -/
def defaultChan : Region → Nat → Option (Nat × Nat × Nat)
  | .eu868, ch => if ch < 3 then some (868100000 + 200000 * ch, 0, 5) else none
  | .eu433, ch => if ch < 3 then some (433175000 + 200000 * ch, 0, 5) else none
  | .us915, ch => if ch < 64 then some (fixedFreq .us915 ch, 0, 3) else if ch < 72 then some (fixedFreq .us915 ch, 4, 4) else none
  | .au915, ch => if ch < 64 then some (fixedFreq .au915 ch, 0, 5) else if ch < 72 then some (fixedFreq .au915 ch, 6, 6) else none

/-- Default channels, none of them disabled. -/
structure DefaultChannels (r : Region) (s : Session) : Prop where
  plan : ∀ ch, chan s ch = defaultChan r ch
  mask : ∀ ch, ¬ Masked s ch

/-- Default receive parameters: RX1 one second after the transmission, without data rate offset, and RX2 as the region
says. -/
structure DefaultReceive (r : Region) (s : Session) : Prop where
  delay : s.rx1Delay = 1
  offset : s.rx1DROffset = 0
  rx2 : (s.rx2Freq, s.rx2DataRate) = rx2Default r

/-- Nothing is left of a network. -/
structure NoNetwork (s : Session) : Prop where
  joined : s.joined = false
  counters : s.up = 0 ∧ s.appDown = 0 ∧ s.nwkDown = 0
  address : s.devAddr = 0 ∧ s.netID = 0
  nonces : s.joinNonce = 0 ∧ s.devNonce = 0
  repetitions : s.nbTrans = 0
  adr : s.adrAckLimit = 64 ∧ s.adrAckDelay = 32
  answers : s.pendingCmds = 0

end Spec
end LDL
