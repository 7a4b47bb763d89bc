import Verif.Spec.AirTime
import Verif.Model.Radio
import Verif.Model.State

/-!
# Dwell time

The FCC rules behind US915 limit a transmission on a 125 kHz channel to 400 ms, and the regional parameters choose the
largest frames of US915 so that none exceeds that at any rate.  In AU915 the same limit holds while the network has it
in force: TXParamSetupReq carries it as bit 4 of its byte, and it is in force by default.
-/

namespace LDL
namespace Spec

/-- A frame of some bytes, sent as LoRaWAN uplinks are (explicit header, CRC), is on the air for at most 400 ms. -/
def WithinDwell (s : TxSetting) (frame : Bytes) : Prop :=
  AirTimeAtMost (bwToNumber s.bw) s.sf frame.length true false 400000

/-- The uplink dwell time limit is in force in AU915: bit 4 of the last TXParamSetupReq, or of the default. -/
def DwellLimited (s : Session) : Prop := s.region = .au915 ∧ s.txParamSetup / 16 % 2 = 1

end Spec
end LDL
