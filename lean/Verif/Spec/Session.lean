import Verif.Model.Data
import Verif.Spec.Regional

/-!
# Sessions a device can have

What holds of every session of a device that was started without a session, or with one it reported earlier.
-/

namespace LDL
namespace Spec

/-- The downlink counters of the session are within their first 65536 values: what the session keeps of them, the
high halves, is zero. -/
def FirstCounters (s : Session) : Prop := s.appDown = 0 ∧ s.nwkDown = 0

structure SessionOk (s : Session) : Prop where
  /-- The data rate is an uplink rate of the region. -/
  rate : s.rate ∈ upRates s.region
  /-- The power setting exists in the region. -/
  power : s.power ≤ maxPowerIndex s.region
  /-- Integers are within their C types. -/
  words : ∀ i, s.chConfig i < 4294967296
  up : s.up < 4294967296
  /-- The high halves of the downlink counters are never advanced. -/
  appDown : s.appDown = 0
  nwkDown : s.nwkDown = 0
  devAddr : s.devAddr < 4294967296
  netID : s.netID < 16777216
  joinNonce : s.joinNonce < 16777216
  devNonce : s.devNonce < 65536
  nbTrans : s.nbTrans ≤ 15
  rx1DROffset : s.rx1DROffset < 8
  rx2DataRate : s.rx2DataRate < 16
  rx1Delay : s.rx1Delay < 256
  /-- The ADR parameters are powers of two, in particular not zero. -/
  adrAckLimit : ∃ k < 16, s.adrAckLimit = 2 ^ k
  adrAckDelay : ∃ k < 16, s.adrAckDelay = 2 ^ k
  /-- No uplink was counted before joining. -/
  fresh : s.joined = false → s.up = 0
  /-- The marker by which a stored session is recognised. -/
  magic : s.magic = 0xdb
  /-- The channel mask is an array of octets. -/
  mask : ∀ i, s.chMask i < 256
  txParamSetup : s.txParamSetup < 256

/-- Ranges given by the C types of the initialisation arguments: EUIs and keys are arrays, nonces 32 bit integers. -/
structure ArgOk (arg : InitArg) : Prop where
  joinEUI : arg.joinEUI.length = 8
  devEUI : arg.devEUI.length = 8
  appKey : arg.appKey.length = 16
  nwkKey : arg.nwkKey.length = 16
  devNonce : arg.devNonce < 4294967296
  joinNonce : arg.joinNonce < 4294967296

/-- States reachable from an initialisation without a session, or with one in order, by calls with arguments
within the ranges of their C types. -/
inductive Reachable (cfg : Cfg) : Mac → Prop
  | init (region : Region) (arg : InitArg) (e : Env) (h : ∀ s, arg.session = some s → SessionOk s)
      (ha : ArgOk arg) :
      Reachable cfg (init cfg region arg e)
  | step {m : Mac} (e : Env) (c : Call) (h : Reachable cfg m) (hc : c.WF) : Reachable cfg (step cfg m e c).1

end Spec
end LDL
