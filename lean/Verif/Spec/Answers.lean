import Verif.Spec.MacCommands
import Verif.Model.State

/-!
# The MAC commands an uplink carries

Which of them are due is written in terms of the session: an answer is due when its request was received and the
answer was not retired since.
-/

namespace LDL.Spec

/-- Whether an answer (or indication) of type `t` is due. -/
def Due (s : Session) (t : CmdType) : Prop := s.pendingCmds.testBit t.index = true

instance (s : Session) (t : CmdType) : Decidable (Due s t) := inferInstanceAs (Decidable (_ = true))

/-- The answers and requests for the next uplink, in the order sent; `check` and `getTime` are the requests of the
application. -/
def answers (v11 : Bool) (s : Session) (check getTime : Bool) : List UpCmd :=
  (if v11 = true ∧ Due s .rekey then [.rekeyInd s.version] else []) ++
  (if Due s .rxParamSetup then
    [.rxParamSetupAns s.rxParamSetupAns.rx1DROffsetOK s.rxParamSetupAns.rx2DataRateOK s.rxParamSetupAns.channelOK]
    else []) ++
  (if Due s .dlChannel then [.dlChannelAns s.dlChannelAns.uplinkFreqOK s.dlChannelAns.channelFreqOK] else []) ++
  (if Due s .rxTimingSetup then [.rxTimingSetupAns] else []) ++
  (if Due s .linkADR then
    [.linkADRAns s.linkADRAns.powerOK s.linkADRAns.dataRateOK s.linkADRAns.channelMaskOK] else []) ++
  (if Due s .devStatus then [.devStatusAns s.devStatusAns.battery s.devStatusAns.margin] else []) ++
  (if Due s .newChannel then [.newChannelAns s.newChannelAns.dataRateRangeOK s.newChannelAns.channelFreqOK] else []) ++
  (if v11 = true ∧ Due s .rejoinParamSetup then [.rejoinParamSetupAns s.rejoinTimeOK] else []) ++
  (if v11 = true ∧ Due s .adrParamSetup then [.adrParamSetupAns] else []) ++
  (if Due s .txParamSetup then [.txParamSetupAns] else []) ++
  (if Due s .dutyCycle then [.dutyCycleAns] else []) ++
  (if check then [.linkCheckReq] else []) ++
  (if getTime then [.deviceTimeReq] else [])

/-- Answers repeated in every uplink until a downlink is received (LoRaWAN 1.0.4 sections 5.4, 5.6, 5.7; RekeyInd of
1.1 section 5.10, until RekeyConf). -/
def Sticky (t : CmdType) : Prop := t = .rekey ∨ t = .rxParamSetup ∨ t = .dlChannel ∨ t = .rxTimingSetup

end LDL.Spec
