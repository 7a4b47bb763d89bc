import Verif.Spec.Wire
import Verif.Model.MacCommands

/-!
# Downlink MAC commands, written from the LoRaWAN specification (1.0.4 section 5, 1.1 section 5)

Only the type `DownCmd` (the list of commands with their fields) is taken from the model.  Frequencies
are in Hz (sent as multiples of 100 Hz).
-/

namespace LDL.Spec

/-- The specification's parser for the next command: CID, then a payload whose length depends on the CID.
`none` if the CID is unknown (for this version) or the payload is truncated. -/
def nextCommand (v11 : Bool) : List UInt8 → Option (DownCmd × List UInt8)
  | [] => none
  | cid :: bs =>
    match cid.toNat, bs with
    | 2, m :: g :: r => some (.linkCheck m.toNat g.toNat, r)
    | 3, a :: m0 :: m1 :: n :: r =>
      some (.linkADR (a.toNat / 16) (a.toNat % 16) (leValue [m0, m1]) (n.toNat / 16 % 8)
        (n.toNat % 16), r)
    | 4, d :: r => some (.dutyCycle (d.toNat % 16), r)
    | 5, d :: f0 :: f1 :: f2 :: r =>
      some (.rxParamSetup (d.toNat / 16 % 8) (d.toNat % 16) (100 * leValue [f0, f1, f2]), r)
    | 6, r => some (.devStatus, r)
    | 7, i :: f0 :: f1 :: f2 :: d :: r =>
      some (.newChannel i.toNat (100 * leValue [f0, f1, f2]) (d.toNat / 16) (d.toNat % 16), r)
    | 8, d :: r => some (.rxTimingSetup (d.toNat % 16), r)
    | 9, d :: r => some (.txParamSetup (d.toNat % 64), r)
    | 10, i :: f0 :: f1 :: f2 :: r => some (.dlChannel i.toNat (100 * leValue [f0, f1, f2]), r)
    | 13, s0 :: s1 :: s2 :: s3 :: f :: r => some (.deviceTime (leValue [s0, s1, s2, s3]) f.toNat, r)
    | 11, d :: r => if v11 then some (.rekey (d.toNat % 16), r) else none
    | 12, d :: r => if v11 then some (.adrParamSetup (d.toNat / 16) (d.toNat % 16), r) else none
    | 14, w0 :: w1 :: r =>
      -- RFU(15:14) | Period(13:11) | Max_Retries(10:8) | RFU(7) | RejoinType(6:4) | DR(3:0)
      let w := leValue [w0, w1]
      if v11 then some (.forceRejoin (w / 2048 % 8) (w / 256 % 8) (w / 16 % 8) (w % 16), r) else none
    | 15, d :: r => if v11 then some (.rejoinParamSetup (d.toNat / 16) (d.toNat % 16), r) else none
    | _, _ => none

/-- All commands up to the first unknown or truncated one.  (`fuel` is the length of the input.) -/
def parseCommandsAux (v11 : Bool) : Nat → List UInt8 → List DownCmd
  | 0, _ => []
  | fuel + 1, bs =>
    match nextCommand v11 bs with
    | none => []
    | some (c, r) => c :: parseCommandsAux v11 fuel r

/-- All commands up to the first unknown or truncated one. -/
def parseCommands (v11 : Bool) (bs : List UInt8) : List DownCmd := parseCommandsAux v11 bs.length bs

/-- What remains when the parser stops.  (`fuel` is the length of the input.) -/
def leftoverAux (v11 : Bool) : Nat → List UInt8 → List UInt8
  | 0, bs => bs
  | fuel + 1, bs =>
    match nextCommand v11 bs with
    | none => bs
    | some (_, r) => leftoverAux v11 fuel r

/-- What remains when the parser stops: nothing, or something beginning with an unknown CID or truncated. -/
def leftover (v11 : Bool) (bs : List UInt8) : List UInt8 := leftoverAux v11 bs.length bs

/-- The specification's encoder (what a network server sends). -/
def encodeCommand : DownCmd → List UInt8
  | .linkCheck m g => [2, UInt8.ofNat m, UInt8.ofNat g]
  | .linkADR dr p mask ctl nb =>
    [3, UInt8.ofNat (16 * dr + p)] ++ le 2 mask ++ [UInt8.ofNat (16 * ctl + nb)]
  | .dutyCycle d => [4, UInt8.ofNat d]
  | .rxParamSetup o dr f => [5, UInt8.ofNat (16 * o + dr)] ++ le 3 (f / 100)
  | .devStatus => [6]
  | .newChannel i f hi lo => [7, UInt8.ofNat i] ++ le 3 (f / 100) ++ [UInt8.ofNat (16 * hi + lo)]
  | .rxTimingSetup d => [8, UInt8.ofNat d]
  | .txParamSetup v => [9, UInt8.ofNat v]
  | .dlChannel i f => [10, UInt8.ofNat i] ++ le 3 (f / 100)
  | .rekey v => [11, UInt8.ofNat v]
  | .adrParamSetup l d => [12, UInt8.ofNat (16 * l + d)]
  | .deviceTime s f => [13] ++ le 4 s ++ [UInt8.ofNat f]
  | .forceRejoin p m t dr => [14] ++ le 2 (2048 * p + 256 * m + 16 * t + dr)
  | .rejoinParamSetup t c => [15, UInt8.ofNat (16 * t + c)]

/-- Field ranges of a command, and whether it exists in this version. -/
def WFCommand (v11 : Bool) : DownCmd → Prop
  | .linkCheck m g => m < 256 ∧ g < 256
  | .linkADR dr p mask ctl nb => dr < 16 ∧ p < 16 ∧ mask < 65536 ∧ ctl < 8 ∧ nb < 16
  | .dutyCycle d => d < 16
  | .rxParamSetup o dr f => o < 8 ∧ dr < 16 ∧ f % 100 = 0 ∧ f / 100 < 2 ^ 24
  | .devStatus => True
  | .newChannel i f hi lo => i < 256 ∧ f % 100 = 0 ∧ f / 100 < 2 ^ 24 ∧ hi < 16 ∧ lo < 16
  | .rxTimingSetup d => d < 16
  | .txParamSetup v => v < 64
  | .dlChannel i f => i < 256 ∧ f % 100 = 0 ∧ f / 100 < 2 ^ 24
  | .rekey v => v11 = true ∧ v < 16
  | .adrParamSetup l d => v11 = true ∧ l < 16 ∧ d < 16
  | .deviceTime s f => s < 2 ^ 32 ∧ f < 256
  | .forceRejoin p m t dr => v11 = true ∧ p < 8 ∧ m < 8 ∧ t < 8 ∧ dr < 16
  | .rejoinParamSetup t c => v11 = true ∧ t < 16 ∧ c < 16

/-- Uplink MAC commands with their fields (LoRaWAN 1.0.4 / 1.1 section 5).  The SNR margin is a signed
6 bit integer. -/
inductive UpCmd
  | linkCheckReq
  | linkADRAns (powerAck dataRateAck channelMaskAck : Bool)
  | dutyCycleAns
  | rxParamSetupAns (rx1DROffsetAck rx2DataRateAck channelAck : Bool)
  | devStatusAns (battery : Nat) (margin : Int)
  | newChannelAns (dataRateRangeOk channelFrequencyOk : Bool)
  | rxTimingSetupAns
  | txParamSetupAns
  | dlChannelAns (uplinkFrequencyExists channelFrequencyOk : Bool)
  | rekeyInd (minor : Nat)
  | adrParamSetupAns
  | deviceTimeReq
  | rejoinParamSetupAns (timeOk : Bool)
deriving Repr, DecidableEq

/-- Three acknowledge bits, most significant first. -/
def ackBits (b2 b1 b0 : Bool) : Nat := 4 * b2.toNat + 2 * b1.toNat + b0.toNat

/-- Encoding of an uplink MAC command. -/
def encodeUp : UpCmd → List UInt8
  | .linkCheckReq => [2]
  | .linkADRAns p d c => [3, UInt8.ofNat (ackBits p d c)]
  | .dutyCycleAns => [4]
  | .rxParamSetupAns o d c => [5, UInt8.ofNat (ackBits o d c)]
  | .devStatusAns b m => [6, UInt8.ofNat b, UInt8.ofNat (m % 64).toNat]
  | .newChannelAns d f => [7, UInt8.ofNat (ackBits false d f)]
  | .rxTimingSetupAns => [8]
  | .txParamSetupAns => [9]
  | .dlChannelAns u f => [10, UInt8.ofNat (ackBits false u f)]
  | .rekeyInd v => [11, UInt8.ofNat v]
  | .adrParamSetupAns => [12]
  | .deviceTimeReq => [13]
  | .rejoinParamSetupAns t => [15, UInt8.ofNat t.toNat]

/-- Whether the command exists in this protocol version. -/
def upAvailable (v11 : Bool) : UpCmd → Prop
  | .rekeyInd _ | .adrParamSetupAns | .rejoinParamSetupAns _ => v11 = true
  | _ => True

end LDL.Spec
