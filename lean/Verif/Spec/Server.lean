import Verif.Spec.LoRaWAN
import Verif.Spec.Crypto

/-!
# Data messages as a network server handles them

Written from LoRaWAN 1.0.4 (4.3.3, 4.4) and 1.1 (4.3.1.6, 4.3.3, 4.4).  `E key` is AES under `key`.
-/

namespace LDL.Spec

/-- The session keys (1.1 names).  In LoRaWAN 1.0 the three network keys are one, NwkSKey. -/
structure SessionKeys where
  fNwkSInt : List UInt8
  sNwkSInt : List UInt8
  nwkSEnc : List UInt8
  appS : List UInt8

/-- Direction octet. -/
def dirOctet (up : Bool) : UInt8 := if up then 0 else 1

/-- The first 15 octets of the blocks `A_i`: 0x01 | 4 × 0x00 | Dir | DevAddr | FCnt | 0x00; the last octet is `i`. -/
def blockA (up : Bool) (devAddr fcnt : Nat) : List UInt8 :=
  [1, 0, 0, 0, 0, dirOctet up] ++ le 4 devAddr ++ le 4 fcnt ++ [0]

/-- The block `B_0` (with ConfFCnt in 1.1 downlinks): 0x49 | ConfFCnt | 2 × 0x00 | Dir | DevAddr | FCnt | 0x00 |
len(msg); and the block `B_1` of 1.1 uplinks with TxDr and TxCh in place of the zeros. -/
def blockB (up : Bool) (conf txDr txCh devAddr fcnt len : Nat) : List UInt8 :=
  [0x49] ++ le 2 conf ++ [UInt8.ofNat txDr, UInt8.ofNat txCh, dirOctet up] ++ le 4 devAddr ++ le 4 fcnt ++
    [0, UInt8.ofNat len]

/-- The first four octets of a CMAC as a number. -/
def micOf (E : List UInt8 → List UInt8) (msg : List UInt8) : Nat := leValue ((cmac E msg).take 4)

/-- The MIC of an uplink data message `msg` (4.4): in 1.0 the first four octets of the CMAC over `B_0 | msg`; in 1.1
the first two octets of the one over `B_1 | msg` under SNwkSIntKey followed by the first two of the one over
`B_0 | msg` under FNwkSIntKey.  `conf` is the counter of the confirmed downlink acknowledged, if any. -/
def uplinkMic (E : List UInt8 → List UInt8 → List UInt8) (v11 : Bool) (k : SessionKeys)
    (devAddr fcnt conf txDr txCh : Nat) (msg : List UInt8) : Nat :=
  let f := micOf (E k.fNwkSInt) (blockB true 0 0 0 devAddr fcnt msg.length ++ msg)
  if v11 then
    let s := micOf (E k.sNwkSInt) (blockB true conf txDr txCh devAddr fcnt msg.length ++ msg)
    s % 65536 + 65536 * (f % 65536)
  else f

/-- The MIC of a downlink data message (4.4). -/
def downlinkMic (E : List UInt8 → List UInt8 → List UInt8) (v11 : Bool) (k : SessionKeys)
    (devAddr fcnt conf : Nat) (msg : List UInt8) : Nat :=
  let key := if v11 then k.sNwkSInt else k.fNwkSInt
  micOf (E key) (blockB false (if v11 then conf else 0) 0 0 devAddr fcnt msg.length ++ msg)

/-- En- or decryption of FRMPayload (4.3.3): NwkSEncKey for port 0, AppSKey otherwise. -/
def cryptPayload (E : List UInt8 → List UInt8 → List UInt8) (k : SessionKeys) (up : Bool) (devAddr fcnt port : Nat)
    (data : List UInt8) : List UInt8 :=
  payloadCrypt (E (if port = 0 then k.nwkSEnc else k.appS)) (blockA up devAddr fcnt) 1 data

/-- En- or decryption of FOpts (1.1 section 4.3.1.6). -/
def cryptOpts (E : List UInt8 → List UInt8 → List UInt8) (v11 : Bool) (k : SessionKeys) (up : Bool)
    (devAddr fcnt : Nat) (opts : List UInt8) : List UInt8 :=
  if v11 then payloadCrypt (E k.nwkSEnc) (blockA up devAddr fcnt) 0 opts else opts

/-- What a server gets out of an uplink. -/
structure UpMsg where
  confirmed : Bool
  adr : Bool
  adrAckReq : Bool
  ack : Bool
  fopts : List UInt8
  payload : Option (Nat × List UInt8)
deriving Repr, DecidableEq

/-- A server expecting counter `fcnt` of a device receives a physical payload: the parts, if the address, counter,
type and MIC are right. -/
def receiveUp (E : List UInt8 → List UInt8 → List UInt8) (v11 : Bool) (k : SessionKeys)
    (devAddr fcnt conf txDr txCh : Nat) (phy : List UInt8) : Option UpMsg :=
  match parseData phy with
  | some f =>
    if (f.mtype = 2 ∨ f.mtype = 4) ∧ f.devAddr = devAddr ∧ f.fcnt = fcnt % 65536 ∧
        f.mic = uplinkMic E v11 k devAddr fcnt conf txDr txCh (phy.take (phy.length - 4)) then
      some {
        confirmed := decide (f.mtype = 4), adr := f.adr, adrAckReq := f.adrAckReq, ack := f.ack
        fopts := cryptOpts E v11 k true devAddr fcnt f.fopts
        payload := f.payload.map fun p => (p.1, cryptPayload E k true devAddr fcnt p.1 p.2) }
    else none
  | none => none

/-- What a device gets out of a downlink. -/
structure DownMsg where
  confirmed : Bool
  ack : Bool
  pending : Bool
  fopts : List UInt8
  payload : Option (Nat × List UInt8)
deriving Repr, DecidableEq

/-- The counter `fcnt` is right, and so are type, address and MIC.  `conf` is the counter of the confirmed uplink that
a downlink with ACK bit acknowledges. -/
def authenticDown (E : List UInt8 → List UInt8 → List UInt8) (v11 : Bool) (k : SessionKeys)
    (devAddr fcnt conf : Nat) (phy : List UInt8) (f : DataFrame) : Prop :=
  (f.mtype = 3 ∨ f.mtype = 5) ∧ f.devAddr = devAddr ∧ f.fcnt = fcnt % 65536 ∧
    f.mic = downlinkMic E v11 k devAddr fcnt (if f.ack then conf else 0) (phy.take (phy.length - 4))

instance (E : List UInt8 → List UInt8 → List UInt8) (v11 : Bool) (k : SessionKeys) (devAddr fcnt conf : Nat)
    (phy : List UInt8) (f : DataFrame) : Decidable (authenticDown E v11 k devAddr fcnt conf phy f) := by
  unfold authenticDown; infer_instance

/-- The same on the octets of the physical payload, whatever its FOpts and FPort: MHDR | DevAddr | FCtrl | FCnt | … |
MIC. -/
def authenticOctets (E : List UInt8 → List UInt8 → List UInt8) (v11 : Bool) (k : SessionKeys)
    (devAddr fcnt conf : Nat) (phy : List UInt8) : Prop :=
  12 ≤ phy.length ∧ (phy.head? = some 0x60 ∨ phy.head? = some 0xa0) ∧
    leValue ((phy.drop 1).take 4) = devAddr ∧ leValue ((phy.drop 6).take 2) = fcnt % 65536 ∧
    leValue (phy.drop (phy.length - 4)) =
      downlinkMic E v11 k devAddr fcnt (if (phy.getD 5 0).toNat / 32 % 2 = 1 then conf else 0)
        (phy.take (phy.length - 4))

instance (E : List UInt8 → List UInt8 → List UInt8) (v11 : Bool) (k : SessionKeys) (devAddr fcnt conf : Nat)
    (phy : List UInt8) : Decidable (authenticOctets E v11 k devAddr fcnt conf phy) := by
  unfold authenticOctets; infer_instance

/-- A device receives a physical payload as downlink number `fcnt`: the parts, if it is authentic and not both FOpts
and port 0 are used. -/
def openDown (E : List UInt8 → List UInt8 → List UInt8) (v11 : Bool) (k : SessionKeys)
    (devAddr fcnt conf : Nat) (phy : List UInt8) : Option DownMsg :=
  match parseData phy with
  | some f =>
    if authenticDown E v11 k devAddr fcnt conf phy f ∧ (f.fopts = [] ∨ f.payload.map Prod.fst ≠ some 0) then
      some {
        confirmed := decide (f.mtype = 5), ack := f.ack, pending := f.fPending
        fopts := cryptOpts E v11 k false devAddr fcnt f.fopts
        payload := f.payload.map fun p => (p.1, cryptPayload E k false devAddr fcnt p.1 p.2) }
    else none
  | none => none

/-- The physical payload of a downlink message sent by a server. -/
def sendDown (E : List UInt8 → List UInt8 → List UInt8) (v11 : Bool) (k : SessionKeys) (conf fcnt : Nat)
    (f : DataFrame) : List UInt8 :=
  let g : DataFrame := { f with
    fcnt := fcnt % 65536
    fopts := cryptOpts E v11 k false f.devAddr fcnt f.fopts
    payload := f.payload.map fun (p : Nat × List UInt8) => (p.1, cryptPayload E k false f.devAddr fcnt p.1 p.2) }
  g.body ++ le 4 (downlinkMic E v11 k f.devAddr fcnt (if f.ack then conf else 0) g.body)

end LDL.Spec
