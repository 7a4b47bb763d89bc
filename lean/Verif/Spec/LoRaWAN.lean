import Verif.Spec.Wire

/-!
# LoRaWAN frame formats, written from the LoRaWAN Link Layer specification (1.0.4 / 1.1)

Nothing here refers to the model of the C code.
-/

namespace LDL.Spec

/-- MType values (section 4.2.1). -/
inductive MType
  | joinRequest | joinAccept | unconfirmedUp | unconfirmedDown | confirmedUp | confirmedDown
  | rejoinRequest | proprietary
deriving Repr, DecidableEq

/-- Three bit code of a message type. -/
def MType.code : MType → Nat
  | joinRequest => 0 | joinAccept => 1 | unconfirmedUp => 2 | unconfirmedDown => 3
  | confirmedUp => 4 | confirmedDown => 5 | rejoinRequest => 6 | proprietary => 7

/-- A data message.  `payload` is FPort with FRMPayload, absent when there is no FPort. -/
structure DataFrame where
  mtype : Nat
  devAddr : Nat
  adr : Bool
  adrAckReq : Bool
  ack : Bool
  fPending : Bool
  fcnt : Nat
  fopts : List UInt8
  payload : Option (Nat × List UInt8)
  mic : Nat
deriving Repr, DecidableEq

/-- FCtrl (section 4.3.1): ADR, ADRACKReq (RFU on downlinks), ACK, FPending (ClassB on uplinks),
FOptsLen. -/
def DataFrame.fctrl (f : DataFrame) : Nat :=
  128 * f.adr.toNat + 64 * f.adrAckReq.toNat + 32 * f.ack.toNat + 16 * f.fPending.toNat
    + f.fopts.length

/-- MHDR with MType in the top three bits, RFU and Major zero (section 4.2). -/
def mhdr (mtype : Nat) : UInt8 := UInt8.ofNat (32 * mtype)

/-- [FPort | FRMPayload] -/
def portPayload : Option (Nat × List UInt8) → List UInt8
  | none => []
  | some (port, data) => UInt8.ofNat port :: data

/-- The message without its MIC: MHDR | DevAddr | FCtrl | FCnt | FOpts | [FPort | FRMPayload]. -/
def DataFrame.body (f : DataFrame) : List UInt8 :=
  [mhdr f.mtype] ++ le 4 f.devAddr ++ [UInt8.ofNat f.fctrl] ++ le 2 f.fcnt ++ f.fopts ++
    portPayload f.payload

/-- PHYPayload of a data message. -/
def DataFrame.encode (f : DataFrame) : List UInt8 := f.body ++ le 4 f.mic

/-- Field ranges of a data message. -/
structure DataFrame.WF (f : DataFrame) : Prop where
  mtype : f.mtype < 8
  devAddr : f.devAddr < 2 ^ 32
  fcnt : f.fcnt < 2 ^ 16
  fopts : f.fopts.length ≤ 15
  port : ∀ p d, f.payload = some (p, d) → p < 256
  mic : f.mic < 2 ^ 32

/-- A parser for data messages, written from the frame format: the fixed header is split off, FOptsLen
bytes follow, the last four bytes are the MIC, what is in between is FPort | FRMPayload if not empty.
The MType is not checked to be a data type, only reported. -/
def parseData (bs : List UInt8) : Option DataFrame :=
  match bs with
  | h :: a0 :: a1 :: a2 :: a3 :: c :: n0 :: n1 :: rest =>
    let k := c.toNat % 16
    if h.toNat % 32 = 0 ∧ k + 4 ≤ rest.length then
      let mid := (rest.drop k).take (rest.length - k - 4)
      some {
        mtype := h.toNat / 32
        devAddr := leValue [a0, a1, a2, a3]
        adr := decide (c.toNat / 128 % 2 = 1)
        adrAckReq := decide (c.toNat / 64 % 2 = 1)
        ack := decide (c.toNat / 32 % 2 = 1)
        fPending := decide (c.toNat / 16 % 2 = 1)
        fcnt := leValue [n0, n1]
        fopts := rest.take k
        payload := match mid with
          | [] => none
          | p :: d => some (p.toNat, d)
        mic := leValue (rest.drop (rest.length - 4)) }
    else none
  | _ => none

/-- A Join-request (section 6.2.4 / 6.2.5): JoinEUI, DevEUI (both sent little-endian, i.e. reversed with respect
to their usual notation), DevNonce. -/
structure JoinRequest where
  joinEUI : List UInt8
  devEUI : List UInt8
  devNonce : Nat
  mic : Nat
deriving Repr, DecidableEq

/-- Join-request without MIC. -/
def JoinRequest.body (f : JoinRequest) : List UInt8 :=
  [mhdr 0] ++ f.joinEUI.reverse ++ f.devEUI.reverse ++ le 2 f.devNonce

/-- PHYPayload of a Join-request. -/
def JoinRequest.encode (f : JoinRequest) : List UInt8 := f.body ++ le 4 f.mic

/-- A parser for join requests. -/
def parseJoinRequest (bs : List UInt8) : Option JoinRequest :=
  if bs.length = 23 ∧ bs.head? = some 0 then
    some {
      joinEUI := ((bs.drop 1).take 8).reverse
      devEUI := ((bs.drop 9).take 8).reverse
      devNonce := leValue ((bs.drop 17).take 2)
      mic := leValue (bs.drop 19) }
  else none

/-- A Join-accept after decryption (section 6.2.6): JoinNonce(3) | NetID(3) | DevAddr(4) |
DLSettings(1) | RxDelay(1) | [CFList(16)].  DLSettings is OptNeg | RX1DRoffset(3) | RX2DataRate(4). -/
structure JoinAccept where
  joinNonce : Nat
  netID : Nat
  devAddr : Nat
  optNeg : Bool
  rx1DROffset : Nat
  rx2DataRate : Nat
  rxDelay : Nat
  cfList : Option (List UInt8)
  mic : Nat
deriving Repr, DecidableEq

/-- Field ranges of a join accept. -/
structure JoinAccept.WF (f : JoinAccept) : Prop where
  joinNonce : f.joinNonce < 2 ^ 24
  netID : f.netID < 2 ^ 24
  devAddr : f.devAddr < 2 ^ 32
  rx1DROffset : f.rx1DROffset < 8
  rx2DataRate : f.rx2DataRate < 16
  rxDelay : f.rxDelay < 256
  cfList : ∀ l, f.cfList = some l → l.length = 16
  mic : f.mic < 2 ^ 32

/-- DLSettings octet. -/
def JoinAccept.dlSettings (f : JoinAccept) : Nat :=
  128 * f.optNeg.toNat + 16 * f.rx1DROffset + f.rx2DataRate

/-- Join-accept in the clear without MIC, MHDR included. -/
def JoinAccept.body (f : JoinAccept) : List UInt8 :=
  [mhdr 1] ++ le 3 f.joinNonce ++ le 3 f.netID ++ le 4 f.devAddr ++
    [UInt8.ofNat f.dlSettings, UInt8.ofNat f.rxDelay] ++ f.cfList.getD []

/-- Join-accept in the clear with MIC. -/
def JoinAccept.encode (f : JoinAccept) : List UInt8 := f.body ++ le 4 f.mic

/-- A Rejoin-request type 0 or 2 (LoRaWAN 1.1 section 6.2.7): type, NetID, DevEUI, RJcount0. -/
structure RejoinRequest where
  type : Nat
  netID : Nat
  devEUI : List UInt8
  rjCount : Nat
  mic : Nat
deriving Repr, DecidableEq

/-- PHYPayload of a Rejoin-request type 0 or 2. -/
def RejoinRequest.encode (f : RejoinRequest) : List UInt8 :=
  [mhdr 6, UInt8.ofNat f.type] ++ le 3 f.netID ++ f.devEUI.reverse ++ le 2 f.rjCount ++ le 4 f.mic

end LDL.Spec
