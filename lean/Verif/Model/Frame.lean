import Verif.Model.Stream

/-!
# Model of src/ldl_frame.c
-/

namespace LDL
namespace Frame

/-- `enum ldl_frame_type` (include/ldl_frame.h:34-42). -/
def JOIN_REQ : Nat := 0
/-- include/ldl_frame.h:36 -/
def JOIN_ACCEPT : Nat := 1
/-- include/ldl_frame.h:37 -/
def DATA_UNCONFIRMED_UP : Nat := 2
/-- include/ldl_frame.h:38 -/
def DATA_UNCONFIRMED_DOWN : Nat := 3
/-- include/ldl_frame.h:39 -/
def DATA_CONFIRMED_UP : Nat := 4
/-- include/ldl_frame.h:40 -/
def DATA_CONFIRMED_DOWN : Nat := 5
/-- include/ldl_frame.h:41 -/
def REJOIN_REQ : Nat := 6

/-- `struct ldl_frame_data` (include/ldl_frame.h:44-64).  `opts` stands for the pointer and `optsLen`
(its length).  `data = none` stands for the NULL pointer; `dataLen` is a separate field in C and here. -/
structure Data where
  type : Nat := 0
  devAddr : Nat := 0
  counter : Nat := 0
  ack : Bool := false
  adr : Bool := false
  adrAckReq : Bool := false
  pending : Bool := false
  opts : Bytes := []
  port : Nat := 0
  data : Option Bytes := none
  dataLen : Nat := 0
  mic : Nat := 0
deriving Repr, DecidableEq

/-- `struct ldl_frame_data_offset` (include/ldl_frame.h:66-70). -/
structure Offset where
  opts : Nat := 0
  data : Nat := 0
deriving Repr, DecidableEq

/-- `struct ldl_frame_join_request` (include/ldl_frame.h:88-94). -/
structure JoinRequest where
  joinEUI : Bytes
  devEUI : Bytes
  devNonce : Nat
  mic : Nat := 0
deriving Repr, DecidableEq

/-- `struct ldl_frame_rejoin_request` (include/ldl_frame.h:79-86). -/
structure RejoinRequest where
  type : Nat
  netID : Nat
  devEUI : Bytes
  rjCount : Nat
  mic : Nat := 0
deriving Repr, DecidableEq

/-- `struct ldl_frame_down` (include/ldl_frame.h:96-130).  The pointers `cfList`, `opts` and `data` are
offsets into the decoded buffer, `none` for NULL. -/
structure Down where
  type : Nat := 0
  joinNonce : Nat := 0
  netID : Nat := 0
  devAddr : Nat := 0
  rx1DataRateOffset : Nat := 0
  rx2DataRate : Nat := 0
  rxDelay : Nat := 0
  optNeg : Bool := false
  cfList : Option Nat := none
  cfListLen : Nat := 0
  counter : Nat := 0
  ack : Bool := false
  adr : Bool := false
  adrAckReq : Bool := false
  pending : Bool := false
  opts : Option Nat := none
  optsLen : Nat := 0
  dataPresent : Bool := false
  port : Nat := 0
  data : Option Nat := none
  dataLen : Nat := 0
  mic : Nat := 0
deriving Repr, DecidableEq

/-- `LDL_Frame_updateMIC` (src/ldl_frame.c:35-49).  Returns the buffer. -/
def updateMIC (msg : Bytes) (len : Nat) (mic : Nat) : Bytes :=
  if 4 < len then
    let s := Stream.init msg len
    let s := (s.seekSet (len - 4)).2
    let s := (s.putU32 mic).2
    s.mem
  else msg

/-- The FCtrl octet written by `LDL_Frame_putData` (src/ldl_frame.c:63). -/
def fctrl (f : Data) : Nat :=
  (if f.adr then 0x80 else 0) ||| (if f.adrAckReq then 0x40 else 0) ||| (if f.ack then 0x20 else 0)
    ||| (if f.pending then 0x10 else 0) ||| (f.opts.length &&& 0xf)

/-- `LDL_Frame_putData` (src/ldl_frame.c:51-79).  Result: return value, buffer, offsets. -/
def putData (f : Data) (out : Bytes) (max : Nat) : Nat × Bytes × Offset :=
  let s := Stream.init out max
  let s := (s.putU8 (f.type <<< 5)).2
  let s := (s.putU32 f.devAddr).2
  let s := (s.putU8 (fctrl f)).2
  let s := (s.putU16 f.counter).2
  let offOpts := s.tell
  let s := (s.write (f.opts.take (f.opts.length &&& 0xf))).2
  let (s, offData) :=
    match f.data with
    | some d =>
      let s := (s.putU8 f.port).2
      let offData := s.tell
      ((s.write (d.take f.dataLen)).2, offData)
    | none => (s, 0)
  let s := (s.putU32 f.mic).2
  (if s.hasError then 0 else s.tell, s.mem, { opts := offOpts, data := offData })

/-- `LDL_Frame_putJoinRequest` (src/ldl_frame.c:81-98). -/
def putJoinRequest (f : JoinRequest) (out : Bytes) (max : Nat) : Nat × Bytes :=
  let s := Stream.init out max
  let s := (s.putU8 (JOIN_REQ <<< 5)).2
  let s := (s.putEUI f.joinEUI).2
  let s := (s.putEUI f.devEUI).2
  let s := (s.putU16 f.devNonce).2
  let s := (s.putU32 f.mic).2
  (if s.hasError then 0 else s.tell, s.mem)

/-- `LDL_Frame_putRejoinRequest` (src/ldl_frame.c:100-117). -/
def putRejoinRequest (f : RejoinRequest) (out : Bytes) (max : Nat) : Nat × Bytes :=
  let s := Stream.init out max
  let s := (s.putU8 (REJOIN_REQ <<< 5)).2
  let s := (s.putU8 f.type).2
  let s := (s.putU24 f.netID).2
  let s := (s.putEUI f.devEUI).2
  let s := (s.putU16 f.rjCount).2
  let s := (s.putU32 f.mic).2
  (if s.hasError then 0 else s.tell, s.mem)

/-- `LDL_Frame_sizeofJoinAccept` (src/ldl_frame.c:119-122). -/
def sizeofJoinAccept (withCFList : Bool) : Nat := 17 + (if withCFList then 16 else 0)

/-- `getFrameType` (src/ldl_frame.c:247-289).  The rejoin request type exists only when L2 1.1 is
enabled (`v11`). -/
def getFrameType (v11 : Bool) (tag : Nat) : Option Nat :=
  if tag &&& 0x1f = 0 then
    let t := tag >>> 5
    if t = JOIN_REQ then some JOIN_REQ
    else if t = JOIN_ACCEPT then some JOIN_ACCEPT
    else if t = DATA_UNCONFIRMED_UP then some DATA_UNCONFIRMED_UP
    else if t = DATA_UNCONFIRMED_DOWN then some DATA_UNCONFIRMED_DOWN
    else if t = DATA_CONFIRMED_UP then some DATA_CONFIRMED_UP
    else if t = DATA_CONFIRMED_DOWN then some DATA_CONFIRMED_DOWN
    else if v11 = true ∧ t = REJOIN_REQ then some REJOIN_REQ
    else none
  else none

/-- The `FRAME_TYPE_JOIN_ACCEPT` case of `LDL_Frame_decode` (src/ldl_frame.c:151-183).  Failed reads
leave the field at its initial zero. -/
def decodeJoinAccept (s : Stream) (f : Down) : Option Down × Stream :=
  let (joinNonce, s) := s.getU24
  let (netID, s) := s.getU24
  let (devAddr, s) := s.getU32
  let (dl, s) := s.getU8
  let (rxDelay, s) := s.getU8
  let dlSettings := dl.getD 0
  let rxDelay := rxDelay.getD 0
  let f := { f with
    joinNonce := joinNonce.getD 0
    netID := netID.getD 0
    devAddr := devAddr.getD 0
    optNeg := decide (dlSettings &&& 0x80 ≠ 0)
    rx1DataRateOffset := (dlSettings >>> 4) &&& 0x7
    rx2DataRate := dlSettings &&& 0xf
    rxDelay := if rxDelay = 0 then 1 else rxDelay }
  let (f, s) :=
    if s.remaining > 4 then
      ({ f with cfList := some s.tell, cfListLen := 16 }, (s.seekCur 16).2)
    else (f, s)
  let (mic, s) := s.getU32
  let f := { f with mic := mic.getD 0 }
  (if !s.hasError && s.remaining == 0 then some f else none, s)

/-- The data cases of `LDL_Frame_decode` (src/ldl_frame.c:185-223). -/
def decodeData (s : Stream) (f : Down) : Option Down × Stream :=
  let (devAddr, s) := s.getU32
  let (fh, s) := s.getU8
  let fhdr := fh.getD 0
  let f := { f with
    devAddr := devAddr.getD 0
    adr := decide (fhdr &&& 0x80 > 0)
    adrAckReq := decide (fhdr &&& 0x40 > 0)
    ack := decide (fhdr &&& 0x20 > 0)
    pending := decide (fhdr &&& 0x10 > 0)
    optsLen := fhdr &&& 0xf }
  let (counter, s) := s.getU16
  let f := { f with
    counter := counter.getD 0
    opts := if f.optsLen > 0 then some s.tell else none }
  let s := (s.seekCur f.optsLen).2
  let (f, s) :=
    if s.remaining > 4 then
      let (port, s) := s.getU8
      let dataLen := u8 (s.remaining + 256 - 4)
      let f := { f with
        dataPresent := true
        port := port.getD 0
        dataLen := dataLen
        data := if dataLen = 0 then none else some s.tell }
      (f, (s.seekCur dataLen).2)
    else (f, s)
  let (mic, s) := s.getU32
  let f := { f with mic := mic.getD 0 }
  (if !s.hasError && !(f.dataPresent && decide (f.optsLen > 0) && decide (f.port = 0))
    then some f else none, s)

/-- `LDL_Frame_decode` (src/ldl_frame.c:124-230), together with the stream for its ghost fields.
`buf` is the receive buffer, `len` the frame length. -/
def decodeS (v11 : Bool) (buf : Bytes) (len : Nat) : Option Down × Stream :=
  let s := Stream.initReadOnly buf len
  let (tag, s) := s.getU8
  match tag with
  | none => (none, s)
  | some tag =>
    match getFrameType v11 tag with
    | none => (none, s)
    | some type =>
      let f : Down := { type := type }
      if type = JOIN_ACCEPT then decodeJoinAccept s f
      else if type = DATA_UNCONFIRMED_DOWN ∨ type = DATA_CONFIRMED_DOWN then decodeData s f
      else (none, s)

/-- `LDL_Frame_decode` (src/ldl_frame.c:124-230): the decoded frame when it returns true. -/
def decode (v11 : Bool) (buf : Bytes) (len : Nat) : Option Down := (decodeS v11 buf len).1

/-- `LDL_Frame_dataOverhead` (src/ldl_frame.c:232-236). -/
def dataOverhead : Nat := (4 + 1 + 2) + 1

/-- `LDL_Frame_phyOverhead` (src/ldl_frame.c:238-242). -/
def phyOverhead : Nat := 1 + 4

end Frame
end LDL
