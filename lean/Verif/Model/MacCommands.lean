import Verif.Model.Stream

/-!
# Model of src/ldl_mac_commands.c

Class B commands are compiled out (`LDL_ENABLE_CLASS_B` not defined).
-/

namespace LDL

/-- `enum ldl_mac_cmd_type` (include/ldl_mac_commands.h:34-56), without class B. -/
inductive CmdType
  | linkCheck | linkADR | dutyCycle | rxParamSetup | devStatus | newChannel | rxTimingSetup
  | txParamSetup | dlChannel | rekey | adrParamSetup | deviceTime | forceRejoin | rejoinParamSetup
deriving Repr, DecidableEq

/-- Position in the C enumeration (include/ldl_mac_commands.h:34-56). -/
def CmdType.index : CmdType → Nat
  | linkCheck => 0 | linkADR => 1 | dutyCycle => 2 | rxParamSetup => 3 | devStatus => 4
  | newChannel => 5 | rxTimingSetup => 6 | txParamSetup => 7 | dlChannel => 8 | rekey => 9
  | adrParamSetup => 10 | deviceTime => 11 | forceRejoin => 12 | rejoinParamSetup => 13

/-- `struct ldl_downstream_cmd` (include/ldl_mac_commands.h:215-242): the union with its tag. -/
inductive DownCmd
  | linkCheck (margin gwCount : Nat)
  | linkADR (dataRate txPower channelMask channelMaskControl nbTrans : Nat)
  | dutyCycle (maxDutyCycle : Nat)
  | rxParamSetup (rx1DROffset rx2DataRate freq : Nat)
  | devStatus
  | newChannel (chIndex freq maxDR minDR : Nat)
  | rxTimingSetup (delay : Nat)
  | txParamSetup (value : Nat)
  | dlChannel (chIndex freq : Nat)
  | rekey (version : Nat)
  | adrParamSetup (limitExp delayExp : Nat)
  | deviceTime (seconds fractions : Nat)
  | forceRejoin (period maxRetries rejoinType dr : Nat)
  | rejoinParamSetup (maxTimeN maxCountN : Nat)
deriving Repr, DecidableEq

/-- `struct ldl_link_adr_ans` (include/ldl_mac_commands.h:73-78). -/
structure LinkADRAns where
  powerOK : Bool := false
  dataRateOK : Bool := false
  channelMaskOK : Bool := false
deriving Repr, DecidableEq

/-- `struct ldl_rx_param_setup_ans` (include/ldl_mac_commands.h:92-97). -/
structure RXParamSetupAns where
  rx1DROffsetOK : Bool := false
  rx2DataRateOK : Bool := false
  channelOK : Bool := false
deriving Repr, DecidableEq

/-- `struct ldl_dev_status_ans` (include/ldl_mac_commands.h:99-103).  `margin` is an `int8_t`. -/
structure DevStatusAns where
  battery : Nat := 0
  margin : Int := 0
deriving Repr, DecidableEq

/-- `struct ldl_new_channel_ans` (include/ldl_mac_commands.h:113-117). -/
structure NewChannelAns where
  dataRateRangeOK : Bool := false
  channelFreqOK : Bool := false
deriving Repr, DecidableEq

/-- `struct ldl_dl_channel_ans` (include/ldl_mac_commands.h:125-129). -/
structure DLChannelAns where
  uplinkFreqOK : Bool := false
  channelFreqOK : Bool := false
deriving Repr, DecidableEq

namespace MacCmd

/-- `tags` (src/ldl_mac_commands.c:36-60). -/
def tags (v11 : Bool) : List (Nat × CmdType) :=
  [(2, .linkCheck), (3, .linkADR), (4, .dutyCycle), (5, .rxParamSetup), (6, .devStatus),
   (7, .newChannel), (8, .rxTimingSetup), (9, .txParamSetup), (10, .dlChannel), (13, .deviceTime)] ++
  if v11 then
    [(11, .rekey), (12, .adrParamSetup), (14, .forceRejoin), (15, .rejoinParamSetup)]
  else []

/-- `typeToTag` (src/ldl_mac_commands.c:429-444). -/
def typeToTag (v11 : Bool) (t : CmdType) : Nat :=
  match (tags v11).find? (fun p => p.2 == t) with
  | some p => p.1
  | none => 0

/-- `tagToType` (src/ldl_mac_commands.c:446-463). -/
def tagToType (v11 : Bool) (tag : Nat) : Option CmdType :=
  ((tags v11).find? (fun p => p.1 == tag)).map (·.2)

/-- `LDL_MAC_peekNextCommand` (src/ldl_mac_commands.c:64-75). -/
def peekNextCommand (v11 : Bool) (s : Stream) : Option CmdType :=
  match s.peek.1 with
  | some tag => tagToType v11 tag.toNat
  | none => none

/-- `LDL_MAC_sizeofCommandUp` (src/ldl_mac_commands.c:77-118). -/
def sizeofCommandUp : CmdType → Nat
  | .linkCheck | .dutyCycle | .rxTimingSetup | .txParamSetup | .adrParamSetup | .deviceTime => 1
  | .linkADR | .rxParamSetup | .newChannel | .dlChannel | .rekey | .rejoinParamSetup => 2
  | .devStatus | .forceRejoin => 3

/-- The bit encoding used by the answers: `b ? w : 0`. (e.g. src/ldl_mac_commands.c:129) -/
def bit (b : Bool) (w : Nat) : Nat := if b then w else 0

/-- `LDL_MAC_putLinkCheckReq` (src/ldl_mac_commands.c:120-123). -/
def putLinkCheckReq (v11 : Bool) (s : Stream) : Stream := (s.putU8 (typeToTag v11 .linkCheck)).2

/-- `LDL_MAC_putLinkADRAns` (src/ldl_mac_commands.c:125-133). -/
def putLinkADRAns (v11 : Bool) (s : Stream) (a : LinkADRAns) : Stream :=
  let s := (s.putU8 (typeToTag v11 .linkADR)).2
  (s.putU8 (bit a.powerOK 4 ||| bit a.dataRateOK 2 ||| bit a.channelMaskOK 1)).2

/-- `LDL_MAC_putDutyCycleAns` (src/ldl_mac_commands.c:135-138). -/
def putDutyCycleAns (v11 : Bool) (s : Stream) : Stream := (s.putU8 (typeToTag v11 .dutyCycle)).2

/-- `LDL_MAC_putRXParamSetupAns` (src/ldl_mac_commands.c:140-148). -/
def putRXParamSetupAns (v11 : Bool) (s : Stream) (a : RXParamSetupAns) : Stream :=
  let s := (s.putU8 (typeToTag v11 .rxParamSetup)).2
  (s.putU8 (bit a.rx1DROffsetOK 4 ||| bit a.rx2DataRateOK 2 ||| bit a.channelOK 1)).2

/-- `LDL_MAC_putDevStatusAns` (src/ldl_mac_commands.c:150-155).  `U8(margin)` is the margin modulo 256. -/
def putDevStatusAns (v11 : Bool) (s : Stream) (a : DevStatusAns) : Stream :=
  let s := (s.putU8 (typeToTag v11 .devStatus)).2
  let s := (s.putU8 a.battery).2
  (s.putU8 ((a.margin % 256).toNat &&& 0x3f)).2

/-- `LDL_MAC_putNewChannelAns` (src/ldl_mac_commands.c:157-165). -/
def putNewChannelAns (v11 : Bool) (s : Stream) (a : NewChannelAns) : Stream :=
  let s := (s.putU8 (typeToTag v11 .newChannel)).2
  (s.putU8 (bit a.dataRateRangeOK 2 ||| bit a.channelFreqOK 1)).2

/-- `LDL_MAC_putDLChannelAns` (src/ldl_mac_commands.c:168-176). -/
def putDLChannelAns (v11 : Bool) (s : Stream) (a : DLChannelAns) : Stream :=
  let s := (s.putU8 (typeToTag v11 .dlChannel)).2
  (s.putU8 (bit a.uplinkFreqOK 2 ||| bit a.channelFreqOK 1)).2

/-- `LDL_MAC_putRXTimingSetupAns` (src/ldl_mac_commands.c:178-181). -/
def putRXTimingSetupAns (v11 : Bool) (s : Stream) : Stream :=
  (s.putU8 (typeToTag v11 .rxTimingSetup)).2

/-- `LDL_MAC_putTXParamSetupAns` (src/ldl_mac_commands.c:183-186). -/
def putTXParamSetupAns (v11 : Bool) (s : Stream) : Stream :=
  (s.putU8 (typeToTag v11 .txParamSetup)).2

/-- `LDL_MAC_putRekeyInd` (src/ldl_mac_commands.c:188-192). -/
def putRekeyInd (v11 : Bool) (s : Stream) (version : Nat) : Stream :=
  let s := (s.putU8 (typeToTag v11 .rekey)).2
  (s.putU8 version).2

/-- `LDL_MAC_putADRParamSetupAns` (src/ldl_mac_commands.c:194-197). -/
def putADRParamSetupAns (v11 : Bool) (s : Stream) : Stream :=
  (s.putU8 (typeToTag v11 .adrParamSetup)).2

/-- `LDL_MAC_putDeviceTimeReq` (src/ldl_mac_commands.c:199-202). -/
def putDeviceTimeReq (v11 : Bool) (s : Stream) : Stream := (s.putU8 (typeToTag v11 .deviceTime)).2

/-- `LDL_MAC_putRejoinParamSetupAns` (src/ldl_mac_commands.c:204-212). -/
def putRejoinParamSetupAns (v11 : Bool) (s : Stream) (timeOK : Bool) : Stream :=
  let s := (s.putU8 (typeToTag v11 .rejoinParamSetup)).2
  (s.putU8 (bit timeOK 1)).2

/-- The `switch` of `LDL_MAC_getDownCommand` (src/ldl_mac_commands.c:252-420): the fields of a command of
type `t`.  Failed reads leave an indeterminate value in C (the function then returns false); here 0. -/
def getFields (s : Stream) : CmdType → DownCmd × Stream
  | .linkCheck =>
    let (margin, s) := s.getU8
    let (gw, s) := s.getU8
    (.linkCheck (margin.getD 0) (gw.getD 0), s)
  | .linkADR =>
    let (b1, s) := s.getU8
    let (mask, s) := s.getU16
    let (b2, s) := s.getU8
    (.linkADR (b1.getD 0 >>> 4) (b1.getD 0 &&& 0xf) (mask.getD 0) ((b2.getD 0 >>> 4) &&& 0x7)
      (b2.getD 0 &&& 0xf), s)
  | .dutyCycle =>
    let (b, s) := s.getU8
    (.dutyCycle (b.getD 0 &&& 0xf), s)
  | .rxParamSetup =>
    let (b, s) := s.getU8
    let (f, s) := s.getU24
    (.rxParamSetup ((b.getD 0 >>> 4) &&& 0x7) (b.getD 0 &&& 0xf) (u32 (f.getD 0 * 100)), s)
  | .devStatus => (.devStatus, s)
  | .newChannel =>
    let (i, s) := s.getU8
    let (f, s) := s.getU24
    let (b, s) := s.getU8
    (.newChannel (i.getD 0) (u32 (f.getD 0 * 100)) (b.getD 0 >>> 4) (b.getD 0 &&& 0xf), s)
  | .dlChannel =>
    let (i, s) := s.getU8
    let (f, s) := s.getU24
    (.dlChannel (i.getD 0) (u32 (f.getD 0 * 100)), s)
  | .rxTimingSetup =>
    let (b, s) := s.getU8
    (.rxTimingSetup (b.getD 0 &&& 0xf), s)
  | .txParamSetup =>
    let (b, s) := s.getU8
    (.txParamSetup (b.getD 0 &&& 0x3f), s)
  | .deviceTime =>
    let (secs, s) := s.getU32
    let (frac, s) := s.getU8
    (.deviceTime (secs.getD 0) (frac.getD 0), s)
  | .rekey =>
    let (b, s) := s.getU8
    (.rekey (b.getD 0 &&& 0xf), s)
  | .adrParamSetup =>
    let (b, s) := s.getU8
    (.adrParamSetup (b.getD 0 >>> 4) (b.getD 0 &&& 0xf), s)
  | .forceRejoin =>
    let (w, s) := s.getU16
    let w := w.getD 0
    (.forceRejoin (u8 (w >>> 10) &&& 0x7) (u8 (w >>> 7) &&& 0x7) (u8 (w >>> 4) &&& 0x7)
      (u8 w &&& 0xf), s)
  | .rejoinParamSetup =>
    let (b, s) := s.getU8
    (.rejoinParamSetup (b.getD 0 >>> 4) (b.getD 0 &&& 0xf), s)

/-- `LDL_MAC_getDownCommand` (src/ldl_mac_commands.c:241-425). -/
def getDownCommand (v11 : Bool) (s : Stream) : Option DownCmd × Stream :=
  match s.getU8 with
  | (none, s) => (none, s)
  | (some tag, s) =>
    match tagToType v11 tag with
    | none => (none, s)
    | some t =>
      let (cmd, s) := getFields s t
      (if s.hasError then none else some cmd, s)

/-- The loop `while(LDL_MAC_getDownCommand(&s_in, &cmd))` of `processCommands`
(src/ldl_mac.c:2051-2496), reduced to the list of commands it sees.  `fuel` bounds the number of
iterations; `c08_terminates` shows that the stream length is always enough. -/
def loop (v11 : Bool) : Nat → Stream → List DownCmd
  | 0, _ => []
  | fuel + 1, s =>
    match getDownCommand v11 s with
    | (some cmd, s) => cmd :: loop v11 fuel s
    | (none, _) => []

/-- All commands found in the buffer `opts` (src/ldl_mac.c:2062-2069). -/
def commands (v11 : Bool) (opts : Bytes) : List DownCmd :=
  loop v11 (opts.length + 1) (Stream.initReadOnly opts opts.length)

end MacCmd
end LDL
