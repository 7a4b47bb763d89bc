import Verif.Model.MacCommands

/-!
# Model of src/ldl_mac_commands.c in a build with `LDL_ENABLE_CLASS_B`

The MAC itself (src/ldl_mac.c) has no code for class B apart from room for its answers (src/ldl_mac.c:734-738).
-/

namespace LDL
namespace ClassB

/-- The types added to `enum ldl_mac_cmd_type` (include/ldl_mac_commands.h:52-55). -/
inductive BType | pingSlotInfo | pingSlotChannel | beaconTiming | beaconFreq
deriving Repr, DecidableEq

/-- `enum ldl_mac_cmd_type` (include/ldl_mac_commands.h:34-56). -/
inductive AnyType
  | a (t : CmdType)
  | b (t : BType)
deriving Repr, DecidableEq

/-- `tags` (src/ldl_mac_commands.c:36-60). -/
def tags (v11 : Bool) : List (Nat × AnyType) :=
  (MacCmd.tags v11).map (fun p => (p.1, .a p.2)) ++
    [(16, .b .pingSlotInfo), (17, .b .pingSlotChannel), (18, .b .beaconTiming), (19, .b .beaconFreq)]

/-- `typeToTag` (src/ldl_mac_commands.c:429-444). -/
def typeToTag (v11 : Bool) (t : AnyType) : Nat :=
  match (tags v11).find? (fun p => p.2 == t) with
  | some p => p.1
  | none => 0

/-- `tagToType` (src/ldl_mac_commands.c:446-463). -/
def tagToType (v11 : Bool) (tag : Nat) : Option AnyType :=
  ((tags v11).find? (fun p => p.1 == tag)).map (·.2)

/-- `LDL_MAC_sizeofCommandUp` (src/ldl_mac_commands.c:77-118). -/
def sizeofCommandUp : AnyType → Nat
  | .a t => MacCmd.sizeofCommandUp t
  | .b .beaconTiming => 1
  | .b .pingSlotInfo | .b .beaconFreq => 2
  | .b .pingSlotChannel => 5

/-- `LDL_MAC_putPingSlotInfoReq` (src/ldl_mac_commands.c:215-219). -/
def putPingSlotInfoReq (v11 : Bool) (s : Stream) (periodicity : Nat) : Stream :=
  let s := (s.putU8 (typeToTag v11 (.b .pingSlotInfo))).2
  (s.putU8 (periodicity &&& 7)).2

/-- `LDL_MAC_putPingSlotChannelAns` (src/ldl_mac_commands.c:221-227). -/
def putPingSlotChannelAns (v11 : Bool) (s : Stream) (dataRateOK channelFreqOK : Bool) : Stream :=
  let s := (s.putU8 (typeToTag v11 (.b .pingSlotChannel))).2
  (s.putU8 (MacCmd.bit dataRateOK 2 ||| MacCmd.bit channelFreqOK 1)).2

/-- `LDL_MAC_putBeaconTimingReq` (src/ldl_mac_commands.c:229-232). -/
def putBeaconTimingReq (v11 : Bool) (s : Stream) : Stream := (s.putU8 (typeToTag v11 (.b .beaconTiming))).2

/-- `LDL_MAC_putBeaconFreqAns` (src/ldl_mac_commands.c:234-238). -/
def putBeaconFreqAns (v11 : Bool) (s : Stream) (ok : Bool) : Stream :=
  let s := (s.putU8 (typeToTag v11 (.b .beaconFreq))).2
  (s.putU8 (MacCmd.bit ok 1)).2

/-- `struct ldl_downstream_cmd` (include/ldl_mac_commands.h:215-242): the members of the union for class B. -/
inductive BDown
  | pingSlotInfo
  | pingSlotChannel (frequency dr : Nat)
  | beaconTiming (delay channel : Nat)
  | beaconFreq (freq : Nat)
deriving Repr, DecidableEq

/-- `struct ldl_downstream_cmd` (include/ldl_mac_commands.h:215-242). -/
inductive AnyDown
  | a (c : DownCmd)
  | b (c : BDown)
deriving Repr, DecidableEq

/-- The cases for class B in `LDL_MAC_getDownCommand` (src/ldl_mac_commands.c:391-418).  `LDL_CMD_BEACON_FREQ` reads into
`pingSlotChannel.frequency` and scales `beaconFreq.freq`; both are `uint32_t` at the start of the union, hence the same. -/
def getFields (s : Stream) : BType → BDown × Stream
  | .pingSlotInfo => (.pingSlotInfo, s)
  | .pingSlotChannel =>
    let (f, s) := s.getU24
    let (dr, s) := s.getU8
    (.pingSlotChannel (u32 (f.getD 0 * 100)) (dr.getD 0 &&& 0xf), s)
  | .beaconTiming =>
    let (d, s) := s.getU16
    let (c, s) := s.getU8
    (.beaconTiming (d.getD 0) (c.getD 0), s)
  | .beaconFreq =>
    let (f, s) := s.getU24
    (.beaconFreq (u32 (f.getD 0 * 100)), s)

/-- `LDL_MAC_getDownCommand` (src/ldl_mac_commands.c:241-425). -/
def getDownCommand (v11 : Bool) (s : Stream) : Option AnyDown × Stream :=
  match s.getU8 with
  | (none, s) => (none, s)
  | (some tag, s) =>
    match tagToType v11 tag with
    | none => (none, s)
    | some (.a t) =>
      let (cmd, s) := MacCmd.getFields s t
      (if s.hasError then none else some (.a cmd), s)
    | some (.b t) =>
      let (cmd, s) := getFields s t
      (if s.hasError then none else some (.b cmd), s)

/-- The loop `while(LDL_MAC_getDownCommand(&s_in, &cmd))` of `processCommands` (src/ldl_mac.c:2051-2496), reduced to the
list of commands it sees, as `MacCmd.loop`. -/
def loop (v11 : Bool) : Nat → Stream → List AnyDown
  | 0, _ => []
  | fuel + 1, s =>
    match getDownCommand v11 s with
    | (some cmd, s) => cmd :: loop v11 fuel s
    | (none, _) => []

/-- All commands found in the buffer `opts` (src/ldl_mac.c:2062-2069). -/
def commands (v11 : Bool) (opts : Bytes) : List AnyDown :=
  loop v11 (opts.length + 1) (Stream.initReadOnly opts opts.length)

end ClassB
end LDL
