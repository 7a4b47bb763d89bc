import Verif.Model.Region
import Verif.Model.MacCommands

/-!
# State of the MAC, its environment and the log of its effects
-/

namespace LDL

/-- The link layer version selected at compile time (`LDL_ENABLE_L2_1_0_3`, `LDL_ENABLE_L2_1_0_4`,
`LDL_ENABLE_L2_1_1`; include/ldl_platform.h). -/
inductive L2 | v103 | v104 | v11
deriving Repr, DecidableEq

/-- What is fixed at compile time or by `LDL_MAC_init` and never changes: the version, the block
cipher `E key block` (src/ldl_aes.c is one instance), and the clock parameters `tps`, `a`, `b`,
`advance` (include/ldl_mac.h:492-503). -/
structure Cfg where
  version : L2 := .v104
  /-- The first region compiled in, i.e. the one with enumerator value 0 (include/ldl_region.h:51-64). -/
  firstRegion : Region := .eu868
  E : Bytes → Bytes → Bytes
  tps : Nat := 1000000
  a : Nat := 0
  b : Nat := 0
  advance : Nat := 0
  /-- `defined(LDL_DISABLE_SF12)` (include/ldl_platform.h:262-274) -/
  noSf12 : Bool := false
  /-- `otaaDither` of the argument of `LDL_MAC_init`, if `LDL_ENABLE_OTAA_DITHER` is defined (include/ldl_mac.h:505-507,
  625-630) -/
  dither : Option Nat := none

/-- `MIN_RATE` (src/ldl_mac.c:65-69, src/ldl_region.c:40-44) -/
def Cfg.minRate (c : Cfg) : Nat := if c.noSf12 then 1 else 0

/-- `defined(LDL_ENABLE_L2_1_1)` -/
def Cfg.v11 (c : Cfg) : Bool := c.version == .v11

/-- `enum ldl_mac_state` (include/ldl_mac.h:157-183). -/
inductive St
  | init | radioReset | radioBoot | idle | waitEntropy | startRadioForEntropy | entropy | waitOTAA
  | waitTX | startRadioForTX | tx | waitRX1 | startRadioForRX1 | rx1 | waitRX2 | startRadioForRX2
  | rx2 | rx2Lockout
deriving Repr, DecidableEq

/-- `enum ldl_mac_operation` (include/ldl_mac.h:186-194). -/
inductive Op | none | entropy | joining | rejoining | dataUnconfirmed | dataConfirmed
deriving Repr, DecidableEq

/-- `enum ldl_mac_status` (include/ldl_mac.h:197-218), the values the MAC returns. -/
inductive Status
  | ok | noChannel | size | rate | port | busy | notJoined | power | macPriority | joined | devNonce
deriving Repr, DecidableEq

/-- `enum ldl_mac_sme` (include/ldl_mac.h:147-154). -/
inductive Sme | none | timerA | timerB | interrupt | band
deriving Repr, DecidableEq

/-- `struct ldl_mac_data_opts` (include/ldl_mac.h:303-308). -/
structure DataOpts where
  nbTrans : Nat := 0
  check : Bool := false
  getTime : Bool := false
deriving Repr, DecidableEq

/-- `struct ldl_timer` (include/ldl_mac.h:322-326). -/
structure Timer where
  time : Nat := 0
  armed : Bool := false
deriving Repr, DecidableEq

/-- `struct ldl_mac_session` (include/ldl_mac.h:349-401).  `chConfig i` is `chConfig[i].freqAndRate`
(the field `dlFreq` is never read or written by the code), `chMask i` is byte `i` of the mask. -/
structure Session where
  magic : Nat := 0
  joined : Bool := false
  adr : Bool := false
  version : Nat := 0
  region : Region := .eu868
  up : Nat := 0
  appDown : Nat := 0
  nwkDown : Nat := 0
  devAddr : Nat := 0
  netID : Nat := 0
  chConfig : Nat → Nat := fun _ => 0
  chMask : Nat → Nat := fun _ => 0
  rate : Nat := 0
  power : Nat := 0
  maxDutyCycle : Nat := 0
  nbTrans : Nat := 0
  rx1DROffset : Nat := 0
  rx1Delay : Nat := 0
  rx2DataRate : Nat := 0
  rx2Freq : Nat := 0
  adrAckLimit : Nat := 0
  adrAckDelay : Nat := 0
  rxParamSetupAns : RXParamSetupAns := {}
  dlChannelAns : DLChannelAns := {}
  linkADRAns : LinkADRAns := {}
  devStatusAns : DevStatusAns := {}
  newChannelAns : NewChannelAns := {}
  rejoinTimeOK : Bool := false
  joinNonce : Nat := 0
  devNonce : Nat := 0
  pendingCmds : Nat := 0
  txParamSetup : Nat := 0

/-- `struct ldl_mac_tx` (include/ldl_mac.h:403-412). -/
structure Tx where
  freq : Nat := 0
  counter : Nat := 0
  airTime : Nat := 0
  chIndex : Nat := 0
  rate : Nat := 0
  power : Nat := 0
deriving Repr, DecidableEq

/-- `enum ldl_radio_mode` (include/ldl_radio.h:82-90). -/
inductive RadioMode | reset | boot | sleep | rx | tx | hold
deriving Repr, DecidableEq

/-- `struct ldl_radio_tx_setting` (include/ldl_radio.h:99-105). -/
structure TxSetting where
  freq : Nat
  bw : Bw
  sf : Nat
  eirp : Int
deriving Repr, DecidableEq

/-- `struct ldl_radio_rx_setting` (include/ldl_radio.h:107-115), without `continuous` (never set). -/
structure RxSetting where
  freq : Nat
  bw : Bw
  sf : Nat
  timeout : Nat
  max : Nat
deriving Repr, DecidableEq

/-- What an observer sees: calls on the radio interface and calls of the application handler, in order.
`transmit` and `receive` carry the tick count at which they were called. -/
inductive Event
  /-- `radio_interface->set_mode` -/
  | setMode (mode : RadioMode)
  /-- `radio_interface->transmit` -/
  | transmit (at_ : Nat) (setting : TxSetting) (bytes : Bytes)
  /-- `radio_interface->receive` -/
  | receive (at_ : Nat) (setting : RxSetting)
  /-- `radio_interface->receive_entropy` -/
  | receiveEntropy
  /-- `radio_interface->read_entropy` -/
  | readEntropy
  /-- `radio_interface->read_buffer` -/
  | readBuffer
  /-- `radio_interface->get_status` -/
  | getStatus
  /-- `LDL_MAC_ENTROPY` -/
  | entropy (value : Nat)
  /-- `LDL_MAC_CHANNEL_READY` -/
  | channelReady
  /-- `LDL_MAC_OP_ERROR` -/
  | opError
  /-- `LDL_MAC_OP_CANCELLED` -/
  | opCancelled
  /-- `LDL_MAC_JOIN_COMPLETE` -/
  | joinComplete (joinNonce netID devAddr : Nat)
  /-- `LDL_MAC_DEV_NONCE_UPDATED` -/
  | devNonceUpdated (next : Nat)
  /-- `LDL_MAC_JOIN_EXHAUSTED` -/
  | joinExhausted
  /-- `LDL_MAC_DATA_COMPLETE` -/
  | dataComplete
  /-- `LDL_MAC_DATA_TIMEOUT` -/
  | dataTimeout
  /-- `LDL_MAC_RX` -/
  | rx (port : Nat) (data : Bytes)
  /-- `LDL_MAC_LINK_STATUS` -/
  | linkStatus (margin gwCount : Nat)
  /-- `LDL_MAC_SESSION_UPDATED`.  The argument is a pointer to the session in C; here its value. -/
  | sessionUpdated (session : Session)
  /-- `LDL_MAC_DEVICE_TIME` -/
  | deviceTime (time seconds fractions : Nat)

/-- What the outside world supplies during one call: the clock (`now` is the time since an arbitrary origin,
the tick counter is its low 32 bits; the clock advances by `took` ticks between the readings by which a call finds out
what is to be done and those by which it sets timers and anchors and hands frames and windows to the radio), random
numbers per call site (0 DevNonce, 1 channel, 2 OTAA dither; each site draws at most once per call), battery level, radio
status, received packet, its SNR, the earlier contents of the receive buffer (it is not cleared), entropy.
Simplification: two readings of the clock per call, while in C each `self->ticks` is a reading of its own. -/
structure Env where
  now : Nat := 0
  took : Nat := 0
  rand : Nat → Nat := fun _ => 42
  battery : Nat := 255
  statusTx : Bool := false
  statusRx : Bool := false
  statusTimeout : Bool := false
  packet : Bytes := []
  snr : Int := 0
  stale : Bytes := []
  entropy : Nat := 0

/-- `self->ticks(self->app)` as a call begins: a `uint32_t`. -/
def Env.ticks (e : Env) : Nat := u32 e.now

/-- The time at which the call acts. -/
def Env.done (e : Env) : Nat := e.now + e.took

theorem Env.now_le_done (e : Env) : e.now ≤ e.done := Nat.le_add_right _ _

/-- `self->ticks(self->app)` later in the call. -/
def Env.later (e : Env) : Nat := u32 e.done

/-- `self->rand(self->app)`: a `uint32_t`. -/
def Env.draw (e : Env) (site : Nat) : Nat := u32 (e.rand site)

/-- `struct ldl_mac` (include/ldl_mac.h:415-512) with the key store of `struct ldl_sm` (`keys`, by slot,
include/ldl_sm.h) and the ghost log `out`.  `ticks_at_tx`, `devNonce` etc. keep their C names. -/
structure Mac where
  state : St := .init
  op : Op := .none
  pendingACK : Bool := false
  joinEUI : Bytes := List.replicate 8 0
  devEUI : Bytes := List.replicate 8 0
  buffer : Bytes := List.replicate 255 0
  bufferLen : Nat := 0
  band : Nat → Nat := fun _ => 0
  day : Nat := 0
  devNonce : Nat := 0
  joinNonce : Nat := 0
  rxSnr : Int := 0
  tx : Tx := {}
  rx1Symbols : Nat := 0
  rx2Symbols : Nat := 0
  ctx : Session := {}
  keys : Nat → Bytes := fun _ => List.replicate 16 0
  inputArmed : Bool := false
  inputState : Bool := false
  inputTime : Nat := 0
  timerA : Timer := {}
  timerB : Timer := {}
  timerBand : Timer := {}
  adrAckCounter : Nat := 0
  adrAckReq : Bool := false
  timeTicks : Nat := 0
  timeRemainder : Nat := 0
  parked : Bool := false
  ticksAtTx : Nat := 0
  trials : Nat := 0
  opts : DataOpts := {}
  fPending : Bool := false
  maxDutyCycle : Nat := 0
  out : List Event := []

/-- Record an effect. -/
def Mac.emit (m : Mac) (ev : Event) : Mac := { m with out := m.out ++ [ev] }

/-- Assignment to an array element. -/
def upd {α : Type} (f : Nat → α) (i : Nat) (v : α) : Nat → α := fun j => if j = i then v else f j

/-- `LDL_BAND_GLOBAL` (include/ldl_mac.h:311-320). -/
def GLOBAL : Nat := 5

/-- `sessionMagicNumber` (src/ldl_mac.c:146). -/
def magicNumber : Nat := 0xdb

/-- `SESS_VERSION` (include/ldl_internal.h:41-45): always 0 unless L2 1.1 is compiled in. -/
def sessVersion (cfg : Cfg) (s : Session) : Nat := if cfg.v11 then s.version else 0

/-- `commandIsPending` (src/ldl_mac.c:3274-3277). -/
def commandIsPending (s : Session) (t : CmdType) : Bool :=
  decide (s.pendingCmds &&& (1 <<< t.index) > 0)

/-- `clearPendingCommand` (src/ldl_mac.c:3279-3282). -/
def clearPending (s : Session) (t : CmdType) : Session :=
  { s with pendingCmds := s.pendingCmds &&& (65535 ^^^ (1 <<< t.index)) }

/-- `setPendingCommand` (src/ldl_mac.c:3284-3287). -/
def setPending (s : Session) (t : CmdType) : Session :=
  { s with pendingCmds := s.pendingCmds ||| (1 <<< t.index) }

end LDL
