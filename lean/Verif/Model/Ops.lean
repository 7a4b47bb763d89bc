import Verif.Model.Sm
import Verif.Model.Frame

/-!
# Model of src/ldl_ops.c

`LDL_ENABLE_ERRATA_A1` is not defined here (for builds with it see Model/Errata).
-/

namespace LDL
namespace Ops

/-- An uninitialised or zeroed `struct ldl_block` (src/ldl_ops.c:32-35).  Every byte of the blocks
built by `initA` and `initB` is written. -/
def zeroBlock : Bytes := List.replicate 16 0

/-- `initA` (src/ldl_ops.c:395-408). -/
def initA (c devAddr : Nat) (up : Bool) (counter i : Nat) : Bytes :=
  let s := Stream.init zeroBlock 16
  let s := (s.putU8 1).2
  let s := (s.putU32 c).2
  let s := (s.putU8 (if up then 0 else 1)).2
  let s := (s.putU32 devAddr).2
  let s := (s.putU32 counter).2
  let s := (s.putU8 0).2
  let s := (s.putU8 i).2
  s.mem

/-- `initB` (src/ldl_ops.c:410-425). -/
def initB (confirmCounter rate chIndex : Nat) (up : Bool) (devAddr upCounter len : Nat) : Bytes :=
  let s := Stream.init zeroBlock 16
  let s := (s.putU8 0x49).2
  let s := (s.putU16 confirmCounter).2
  let s := (s.putU8 rate).2
  let s := (s.putU8 chIndex).2
  let s := (s.putU8 (if up then 0 else 1)).2
  let s := (s.putU32 devAddr).2
  let s := (s.putU32 upCounter).2
  let s := (s.putU8 0).2
  let s := (s.putU8 len).2
  s.mem

/-- `deriveDownCounter` (src/ldl_ops.c:427-444).  `uint32_t` arithmetic. -/
def deriveDownCounter (cfg : Cfg) (ctx : Session) (port counter : Nat) : Nat :=
  let mine := if sessVersion cfg ctx > 0 ∧ port = 0 then ctx.nwkDown else ctx.appDown
  let mine := u32 (mine <<< 16)
  if counter < mine then u32 (mine + 0x10000 + counter) else u32 (mine + counter)

/-- `LDL_OPS_syncDownCounter` (src/ldl_ops.c:46-62). -/
def syncDownCounter (cfg : Cfg) (ctx : Session) (port counter : Nat) : Session :=
  let derived := deriveDownCounter cfg ctx port counter
  if sessVersion cfg ctx > 0 ∧ port = 0 then { ctx with nwkDown := u16 (derived >>> 16) }
  else { ctx with appDown := u16 (derived >>> 16) }

/-- Rewind the stream and overwrite the first byte (e.g. src/ldl_ops.c:87-88). -/
def retag (s : Stream) (v : Nat) : Stream := (s.rewind.putU8 v).2

/-- `LDL_OPS_deriveKeys` (src/ldl_ops.c:64-111). -/
def deriveKeys (cfg : Cfg) (m : Mac) : Mac :=
  let s := Stream.init zeroBlock 16
  if sessVersion cfg m.ctx = 0 then
    let s := (s.putU8 1).2
    let s := (s.putU24 m.ctx.joinNonce).2
    let s := (s.putU24 m.ctx.netID).2
    let s := (s.putU16 m.ctx.devNonce).2
    let keys := Sm.updateSessionKey cfg m.keys .fNwkSInt .nwk s.mem
    let keys := Sm.updateSessionKey cfg keys .sNwkSInt .nwk s.mem
    let keys := Sm.updateSessionKey cfg keys .nwkSEnc .nwk s.mem
    let s := retag s 2
    let keys := Sm.updateSessionKey cfg keys .appS .nwk s.mem
    { m with keys := keys }
  else
    let s := (s.putU8 1).2
    let s := (s.putU24 m.ctx.joinNonce).2
    let s := (s.putEUI m.joinEUI).2
    let s := (s.putU16 m.ctx.devNonce).2
    let keys := Sm.updateSessionKey cfg m.keys .fNwkSInt .nwk s.mem
    let s := retag s 2
    let keys := Sm.updateSessionKey cfg keys .appS .app s.mem
    let s := retag s 3
    let keys := Sm.updateSessionKey cfg keys .sNwkSInt .nwk s.mem
    let s := retag s 4
    let keys := Sm.updateSessionKey cfg keys .nwkSEnc .nwk s.mem
    { m with keys := keys }

/-- `LDL_OPS_deriveJoinKeys` (src/ldl_ops.c:113-130), compiled for L2 1.1 only. -/
def deriveJoinKeys (cfg : Cfg) (m : Mac) : Mac :=
  if cfg.v11 then
    let s := Stream.init zeroBlock 16
    let s := (s.putU8 5).2
    let s := (s.putEUI m.devEUI).2
    let keys := Sm.updateSessionKey cfg m.keys .jsEnc .nwk s.mem
    let s := retag s 6
    let keys := Sm.updateSessionKey cfg keys .jsInt .nwk s.mem
    { m with keys := keys }
  else m

/-- `LDL_OPS_prepareData` (src/ldl_ops.c:132-168).  Result: length and buffer. -/
def prepareData (cfg : Cfg) (m : Mac) (f : Frame.Data) (out : Bytes) (max : Nat) : Nat × Bytes :=
  match Frame.putData f out max with
  | (n, out, off) =>
    if n > 0 then
      let out :=
        if sessVersion cfg m.ctx = 1 then
          Sm.ctrAt cfg m.keys .nwkSEnc (initA 0 f.devAddr true f.counter 0) out off.opts f.opts.length
        else out
      let out := Sm.ctrAt cfg m.keys (if f.port = 0 then .nwkSEnc else .appS)
        (initA 0 f.devAddr true f.counter 1) out off.data f.dataLen
      (n, out)
    else (n, out)

/-- `LDL_OPS_micDataFrame` (src/ldl_ops.c:170-192).  Returns the buffer.  `size - 4` is `uint8_t`. -/
def micDataFrame (cfg : Cfg) (m : Mac) (buffer : Bytes) (size : Nat) : Bytes :=
  let len := u8 (size + 252)
  let B0 := initB 0 0 0 true m.ctx.devAddr m.tx.counter len
  let B1 := initB 0 m.tx.rate m.tx.chIndex true m.ctx.devAddr m.tx.counter len
  let micF := Sm.mic cfg m.keys .fNwkSInt B0 (buffer.take len)
  if sessVersion cfg m.ctx = 1 then
    let micS := Sm.mic cfg m.keys .sNwkSInt B1 (buffer.take len)
    Frame.updateMIC buffer size (u32 (micF <<< 16) ||| (micS &&& 0xffff))
  else
    Frame.updateMIC buffer size micF

/-- `LDL_OPS_prepareJoinRequest` (src/ldl_ops.c:194-206). -/
def prepareJoinRequest (cfg : Cfg) (m : Mac) (f : Frame.JoinRequest) (out : Bytes) (max : Nat) :
    Nat × Bytes :=
  match Frame.putJoinRequest f out max with
  | (n, out) =>
    let mic := Sm.mic cfg m.keys .nwk [] (out.take (u8 (n + 252)))
    (n, Frame.updateMIC out n mic)

/-- The join accept case of `LDL_OPS_receiveFrame` (src/ldl_ops.c:224-302), without the test of the
current operation.  `buf` is the receive buffer. -/
def receiveJoinAccept (cfg : Cfg) (m : Mac) (buf : Bytes) (len : Nat) : Option Frame.Down × Bytes :=
  let k : KeyDesc := if m.op = .joining then .nwk else .jsEnc
  let buf := Sm.ecbAt cfg m.keys k buf 1
  let buf := if len = Frame.sizeofJoinAccept true
    then Sm.ecbAt cfg m.keys k buf (Frame.sizeofJoinAccept false) else buf
  match Frame.decode cfg.v11 buf len with
  | none => (none, buf)
  | some f =>
    if cfg.version ≠ .v103 ∧ f.joinNonce < m.joinNonce then (none, buf)
    else
      let mic :=
        if cfg.v11 = true ∧ f.optNeg = true then
          let s := Stream.init zeroBlock 16
          let s := (s.putU8 (if m.op = .rejoining then 2 else 0xff)).2
          let s := (s.putEUI m.joinEUI).2
          let s := (s.putU16 m.ctx.devNonce).2
          Sm.mic cfg m.keys .jsInt (s.mem.take s.tell) (buf.take (u8 (len + 252)))
        else
          Sm.mic cfg m.keys .nwk [] (buf.take (u8 (len + 252)))
      (if f.mic = mic then some f else none, buf)

/-- The B block against which the MIC of a data downlink is checked (src/ldl_ops.c:323-339). -/
def downBlock (cfg : Cfg) (m : Mac) (f : Frame.Down) (len : Nat) : Bytes :=
  let counter := deriveDownCounter cfg m.ctx f.port f.counter
  if sessVersion cfg m.ctx = 1 ∧ f.ack = true then
    initB (u16 (m.ctx.up + 65535)) 0 0 false f.devAddr counter (u8 (len + 252))
  else initB 0 0 0 false f.devAddr counter (u8 (len + 252))

/-- Decryption of the options (1.1) of a data downlink (src/ldl_ops.c:345-357). -/
def decryptOpts (cfg : Cfg) (m : Mac) (f : Frame.Down) (buf : Bytes) : Bytes :=
  if sessVersion cfg m.ctx = 1 then
    match f.opts with
    | some off => Sm.ctrAt cfg m.keys .nwkSEnc (initA 0 f.devAddr false f.counter 0) buf off f.optsLen
    | none => buf
  else buf

/-- Decryption of the payload of a data downlink (src/ldl_ops.c:358-360). -/
def decryptPayload (cfg : Cfg) (m : Mac) (f : Frame.Down) (buf : Bytes) : Bytes :=
  match f.data with
  | some off =>
    Sm.ctrAt cfg m.keys (if f.port = 0 then .nwkSEnc else .appS)
      (initA 0 f.devAddr false f.counter 1) buf off f.dataLen
  | none => buf

/-- The data case of `LDL_OPS_receiveFrame` (src/ldl_ops.c:311-384), without the test of the current
operation.  `f` is the decoded frame.  The MIC is checked before decryption. -/
def receiveData (cfg : Cfg) (m : Mac) (f : Frame.Down) (buf : Bytes) (len : Nat) :
    Option Frame.Down × Bytes :=
  if m.ctx.devAddr = f.devAddr then
    let mic := Sm.mic cfg m.keys .sNwkSInt (downBlock cfg m f len) (buf.take (u8 (len + 252)))
    if mic = f.mic then (some f, decryptPayload cfg m f (decryptOpts cfg m f buf)) else (none, buf)
  else (none, buf)

/-- `LDL_OPS_receiveFrame` (src/ldl_ops.c:208-391).  Result: the frame when it returns true, and the
receive buffer (decrypted in place). -/
def receiveFrame (cfg : Cfg) (m : Mac) (buf : Bytes) (len : Nat) : Option Frame.Down × Bytes :=
  match Frame.decode cfg.v11 buf len with
  | none => (none, buf)
  | some f =>
    if f.type = Frame.JOIN_ACCEPT then
      if m.op = .joining ∨ m.op = .rejoining then receiveJoinAccept cfg m buf len else (none, buf)
    else if f.type = Frame.DATA_UNCONFIRMED_DOWN ∨ f.type = Frame.DATA_CONFIRMED_DOWN then
      if m.op = .rejoining ∨ m.op = .dataUnconfirmed ∨ m.op = .dataConfirmed then
        receiveData cfg m f buf len
      else (none, buf)
    else (none, buf)

end Ops
end LDL
