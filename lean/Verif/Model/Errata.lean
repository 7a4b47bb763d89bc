import Verif.Model.Ops

/-!
# `src/ldl_ops.c` in a build with `LDL_ENABLE_ERRATA_A1`

The option changes the block with which FOpts are encrypted (src/ldl_ops.c:149-155) and decrypted
(src/ldl_ops.c:347-353), nothing else.
-/

namespace LDL
namespace Errata

/-- The block for the options of an uplink (src/ldl_ops.c:149-151). -/
def upBlock (devAddr counter : Nat) : Bytes := Ops.initA 1 devAddr true counter 1

/-- The block for the options of a downlink (src/ldl_ops.c:347-349). -/
def downBlock (portPresent : Bool) (devAddr counter : Nat) : Bytes :=
  Ops.initA (if portPresent then 2 else 1) devAddr false counter 0

/-- `LDL_OPS_prepareData` (src/ldl_ops.c:132-168) with `LDL_ENABLE_ERRATA_A1`. -/
def prepareData (cfg : Cfg) (m : Mac) (f : Frame.Data) (out : Bytes) (max : Nat) : Nat × Bytes :=
  match Frame.putData f out max with
  | (n, out, off) =>
    if n > 0 then
      let out :=
        if sessVersion cfg m.ctx = 1 then
          Sm.ctrAt cfg m.keys .nwkSEnc (upBlock f.devAddr f.counter) out off.opts f.opts.length
        else out
      let out := Sm.ctrAt cfg m.keys (if f.port = 0 then .nwkSEnc else .appS)
        (Ops.initA 0 f.devAddr true f.counter 1) out off.data f.dataLen
      (n, out)
    else (n, out)

/-- Decryption of the options of a data downlink (src/ldl_ops.c:344-357) with `LDL_ENABLE_ERRATA_A1`. -/
def decryptOpts (cfg : Cfg) (m : Mac) (f : Frame.Down) (buf : Bytes) : Bytes :=
  if sessVersion cfg m.ctx = 1 then
    match f.opts with
    | some off =>
      Sm.ctrAt cfg m.keys .nwkSEnc (downBlock f.dataPresent f.devAddr f.counter) buf off f.optsLen
    | none => buf
  else buf

/-- The data case of `LDL_OPS_receiveFrame` (src/ldl_ops.c:311-384) with `LDL_ENABLE_ERRATA_A1`. -/
def receiveData (cfg : Cfg) (m : Mac) (f : Frame.Down) (buf : Bytes) (len : Nat) :
    Option Frame.Down × Bytes :=
  if m.ctx.devAddr = f.devAddr then
    let mic := Sm.mic cfg m.keys .sNwkSInt (Ops.downBlock cfg m f len) (buf.take (u8 (len + 252)))
    if mic = f.mic then (some f, Ops.decryptPayload cfg m f (decryptOpts cfg m f buf)) else (none, buf)
  else (none, buf)

end Errata
end LDL
