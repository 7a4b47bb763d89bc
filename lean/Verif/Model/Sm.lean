import Verif.Model.State
import Verif.Model.Cmac

/-!
# Model of src/ldl_sm.c, the default security module
-/

namespace LDL

/-- `enum ldl_sm_key` (include/ldl_sm_internal.h:47-59). -/
inductive KeyDesc | fNwkSInt | appS | sNwkSInt | nwkSEnc | jsEnc | jsInt | app | nwk
deriving Repr, DecidableEq

namespace Sm

/-- `getKey` (src/ldl_sm.c:149-177): which slot of the key array a key lives in. -/
def slot (cfg : Cfg) (k : KeyDesc) : Nat :=
  if cfg.v11 then
    match k with
    | .fNwkSInt => 0 | .appS => 1 | .sNwkSInt => 2 | .nwkSEnc => 3
    | .jsEnc => 4 | .jsInt => 5 | .app => 6 | .nwk => 7
  else
    match k with
    | .app | .nwk => 0
    | .fNwkSInt | .sNwkSInt | .nwkSEnc | .jsInt | .jsEnc => 1
    | .appS => 2

/-- The value of a key. -/
def key (cfg : Cfg) (keys : Nat → Bytes) (k : KeyDesc) : Bytes := keys (slot cfg k)

/-- `LDL_SM_init` (src/ldl_sm.c:45-54 and 59-73).  In 1.0.x the application key is the only root key and is
stored as `LDL_SM_KEY_NWK`; `nwkKey` is then not used. -/
def init (cfg : Cfg) (appKey nwkKey : Bytes) : Nat → Bytes :=
  let z : Nat → Bytes := fun _ => List.replicate 16 0
  if cfg.v11 then upd (upd z (slot cfg .app) appKey) (slot cfg .nwk) nwkKey
  else upd z (slot cfg .nwk) appKey

/-- `LDL_SM_updateSessionKey` (src/ldl_sm.c:80-103). -/
def updateSessionKey (cfg : Cfg) (keys : Nat → Bytes) (k root : KeyDesc) (iv : Bytes) : Nat → Bytes :=
  match k with
  | .app | .nwk => keys
  | _ => upd keys (slot cfg k) (cfg.E (key cfg keys root) iv)

/-- `LDL_SM_mic` (src/ldl_sm.c:105-129). -/
def mic (cfg : Cfg) (keys : Nat → Bytes) (k : KeyDesc) (hdr data : Bytes) : Nat :=
  let E := cfg.E (key cfg keys k)
  let c := Cmac.init
  let c := Cmac.update E c hdr
  let c := Cmac.update E c data
  let t := Cmac.finish E c
  (t.getD 0 0).toNat + 256 * (t.getD 1 0).toNat + 65536 * (t.getD 2 0).toNat
    + 16777216 * (t.getD 3 0).toNat

/-- `LDL_SM_ecb` (src/ldl_sm.c:131-137) on the 16 bytes of `buf` at `off`. -/
def ecbAt (cfg : Cfg) (keys : Nat → Bytes) (k : KeyDesc) (buf : Bytes) (off : Nat) : Bytes :=
  memcpyAt buf off (cfg.E (key cfg keys k) ((buf.drop off).take 16))

/-- `LDL_SM_ctr` (src/ldl_sm.c:139-145) on the `len` bytes of `buf` at `off`. -/
def ctrAt (cfg : Cfg) (keys : Nat → Bytes) (k : KeyDesc) (iv buf : Bytes) (off len : Nat) : Bytes :=
  memcpyAt buf off (Ctr.encrypt (cfg.E (key cfg keys k)) iv ((buf.drop off).take len))

end Sm
end LDL
