import Verif.Model.State

/-!
# The chip interface (include/ldl_chip.h)

The radio drivers reach the hardware through three function pointers.  A driver function is modelled by the list
of calls it makes on them; values it reads are parameters.
-/

namespace LDL

/-- `enum ldl_chip_mode` (include/ldl_chip.h:91-99). -/
inductive ChipMode | reset | sleep | standby | rx | txRfo | txBoost
deriving Repr, DecidableEq

/-- One call on the chip interface: `chip_set_mode`, `chip_write`, `chip_read` (include/ldl_chip.h:110-157). -/
inductive BusOp
  | mode (m : ChipMode)
  | write (opcode data : Bytes)
  | read (opcode : Bytes) (size : Nat)
deriving Repr, DecidableEq

/-- `enum ldl_radio_xtal` (include/ldl_radio.h:93-97). -/
inductive Xtal | crystal | tcxo
deriving Repr, DecidableEq

/-- `S16(x)`: conversion to `int16_t` (include/ldl_internal.h:37), wrapping. -/
def s16 (x : Int) : Int := (x + 32768) % 65536 - 32768

/-- `U8(x)` of a signed value (include/ldl_internal.h:38). -/
def u8i (x : Int) : Nat := (x % 256).toNat

/-- `struct ldl_radio_packet_metadata` (include/ldl_radio.h:117-121). -/
structure PacketMeta where
  rssi : Int := 0
  snr : Int := 0
deriving Repr, DecidableEq

/-- `struct ldl_radio_status` (include/ldl_radio.h:123-128). -/
structure RadioStatus where
  tx : Bool := false
  rx : Bool := false
  timeout : Bool := false
deriving Repr, DecidableEq

/-- The chips of src/ldl_sx127x.c (`enum ldl_radio_type`, include/ldl_radio.h:69-76). -/
inductive Sx127x.Kind | sx1272 | sx1276
deriving Repr, DecidableEq

/-- `enum ldl_sx127x_pa` (include/ldl_radio.h:131-135). -/
inductive Sx127x.Pa | auto | rfo | boost
deriving Repr, DecidableEq

/-- The chips of src/ldl_sx126x.c (`enum ldl_radio_type`, include/ldl_radio.h:69-76). -/
inductive Sx126x.Kind | sx1261 | sx1262 | wl55
deriving Repr, DecidableEq

/-- Low data rate optimisation is used for SF11 and SF12 at 125 kHz (src/ldl_sx127x.c:801, 988;
src/ldl_sx126x.c:535, 606). -/
def lowRate (bw : Bw) (sf : Nat) : Bool := decide (bw = .b125 ∧ (sf = 11 ∨ sf = 12))

end LDL
