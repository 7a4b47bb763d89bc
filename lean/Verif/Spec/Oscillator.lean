import Verif.Spec.Sx127xChip

/-!
# The oscillator of the SX1272 and SX1276

RegTcxo (0x58 on the SX1272, 0x4B on the SX1276), bit 4 `TcxoInputOn`: zero for a crystal, one for a TCXO at the XTA
pin.  The other bits are to be left at their reset values.
-/

namespace LDL.Spec.Sx127x
open LDL.Sx127x (Kind)

/-- The address of RegTcxo. -/
def tcxoReg : Kind → Nat
  | .sx1272 => 0x58
  | .sx1276 => 0x4B

/-- The chip takes its clock from a TCXO. -/
def Chip.tcxo (c : Chip) : Bool := (c.reg (tcxoReg c.kind)).toNat.testBit 4

/-- The oscillator runs: everything but LoRa sleep. -/
def Chip.clocked (c : Chip) : Prop := c.lora = true ∧ c.mode ≠ 0

end LDL.Spec.Sx127x
