import Verif.Model.State

/-!
# LoRa data rates
-/

namespace LDL.Spec

/-- The symbol lasts longer than 16 ms: low data rate optimisation is mandatory (SX1276 data sheet, 4.1.1.6). -/
def LongSymbol (bw : Bw) (sf : Nat) : Bool :=
  decide (2 ^ sf * 1000 > 16 * (match bw with | .b125 => 125000 | .b250 => 250000 | .b500 => 500000))

/-- A spreading factor and bandwidth LoRaWAN uses. -/
def Usable (bw : Bw) (sf : Nat) : Prop := 7 ≤ sf ∧ sf ≤ 12 ∧ ¬(bw = .b250 ∧ sf = 12)

/-- A call on the radio with a usable data rate, a length that fits in an octet and a power between 0 and 36 dBm. -/
def Fine : Event → Prop
  | .transmit _ s data => Usable s.bw s.sf ∧ data.length ≤ 255 ∧ 0 ≤ s.eirp ∧ s.eirp ≤ 3600
  | .receive _ s => Usable s.bw s.sf ∧ s.max ≤ 255
  | _ => True

end LDL.Spec
