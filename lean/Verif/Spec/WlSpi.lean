import Verif.Model.WlSpi

/-!
# The bus of the STM32WL: C105
-/

namespace LDL.Spec
open WlSpi

/-- No byte is left over from an earlier transfer. -/
def NoneLeft (p : Port) : Prop := p.flight = [] ∧ p.fifo = []

/-- The radio answers each of the `n` bytes after `since` within a number of readings of the status register. -/
def RepliesWithin (c : Chip) (since n within : Nat) : Prop := ∀ i, since ≤ i → i < since + n → c.delay i < within

/-- The bytes with which the radio answers the `n` bytes after `since`. -/
def clockedIn (c : Chip) (since n : Nat) : Bytes := (List.range' since n).map c.answer

end LDL.Spec
