import Verif.Model.Debug127
import Verif.Spec.Sx127xLoop
import Mathlib.Data.List.Forall2

/-!
# The debug build of the SX127x driver between the MAC and the chip

As `Spec.Sx127x.perform` and `Plays`, with the calls the debug build makes; and what a log of accesses should show.
-/

namespace LDL.Spec.Sx127x.Debug
open LDL.Sx127x (Driver)
open LDL.Sx127x.Debug (Entry)

/-- Driver and chip after one event at the MAC in a debug build. -/
def perform (d : Driver) (c : Chip) : Event → Option (Driver × Chip)
  | .setMode mode => (LDL.Sx127x.Debug.setMode d mode c.reg).map fun x => (x.1, c.run x.2)
  | .transmit _ s data => some (d, c.run (LDL.Sx127x.Debug.transmit d s data))
  | .receive _ s => some (d, c.run (LDL.Sx127x.Debug.receive d s))
  | ev => Sx127x.perform d c ev

/-- Histories in a debug build. -/
inductive Plays (d : Driver) (c : Chip) : List Event → Driver → Chip → Prop
  | start : Plays d c [] d c
  | acts {l : List Event} {d' : Driver} {c' c'' : Chip} (h : Plays d c l d' c') (ha : c'.Acts c'') : Plays d c l d' c''
  | event {l : List Event} {d' d'' : Driver} {c' c'' : Chip} (h : Plays d c l d' c') (ev : Event)
      (hp : perform d' c' ev = some (d'', c'')) : Plays d c (l ++ [ev]) d'' c''

/-- An access of the bus: an opcode and the bytes written or read. -/
abbrev Access := UInt8 × Bytes

/-- What a log line says of an access: its opcode, the first byte and the number of bytes. -/
def shown (a : Access) : Entry := { opcode := a.1, value := a.2.headD 0, size := a.2.length }

/-- Calls of the chip interface that are accesses of the bus. -/
def isAccess : BusOp → Bool
  | .mode _ => false
  | _ => true

/-- The access a call of the chip interface makes; a read may bring any bytes. -/
def Makes : BusOp → Access → Prop
  | .write op data, a => op = [a.1] ∧ data = a.2
  | .read op size, a => op = [a.1] ∧ a.2.length = size
  | .mode _, _ => False

/-- The accesses calls of the chip interface make, in order. -/
def Traffic (ops : List BusOp) (as : List Access) : Prop := List.Forall₂ Makes (ops.filter isAccess) as

end LDL.Spec.Sx127x.Debug
