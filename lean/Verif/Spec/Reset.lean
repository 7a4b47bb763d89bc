import Verif.Model.MbedReset
import Verif.Spec.Irq
import Verif.Spec.Irq127

/-!
# The reset line of the chips

The level at which a chip is held in reset, from the data sheets, and how line and driver get from one state to the next over
a history of events at the MAC.
-/

namespace LDL.Spec.Reset
open LDL.MbedReset

/-- The level at which the SX1261 and SX1262 are held in reset. -/
def level126 : Bool := false

/-- The level at which the SX1272 and the SX1276 are held in reset: the one is pulled high, the other low. -/
def level127 : Sx127x.Kind → Bool
  | .sx1272 => true
  | .sx1276 => false

/-- The radio of the STM32WL55 is held in reset while the bit is set. -/
def levelWl55 : Bool := true

/-- The chip is held in reset: the pin drives the line to that level.  Otherwise the line is kept inactive. -/
def asserted (level : Bool) (p : Pin) : Bool := p.output && p.value == level

/-- The MAC wants the radio in reset: that is the last mode it asked for.  Before it asks for any, `b`. -/
def wanted (b : Bool) (l : List Event) : Bool :=
  l.foldl (fun b ev => match ev with | .setMode m => decide (m = .reset) | _ => b) b

/-- The pin, and whether the chip has been accessed while in reset. -/
structure Line where
  pin : Pin
  clash : Bool := false
deriving DecidableEq

/-- A call on the chip interface. -/
def Line.op (level : Bool) (s : Line) : BusOp → Line
  | .mode m => { s with pin := chipSetMode s.pin m }
  | .write .. | .read .. => { s with clash := s.clash || asserted level s.pin }

def Line.run (level : Bool) (s : Line) (ops : List BusOp) : Line := ops.foldl (Line.op level) s

/-- Driver and line can get from `d`, `s` to `d'`, `s'` over a history of events at the MAC; `B` says which calls on the chip
interface a driver may make for an event. -/
inductive Plays {D : Type} (B : D → Event → D → List BusOp → Prop) (level : Bool) (d : D) (s : Line) :
    List Event → D → Line → Prop
  | start : Plays B level d s [] d s
  | event {l : List Event} {d' d'' : D} {s' : Line} {ops : List BusOp} (h : Plays B level d s l d' s') (ev : Event)
      (hp : B d' ev d'' ops) : Plays B level d s (l ++ [ev]) d'' (s'.run level ops)

/-- The driver of the SX1261, SX1262 and WL55, whatever the chip answers and whichever accesses fail. -/
def Driver126 (d : Sx126x.Driver) (ev : Event) (d' : Sx126x.Driver) (ops : List BusOp) : Prop :=
  ∃ c busy, Irq.busOps d c busy ev = some (d', ops)

/-- The driver of the SX1272 and SX1276, whatever the chip answers. -/
def Driver127 (d : Sx127x.Driver) (ev : Event) (d' : Sx127x.Driver) (ops : List BusOp) : Prop :=
  ∃ c, Irq127.busOps d c ev = some (d', ops)

end LDL.Spec.Reset
