import Verif.Model.MbedIrq
import Verif.Spec.Sx127xLoop

/-!
# Interrupts between the chip and the MAC (SX1272, SX1276)

DIO0 and DIO1 as the data sheets have them, and how chip, driver and interrupt handlers get from one state to the next
over a history of events at the MAC.
-/

namespace LDL.Spec.Irq127
open LDL.Spec.Sx127x LDL.Sx127x LDL.MbedIrq

/-- Interrupt `bit` of RegIrqFlags is pending. -/
def flag (c : Chip) (bit : Nat) : Bool := (c.page 0x12).toNat.testBit bit

/-- DIO0 in LoRa mode: RxDone, TxDone or CadDone.  Low in FSK mode, in which the chip is only just after a reset. -/
def dio0 (c : Chip) : Bool :=
  c.lora && match c.dio0 with
    | 0 => flag c 6
    | 1 => flag c 3
    | 2 => flag c 2
    | _ => false

/-- DIO1 in LoRa mode: RxTimeout, FhssChangeChannel or CadDetected. -/
def dio1 (c : Chip) : Bool :=
  c.lora && match c.dio1 with
    | 0 => flag c 7
    | 1 => flag c 1
    | 2 => flag c 0
    | _ => false

/-- The MAC waits for the end of a transmission or of a receive window: it has started one and has not changed the mode of
the radio since. -/
def waits (l : List Event) : Bool :=
  l.foldl (fun b ev => match ev with | .transmit .. | .receive .. => true | .receiveEntropy | .setMode _ => false | _ => b)
    false

/-- Driver and calls on the chip interface for one event at the MAC, `none` if the driver aborts. -/
def busOps (d : Driver) (c : Chip) : Event → Option (Driver × List BusOp)
  | .setMode mode => setMode d mode c.reg
  | .transmit _ s data => some (d, transmit d s data)
  | .receive _ s => some (d, receive d s)
  | .receiveEntropy => some (d, receiveEntropy d)
  | .readEntropy => some (d, readEntropyOps)
  | .readBuffer => some (d, readBufferOps c.reg 255)
  | .getStatus => some (d, [readReg RegIrqFlags])
  | _ => some (d, [])

/-- Chip and number of calls made of the event handler of the MAC. -/
structure Pins where
  chip : Chip
  calls : Nat

namespace Pins

/-- The chip goes on to `c`: a handler is called for each pin that rises. -/
def become (w : Pins) (c : Chip) : Pins :=
  let n := if !dio0 w.chip && dio0 c then dio0Handler127 w.calls else w.calls
  { chip := c, calls := if !dio1 w.chip && dio1 c then dio1Handler127 n else n }

/-- A sequence of calls on the chip interface. -/
def run (w : Pins) (ops : List BusOp) : Pins := ops.foldl (fun w o => w.become (w.chip.exec o)) w

/-- Driver, chip and handlers can get from `d`, `w` to `d'`, `w'` over a history of events at the MAC; `k` counts the ends
of transmissions and receive windows the MAC was waiting for. -/
inductive Plays (d : Driver) (w : Pins) : List Event → Driver → Pins → Nat → Prop
  | start : Plays d w [] d w 0
  | acts {l : List Event} {d' : Driver} {w' : Pins} {k : Nat} {c : Chip} (h : Plays d w l d' w' k) (ha : w'.chip.Acts c) :
      Plays d w l d' (w'.become c) (if waits l then k + 1 else k)
  | event {l : List Event} {d' d'' : Driver} {w' : Pins} {k : Nat} {ops : List BusOp} (h : Plays d w l d' w' k)
      (ev : Event) (hp : busOps d' w'.chip ev = some (d'', ops)) : Plays d w (l ++ [ev]) d'' (w'.run ops) k

end Pins
end LDL.Spec.Irq127
