import Verif.Model.MbedIrq
import Verif.Spec.Sx126xLoop

/-!
# Interrupts between the chip and the MAC (SX1261, SX1262, WL55)

DIO1 as the data sheet has it, the interrupt controller of the microcontroller, and how chip, driver, controller and
interrupt handler get from one state to the next over a history of events at the MAC.
-/

namespace LDL.Spec.Irq
open LDL.Spec.Sx126x LDL.Sx126x LDL.MbedIrq

/-- DIO1 is high while an interrupt signalled there is pending. -/
def dio1 (c : Chip) : Bool := c.irq &&& c.dio1Mask != 0

/-- The operation started last is one whose end the MAC waits for: a transmission or a receive window, not listening for
noise. -/
def awaited (l : List Event) : Bool :=
  l.foldl (fun b ev => match ev with | .transmit .. | .receive .. => true | .receiveEntropy => false | _ => b) false

/-- Driver and calls on the chip interface for one event at the MAC, `none` if the driver aborts. -/
def busOps (d : Driver) (c : Chip) (busy : Nat → Bool) : Event → Option (Driver × List BusOp)
  | .setMode mode => setMode d mode busy
  | .transmit _ s data => some (transmit d s data busy)
  | .receive _ s => some (receive d s busy)
  | .receiveEntropy => some (d, receiveEntropy busy)
  | .readEntropy => some (d, readEntropyOps busy)
  | .readBuffer => some (d, readBufferOps c.rxLength.toNat 255 busy)
  | .getStatus => some (d, attempt busy 0 [getIrqStatus])
  | _ => some (d, [])

/-! ### STM32WL55 -/

/-- Chip and interrupt controller. -/
structure Wl where
  chip : Chip
  nvic : Nvic

namespace Wl

/-- An active input becomes pending. -/
def sense (w : Wl) : Wl := { w with nvic := { w.nvic with pending := w.nvic.pending || dio1 w.chip } }

/-- The interrupt controller after a call on the chip interface. -/
def control (n : Nvic) : BusOp → Nvic
  | .mode m => chipSetMode n m
  | .write .. | .read .. => n

/-- A call on the chip interface. -/
def op (w : Wl) (o : BusOp) : Wl := sense { chip := w.chip.exec o, nvic := control w.nvic o }

/-- The handler is about to be called. -/
def due (w : Wl) : Bool := w.nvic.enabled && w.nvic.pending

/-- The handler is called: this clears the input, which becomes pending again if it is still active. -/
def irq (w : Wl) : Wl := sense { w with nvic := handleIrq { w.nvic with pending := false } }

/-- The chip goes on to `c`. -/
def become (w : Wl) (c : Chip) : Wl := sense { w with chip := c }

/-- A sequence of calls on the chip interface, with interrupts at any time. -/
inductive Runs : Wl → List BusOp → Wl → Prop
  | nil (w : Wl) : Runs w [] w
  | op (w : Wl) (o : BusOp) {l : List BusOp} {w' : Wl} (h : Runs (w.op o) l w') : Runs w (o :: l) w'
  | irq (w : Wl) (hd : w.due = true) {l : List BusOp} {w' : Wl} (h : Runs w.irq l w') : Runs w l w'

/-- Driver, chip and interrupt controller can get from `d`, `w` to `d'`, `w'` over a history of events at the MAC; `k`
counts the ends of awaited operations.  The MAC runs with a lower priority than interrupts: an interrupt that is due
comes before the next event. -/
inductive Plays (B : (Nat → Bool) → Prop) (d : Driver) (w : Wl) : List Event → Driver → Wl → Nat → Prop
  | start : Plays B d w [] d w 0
  | acts {l : List Event} {d' : Driver} {w' : Wl} {k : Nat} {c : Chip} (h : Plays B d w l d' w' k) (ha : w'.chip.Acts c) :
      Plays B d w l d' (w'.become c) (if awaited l then k + 1 else k)
  | irq {l : List Event} {d' : Driver} {w' : Wl} {k : Nat} (h : Plays B d w l d' w' k) (hd : w'.due = true) :
      Plays B d w l d' w'.irq k
  | event {l : List Event} {d' d'' : Driver} {w' w'' : Wl} {k : Nat} {ops : List BusOp} (h : Plays B d w l d' w' k)
      (hd : w'.due = false) (ev : Event) (busy : Nat → Bool) (hb : B busy)
      (hp : busOps d' w'.chip busy ev = some (d'', ops)) (hr : Runs w' ops w'') : Plays B d w (l ++ [ev]) d'' w'' k

/-- A chip in any state, the interrupt not yet enabled. -/
def initial (c : Chip) : Wl := sense { chip := c, nvic := {} }

end Wl

/-! ### SX1261 and SX1262 -/

/-- Chip and number of calls made of the event handler of the MAC. -/
structure Pin where
  chip : Chip
  calls : Nat

namespace Pin

/-- The chip goes on to `c`: the handler is called if DIO1 rises. -/
def become (w : Pin) (c : Chip) : Pin :=
  { chip := c, calls := if !dio1 w.chip && dio1 c then dio1Handler w.calls else w.calls }

/-- A sequence of calls on the chip interface. -/
def run (w : Pin) (ops : List BusOp) : Pin := ops.foldl (fun w o => w.become (w.chip.exec o)) w

/-- As `Wl.Plays`. -/
inductive Plays (B : (Nat → Bool) → Prop) (d : Driver) (w : Pin) : List Event → Driver → Pin → Nat → Prop
  | start : Plays B d w [] d w 0
  | acts {l : List Event} {d' : Driver} {w' : Pin} {k : Nat} {c : Chip} (h : Plays B d w l d' w' k) (ha : w'.chip.Acts c) :
      Plays B d w l d' (w'.become c) (if awaited l then k + 1 else k)
  | event {l : List Event} {d' d'' : Driver} {w' : Pin} {k : Nat} {ops : List BusOp} (h : Plays B d w l d' w' k)
      (ev : Event) (busy : Nat → Bool) (hb : B busy) (hp : busOps d' w'.chip busy ev = some (d'', ops)) :
      Plays B d w (l ++ [ev]) d'' (w'.run ops) k

end Pin
end LDL.Spec.Irq
