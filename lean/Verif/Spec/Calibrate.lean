import Verif.Spec.Sx126xLoop

/-!
# Image calibration of the SX126x (C90)
-/

namespace LDL.Spec.Sx126x
open LDL.Sx126x

/-- The accesses of the driver for an event at the MAC that reach the chip. -/
def accesses (d : Driver) (c : Chip) (busy : Nat → Bool) : Event → List BusOp
  | .setMode mode => ((setMode d mode busy).map Prod.snd).getD []
  | .transmit _ s data => (transmit d s data busy).2
  | .receive _ s => (receive d s busy).2
  | .receiveEntropy => receiveEntropy busy
  | .readEntropy => readEntropyOps busy
  | .readBuffer => readBufferOps c.rxLength.toNat 255 busy
  | .getStatus => attempt busy 0 [getIrqStatus]
  | _ => []

/-- As `Plays`, with the accesses that reached the chip beside each event. -/
inductive Traced (B : (Nat → Bool) → Prop) (d : Driver) (c : Chip) : List (Event × List BusOp) → Driver → Chip → Prop
  | start : Traced B d c [] d c
  | acts {l : List (Event × List BusOp)} {d' : Driver} {c' c'' : Chip} (h : Traced B d c l d' c') (ha : c'.Acts c'') :
      Traced B d c l d' c''
  | event {l : List (Event × List BusOp)} {d' d'' : Driver} {c' c'' : Chip} (h : Traced B d c l d' c') (ev : Event)
      (busy : Nat → Bool) (hb : B busy) (hp : perform d' c' busy ev = some (d'', c'')) :
      Traced B d c (l ++ [(ev, accesses d' c' busy ev)]) d'' c''

/-- A command with opcode `n`. -/
def opcode (n : UInt8) : BusOp → Bool
  | .write (a :: _) _ => a == n
  | _ => false

/-- The chip is told to forget its set-up. -/
def goesCold : Event → Bool
  | .setMode .sleep | .setMode .reset => true
  | _ => false

/-- Commands CalibrateImage (0x98) since the chip was last told to forget its set-up. -/
def calibrations (l : List (Event × List BusOp)) : Nat :=
  l.foldl (fun n x => if goesCold x.1 then 0 else n + x.2.countP (opcode 0x98)) 0

end LDL.Spec.Sx126x
