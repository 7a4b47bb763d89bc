import Verif.Model.Sx127x
import Verif.Spec.RadioDriver

/-!
# The driver between the MAC and the chip (SX1272, SX1276)

A history of events at the MAC is carried out by the driver on the chip, while the chip also acts on its own.
-/

namespace LDL.Spec.Sx127x
open LDL.Sx127x

/-- Driver and chip after one event at the MAC, `none` if the driver aborts.  `readBuffer` asks for up to
`LDL_MAX_PACKET` bytes (src/ldl_mac.c:1467). -/
def perform (d : Driver) (c : Chip) : Event → Option (Driver × Chip)
  | .setMode mode => (setMode d mode c.reg).map fun x => (x.1, c.run x.2)
  | .transmit _ s data => some (d, c.run (transmit d s data))
  | .receive _ s => some (d, c.run (receive d s))
  | .receiveEntropy => some (d, c.run (receiveEntropy d))
  | .readEntropy => some (d, c.run readEntropyOps)
  | .readBuffer => some (d, c.run (readBufferOps c.reg 255))
  | .getStatus => some (d, c.run [readReg RegIrqFlags])
  | _ => some (d, c)

/-- Driver and chip can get from `d`, `c` to `d'`, `c'` over a history of events at the MAC. -/
inductive Plays (d : Driver) (c : Chip) : List Event → Driver → Chip → Prop
  | start : Plays d c [] d c
  | acts {l : List Event} {d' : Driver} {c' c'' : Chip} (h : Plays d c l d' c') (ha : c'.Acts c'') : Plays d c l d' c''
  | event {l : List Event} {d' d'' : Driver} {c' c'' : Chip} (h : Plays d c l d' c') (ev : Event)
      (hp : perform d' c' ev = some (d'', c'')) : Plays d c (l ++ [ev]) d'' c''

/-- The transmissions asked for. -/
def asked (l : List Event) : List (TxSetting × Bytes) :=
  l.filterMap fun | .transmit _ s data => some (s, data) | _ => none

/-- The receive windows asked for. -/
def windows (l : List Event) : List RxSetting :=
  l.filterMap fun | .receive _ s => some s | _ => none

end LDL.Spec.Sx127x
