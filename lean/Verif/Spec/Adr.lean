import Verif.Spec.Server
import Verif.Spec.Trace
import Verif.Spec.Duty

/-!
# ADR back-off, described without the code

A device that follows the network's data rate counts uplinks that got no answer.  Once there are more than
ADR_ACK_LIMIT it asks for an answer.  ADR_ACK_DELAY uplinks later, and then every ADR_ACK_DELAY uplinks, it takes a
step: first to full power, then down one data rate at a time, and at the lowest data rate all channels are enabled.
The lowest data rate is number zero, or one if the library is built with `LDL_DISABLE_SF12`.
-/

namespace LDL
namespace Spec

/-- Steps taken after `k` unanswered uplinks. -/
def adrSteps (limit delay k : Nat) : Nat := (k - 1 - limit) / delay

/-- Steps needed to get to full power (which is number zero). -/
def powerSteps (power : Nat) : Nat := if power = 0 then 0 else 1

/-- The lowest data rate of a build. -/
def lowest (cfg : Cfg) : Nat := if cfg.noSf12 then 1 else 0

/-- The number of the step that enables all channels, if `low` is the lowest data rate. -/
def lastStep (low power rate : Nat) : Nat := powerSteps power + (rate - low) + 1

/-- Power after `n` steps. -/
def backoffPower (power n : Nat) : Nat := if n = 0 then power else 0

/-- Data rate after `n` steps: not below the lowest one, and unchanged if it was below that already. -/
def backoffRate (low power rate n : Nat) : Nat :=
  if rate ≤ low then rate else max low (rate - (n - powerSteps power))

/-- The uplinks that ended, among some events.  (The event of an uplink that was answered is the same; it is not meant
here.) -/
def uplinksEnded (l : List Event) : Nat :=
  l.countP fun | .dataComplete | .dataTimeout => true | _ => false

/-- Calls by which the application changes what ADR controls, and the one that drops the session. -/
def changesAdr : Call → Prop
  | .setRate _ | .setPower _ | .setADR _ | .maskChannel _ | .unmaskChannel _ | .forget => True
  | _ => False

end Spec
end LDL
