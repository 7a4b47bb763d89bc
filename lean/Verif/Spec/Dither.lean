import Verif.Spec.Repeat

/-!
# The random delay of join requests: C104

Devices that lose their network at the same time must not all ask to join at the same time, so each join request is held
back for a random time.
-/

namespace LDL.Spec

/-- The interval, in seconds, over which join requests are spread: 30, or what was given to `LDL_MAC_init` in a build
with `LDL_ENABLE_OTAA_DITHER`. -/
def spreadSeconds (cfg : Cfg) : Nat := cfg.dither.getD 30

/-- The interval in ticks. -/
def spreadTicks (cfg : Cfg) : Nat := cfg.tps * spreadSeconds cfg

/-- The values of the random source, of 32 bits, for which a function of it has a value. -/
def drawsGiving (f : Nat → Nat) (d : Nat) : Nat := (List.range (2 ^ 32)).countP fun r => f r = d

end LDL.Spec
