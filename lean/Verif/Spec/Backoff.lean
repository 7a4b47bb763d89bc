import Verif.Spec.Duty

/-!
# Join back-off

LoRaWAN limits the duty cycle of join requests: 1% in the first hour, 0.1% up to the eleventh hour, 0.01% after that.
-/

namespace LDL
namespace Spec

/-- The off-time factor when a device has been joining for `u` units of 1/256 s. -/
def backoff (u : Nat) : Nat :=
  if u < 1 * 3600 * 256 then 100 else if u < 11 * 3600 * 256 then 1000 else 10000

/-- The number of times a clock of 32 bits wraps between two times. -/
def wraps (t t' : Nat) : Nat := t' / 2 ^ 32 - t / 2 ^ 32

/-- `LDL_MAC_process` is called at least once per wrap of the clock, from time `t` on (calls made while there is
nothing to count do not matter). -/
def Often (cfg : Cfg) : Nat → Mac → List (Env × Call) → Prop
  | _, _, [] => True
  | t, m, (e, c) :: rest =>
    match c, m.parked with
    | .process, false => e.now < t + 2 ^ 32 ∧ Often cfg e.now (step cfg m e c).1 rest
    | _, _ => Often cfg t (step cfg m e c).1 rest

/-- The off-time of the join requests was counted until time `L` at least: no call of `LDL_MAC_process` later than that
found any of it left. -/
def CountedUntil (cfg : Cfg) (m : Mac) (calls : List (Env × Call)) (L : Nat) : Prop :=
  ∀ before e after, calls = before ++ (e, .process) :: after → 0 < (run cfg m before).band GLOBAL → e.now ≤ L

end Spec
end LDL
