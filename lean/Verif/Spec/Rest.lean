import Verif.Model.Data

/-!
# The MAC at rest

What an application needs that calls `LDL_MAC_process` until there is nothing more to do now.
-/

namespace LDL
namespace Spec

/-- A timer at the edge of what the clock (`T`, 32 bits) can express: overdue by 2^31 - 1 ticks, or 2^31 if the clock has
wrapped round meanwhile; or due in the next tick, when the clock wraps round. -/
def Edge (T : Nat) (t : Timer) : Prop :=
  t.armed = true ∧ (T = t.time + 2147483647 ∨ T + (4294967295 - t.time) = 2147483647 ∨ T = 4294967295 ∧ t.time = 0)

/-- One of the timers is. -/
def OnEdge (T : Nat) (m : Mac) : Prop := Edge T m.timerA ∨ Edge T m.timerB ∨ Edge T m.timerBand

/-- `LDL_MAC_process` called `n` times. -/
def processed (cfg : Cfg) (es : Nat → Env) : Nat → Mac → Mac
  | 0, m => m
  | n + 1, m => processed cfg (fun i => es (i + 1)) n (step cfg m (es 0) .process).1

end Spec
end LDL
