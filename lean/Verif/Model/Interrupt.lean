import Verif.Model.Data

/-!
# Model of src/ldl_mac.c: a radio interrupt during `LDL_MAC_process`

Interrupts call `LDL_MAC_radioEventWithTicks`, which touches only the latch (`inputs`), in a critical section
(src/ldl_mac.c:3304-3315).  Other calls touch the latch in critical sections too, so that an interrupt during a call
takes place before or after each of those.  `LDL_MAC_process` has two: `inputCheck` (src/ldl_mac.c:471), then at most
one of `inputArm` (src/ldl_mac.c:1194, 1368, 1402) and `inputDisarm` (src/ldl_mac.c:1665).  An interrupt before the
first is one before the call, and an interrupt after the last one after the call, since nothing else in the call
depends on the latch.  The functions below are about those in between.
-/

namespace LDL

/-- Interrupts at the times `ts` (src/ldl_mac.c:3304-3315, once for each). -/
def inputSignals (m : Mac) (ts : List Nat) : Mac := ts.foldl inputSignal m

/-- `LDL_MAC_process` (src/ldl_mac.c:461-572) with interrupts at the times `ts` after `inputCheck` (src/ldl_mac.c:471),
and before the call arms or disarms the latch if it does. -/
def processDuring (cfg : Cfg) (e : Env) (m : Mac) (ts : List Nat) : Mac :=
  let r := processBands cfg e m
  let p := pickEvent e r.1 r.2
  let m := inputSignals p.2.2 ts
  let m := if p.1 = .none then m else dispatch cfg e p.1 p.2.1 m
  setNextBandEvent cfg e m

end LDL
