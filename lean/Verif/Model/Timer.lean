import Verif.Model.State

/-!
# Model of src/ldl_mac.c: timers, interrupt latch, off-time counters
-/

namespace LDL

/-- `timerDelta` (src/ldl_mac.c:2955-2958).  Arguments are `uint32_t`. -/
def timerDelta (timeout time : Nat) : Nat :=
  if timeout ≤ time then time - timeout else UINT32_MAX - timeout + time

/-- `timeTPS` (src/ldl_mac.c:145). -/
def timeTPS : Nat := 256

/-- `msToTime` (src/ldl_mac.c:3170-3176). -/
def msToTime (ms : Nat) : Nat :=
  let t := u32 (ms * timeTPS)
  t / 1000 + (if t % 1000 > 0 then 1 else 0)

/-- `msToTicks` (src/ldl_mac.c:3178-3184). -/
def msToTicks (cfg : Cfg) (ms : Nat) : Nat :=
  let t := u32 (ms * cfg.tps)
  t / 1000 + (if t % 1000 > 0 then 1 else 0)

namespace Timer

/-- `LDL_MAC_timerSet` (src/ldl_mac.c:788-796).  `& INT32_MAX` is written as a remainder. -/
def set (e : Env) (timeout : Nat) : Timer :=
  { time := u32 (e.later + timeout % 2147483648), armed := true }

/-- `LDL_MAC_timerAppend` (src/ldl_mac.c:798-806). -/
def append (t : Timer) (timeout : Nat) : Timer :=
  { time := u32 (t.time + timeout % 2147483648), armed := true }

/-- `LDL_MAC_timerClear` (src/ldl_mac.c:832-835). -/
def clear (t : Timer) : Timer := { t with armed := false }

/-- `LDL_MAC_timerCheck` (src/ldl_mac.c:808-830): the lag when the timer has expired. -/
def check (e : Env) (t : Timer) : Option Nat :=
  if t.armed then
    if timerDelta t.time e.ticks < INT32_MAX then some (timerDelta t.time e.ticks) else none
  else none

/-- One iteration of the loop of `LDL_MAC_timerTicksUntilNext` (src/ldl_mac.c:845-870). -/
def untilStep (e : Env) (acc : Nat) (t : Timer) : Nat :=
  if acc = 0 then 0
  else if t.armed then
    if timerDelta t.time e.ticks ≤ INT32_MAX then 0
    else if timerDelta e.ticks t.time < acc then timerDelta e.ticks t.time else acc
  else acc

/-- `LDL_MAC_timerTicksUntil` (src/ldl_mac.c:875-901): ticks and lag (`none` when not armed, the lag
is then not written). -/
def ticksUntil (e : Env) (t : Timer) : Nat × Option Nat :=
  if t.armed then
    let lag := timerDelta t.time e.ticks
    (if lag ≤ INT32_MAX then 0 else timerDelta e.ticks t.time, some lag)
  else (UINT32_MAX, none)

end Timer

/-- `LDL_MAC_timerTicksUntilNext` (src/ldl_mac.c:837-873).  Timers in the order of
`enum ldl_timer_inst` (include/ldl_mac_internal.h). -/
def timerTicksUntilNext (e : Env) (m : Mac) : Nat :=
  [m.timerA, m.timerB, m.timerBand].foldl (Timer.untilStep e) UINT32_MAX

/-- `LDL_MAC_ticksUntilNextEvent` (src/ldl_mac.c:574-586). -/
def ticksUntilNextEvent (e : Env) (m : Mac) : Nat :=
  if m.inputState then 0 else timerTicksUntilNext e m

/-- `inputSignal` (src/ldl_mac.c:3304-3315). -/
def inputSignal (m : Mac) (ticks : Nat) : Mac :=
  if !m.inputState && m.inputArmed then { m with inputTime := ticks, inputState := true } else m

/-- An interrupt during `LDL_MAC_process`, after that has looked for interrupts (src/ldl_mac.c:471) and before it
disarms the latch because the radio has failed (src/ldl_mac.c:1665).  `inputSignal` (src/ldl_mac.c:3304-3315) finds the
latch armed and the interrupt stays recorded (`c91_preempted`); the call leaves the device in state RADIO_RESET. -/
def Mac.late (m : Mac) (ticks : Nat) : Mac :=
  if m.state = .radioReset ∧ m.inputState = false then { m with inputTime := ticks, inputState := true } else m

/-- `inputArm` (src/ldl_mac.c:3317-3325). -/
def inputArm (m : Mac) : Mac := { m with inputState := false, inputArmed := true }

/-- `inputDisarm` (src/ldl_mac.c:3327-3334). -/
def inputDisarm (m : Mac) : Mac := { m with inputArmed := false }

/-- `inputCheck` (src/ldl_mac.c:3336-3354): the lag when an interrupt is pending. -/
def inputCheck (e : Env) (m : Mac) : Option Nat × Mac :=
  if m.inputState then
    (some (timerDelta m.inputTime e.ticks), { m with inputArmed := false, inputState := false })
  else (none, m)

/-- `updateDownCounter` (src/ldl_mac.c:2960-2978): new value and whether it expired. -/
def updateDownCounter (counter time : Nat) : Nat × Bool :=
  if counter > 0 then
    if counter ≤ time then (0, true) else (counter - time, false)
  else (counter, false)

/-- Time elapsed since the last call, in units of 1/256 s, and the new remainder
(src/ldl_mac.c:2990-3001).  `uint32_t` arithmetic. -/
def elapsed (cfg : Cfg) (since remainder : Nat) : Nat × Nat :=
  let fraction := u32 ((since % cfg.tps) * timeTPS + remainder)
  (u32 ((since / cfg.tps) * timeTPS + fraction / cfg.tps), fraction % cfg.tps)

/-- The loop of `processBands` over the counters (src/ldl_mac.c:3003-3012). -/
def countDown (band : Nat → Nat) (time : Nat) : Nat → Nat :=
  fun i => if i < 6 then (updateDownCounter (band i) time).1 else band i

/-- Whether the loop of `processBands` saw a counter expire (src/ldl_mac.c:3003-3012). -/
def anyExpired (band : Nat → Nat) (time : Nat) : Bool :=
  [0, 1, 2, 3, 4, 5].any fun i => (updateDownCounter (band i) time).2

/-- The update of clock and counters in `processBands` (src/ldl_mac.c:2988-3012). -/
def tickBands (cfg : Cfg) (e : Env) (m : Mac) : Mac :=
  let r := elapsed cfg (timerDelta m.timeTicks e.ticks) m.timeRemainder
  { m with
    timeTicks := e.ticks
    timeRemainder := r.2
    day := (updateDownCounter m.day r.1).1
    band := countDown m.band r.1 }

/-- `processBands` (src/ldl_mac.c:2980-3026). -/
def processBands (cfg : Cfg) (e : Env) (m : Mac) : Bool × Mac :=
  if m.parked then (false, m)
  else
    let time := (elapsed cfg (timerDelta m.timeTicks e.ticks) m.timeRemainder).1
    let m' := tickBands cfg e m
    if anyExpired m.band time ∧ m'.band GLOBAL = 0 then (true, m'.emit .channelReady) else (false, m')

/-- The loop of `setNextBandEvent` (src/ldl_mac.c:3034-3043). -/
def minBand (m : Mac) : Nat :=
  [0, 1, 2, 3, 4, 5].foldl
    (fun time i => if m.band i > 0 then (if m.band i < time then m.band i else time) else time)
    UINT32_MAX

/-- `setNextBandEvent` (src/ldl_mac.c:3028-3079).  `uint32_t` arithmetic. -/
def setNextBandEvent (cfg : Cfg) (e : Env) (m : Mac) : Mac :=
  let time := minBand m
  let time := if time ≤ m.band GLOBAL then m.band GLOBAL else time
  let time := if time = UINT32_MAX ∧ m.day > 0 then m.day else time
  if time < UINT32_MAX then
    let ticks :=
      if time < u32 (INT32_MAX / cfg.tps * timeTPS) then
        u32 ((time / timeTPS + (if time % timeTPS > 0 then 1 else 0)) * cfg.tps)
      else u32 (INT32_MAX / cfg.tps * INT32_MAX)
    { m with parked := false, timerBand := Timer.set e ticks }
  else
    { m with parked := true, timerBand := m.timerBand.clear }

/-- `getOTAAOffTime` (src/ldl_mac.c:2930-2953). -/
def getOTAAOffTime (m : Mac) : Nat :=
  if m.day > timeTPS * 23 * 60 * 60 then 100
  else if m.day > timeTPS * 13 * 60 * 60 then 1000
  else 10000

/-- Add off-time to a band, saturating (src/ldl_mac.c:2509-2516 and 2530-2537). -/
def addOffTime (band : Nat → Nat) (i offTime : Nat) : Nat → Nat :=
  if u32 (band i + offTime) < band i then upd band i UINT32_MAX
  else upd band i (u32 (band i + offTime))

/-- `registerTime` (src/ldl_mac.c:2498-2539) with `tx == &self->tx`. -/
def registerTime (m : Mac) : Mac :=
  let m :=
    match m.ctx.region.getBand m.tx.freq with
    | some b =>
      { m with band := addOffTime m.band b (u32 (m.tx.airTime * m.ctx.region.getOffTimeFactor b)) }
    | none => m
  if m.op = .joining ∨ m.ctx.maxDutyCycle > 0 then
    let offTime :=
      if m.op = .joining then u32 (m.tx.airTime * getOTAAOffTime m)
      else u32 (m.tx.airTime * (1 <<< (m.ctx.maxDutyCycle &&& 0xf)))
    { m with band := addOffTime m.band GLOBAL offTime }
  else m

end LDL
