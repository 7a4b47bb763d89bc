import Verif.Spec.Regional
import Verif.Model.Data

/-!
# Specification of the receive windows (C37, C38)

Times are whole ticks of a clock that counts without end.
-/

namespace LDL.Spec
open LDL

/-- Whole ticks in a symbol: 2^SF / BW seconds. -/
def symbolTicks (tps sf bw : Nat) : Nat := 2 ^ sf * tps / bw

/-- Clock error to allow for, in ticks, after `s` seconds: `a` ticks a second in both directions, and `b` in all. -/
def clockError (cfg : Cfg) (s : Nat) : Nat := 2 * cfg.a * s + cfg.b

/-- The margin, in symbols: as many whole symbols as hold the clock error, and three at least. -/
def marginSymbols (error symbol : Nat) : Nat := max 3 ((error + symbol - 1) / symbol)

/-- Seconds from the end of an uplink to the first window: five for a join request, else as agreed with the network. -/
def rx1Seconds (m : Mac) : Nat := if m.op = .joining then 5 else m.ctx.rx1Delay

/-- Ticks by which the radio is started up ahead of a window (25 ms). -/
def startup (cfg : Cfg) : Nat := (25 * cfg.tps + 999) / 1000

/-- A receive window: `s` seconds after the end of the uplink, at a spreading factor and bandwidth. -/
structure Window where
  s : Nat
  sf : Nat
  bw : Nat

namespace Window

/-- Ticks in a symbol. -/
def symbol (cfg : Cfg) (w : Window) : Nat := symbolTicks cfg.tps w.sf w.bw

/-- Symbols of margin. -/
def extra (cfg : Cfg) (w : Window) : Nat := marginSymbols (clockError cfg w.s) (w.symbol cfg)

/-- Margin in ticks. -/
def margin (cfg : Cfg) (w : Window) : Nat := w.extra cfg * w.symbol cfg

/-- Symbols the radio listens for. -/
def symbols (cfg : Cfg) (w : Window) : Nat := 5 + w.extra cfg

/-- When the window opens after an uplink that ended at `txEnd`. -/
def opens (cfg : Cfg) (w : Window) (txEnd : Nat) : Nat := txEnd + w.s * cfg.tps - cfg.advance - w.margin cfg / 2

/-- When the radio is started up for the window. -/
def wakes (cfg : Cfg) (w : Window) (txEnd : Nat) : Nat := w.opens cfg txEnd - startup cfg

/-- Nothing in the computation of the window exceeds its range, a symbol has at least one tick, and the window is far
enough ahead for an end of transmission that is noticed `lag` ticks late. -/
structure Fits (cfg : Cfg) (w : Window) (lag : Nat) : Prop where
  symbol : 0 < w.symbol cfg
  period : 2 ^ w.sf * cfg.tps < 2 ^ 32
  error : clockError cfg w.s < 2 ^ 32
  symbols : w.symbols cfg < 2 ^ 16
  wait : w.s * cfg.tps < 2 ^ 31
  ahead : cfg.advance + lag + startup cfg + w.margin cfg / 2 ≤ w.s * cfg.tps
  margin : w.margin cfg < 2 ^ 32

/-- Nothing in the computation of the window exceeds its range and a symbol has at least one tick, wherever the window is
when an end of transmission is noticed `lag` ticks late. -/
structure Computes (cfg : Cfg) (w : Window) (lag : Nat) : Prop where
  symbol : 0 < w.symbol cfg
  period : 2 ^ w.sf * cfg.tps < 2 ^ 32
  error : clockError cfg w.s < 2 ^ 32
  symbols : w.symbols cfg < 2 ^ 16
  wait : w.s * cfg.tps < 2 ^ 31
  sum : cfg.advance + lag + startup cfg + w.margin cfg / 2 < 2 ^ 32
  margin : w.margin cfg < 2 ^ 32

/-- The start-up of the radio for the window is still ahead when an end of transmission is noticed `lag` ticks late. -/
def Ahead (cfg : Cfg) (w : Window) (lag : Nat) : Prop := cfg.advance + lag + startup cfg + w.margin cfg / 2 ≤ w.s * cfg.tps

end Window

/-- The first window after the uplink of `m`. -/
def rx1Window (m : Mac) : Window :=
  { s := rx1Seconds m
    sf := sfOf m.ctx.region (rx1Rate m.ctx.region m.tx.rate m.ctx.rx1DROffset)
    bw := bwOf m.ctx.region (rx1Rate m.ctx.region m.tx.rate m.ctx.rx1DROffset) }

/-- The second window, a second later. -/
def rx2Window (m : Mac) : Window :=
  { s := rx1Seconds m + 1, sf := sfOf m.ctx.region m.ctx.rx2DataRate, bw := bwOf m.ctx.region m.ctx.rx2DataRate }

/-- What the radio is told when a window is opened: frequency, spreading factor, bandwidth and symbols to listen for. -/
structure Listen where
  freq : Nat
  sf : Nat
  bw : Nat
  symbols : Nat
  deriving DecidableEq

def rx1Listen (cfg : Cfg) (m : Mac) : Listen :=
  { freq := rx1Freq m.ctx.region m.tx.freq m.tx.chIndex
    sf := (rx1Window m).sf, bw := (rx1Window m).bw, symbols := (rx1Window m).symbols cfg }

def rx2Listen (cfg : Cfg) (m : Mac) : Listen :=
  { freq := m.ctx.rx2Freq, sf := (rx2Window m).sf, bw := (rx2Window m).bw, symbols := (rx2Window m).symbols cfg }

/-- The windows opened in a trace: time and radio setting. -/
def listens : List Event → List (Nat × Listen) :=
  List.filterMap fun
    | .receive t s => some (t, { freq := s.freq, sf := s.sf, bw := bwToNumber s.bw, symbols := s.timeout })
    | _ => none

/-- A transmission is in progress and the radio has reported its end, which was at time `T`. -/
structure SendingEnded (m : Mac) (T : Nat) : Prop where
  state : m.state = .tx
  reported : m.inputState = true
  time : m.inputTime = T % 2 ^ 32

/-- Calls that leave a transfer alone: everything but cancel, forget and (for a radio that is not to report anything
meanwhile) a radio interrupt. -/
def LeavesAlone (c : Call) : Prop := c ≠ .cancel ∧ c ≠ .forget ∧ ∀ t, c ≠ .radioEvent t ∧ c ≠ .lateEvent t

/-- Calls that leave the transfer alone, all at times from `a` to before `b`. -/
def Between (a b : Nat) (calls : List (Env × Call)) : Prop :=
  ∀ x ∈ calls, LeavesAlone x.2 ∧ a ≤ x.1.now ∧ x.1.now < b

/-- The data rates of a transfer are legal ones. -/
structure RatesOk (m : Mac) : Prop where
  up : m.tx.rate ∈ upRates m.ctx.region
  offset : m.ctx.rx1DROffset ≤ maxRx1Offset m.ctx.region
  rx2 : m.ctx.rx2DataRate ∈ upRates m.ctx.region ++ downRates m.ctx.region

/-- Ticks from `a` to `b` as a device notices them: one is lost when its clock of 32 bits wraps in between. -/
def noticed (a b : Nat) : Nat := if a / 2 ^ 32 = b / 2 ^ 32 then b - a else b - a - 1

/-- The times and calls from the end of a transmission to the first window.  The transmission ended at `T`, at `S` as the
device takes it (later by the time the call that processes the end has taken until it sets the timers, and by a tick when
the clock wraps between the end and that call; else the same), and the start-up of the radio is processed `l` ticks late,
as the device notices it. -/
structure Schedule1 (cfg : Cfg) (m : Mac) (T S : Nat) (e0 : Env) (calls1 : List (Env × Call)) (e1 : Env) (l : Nat)
    (calls2 : List (Env × Call)) (e2 : Env) : Prop where
  ended : SendingEnded m T
  done : e0.statusTx = true
  after : T ≤ e0.now -- processed at any time after the end
  near : e0.now < T + 2 ^ 32
  seen : e0.done = S + noticed T e0.now
  fits1 : (rx1Window m).Fits cfg (e0.done - S)
  fits2 : (rx2Window m).Fits cfg (e0.done - S)
  tps : 25 * cfg.tps < 2 ^ 32
  guard : 4 * (cfg.tps + cfg.a) < 2 ^ 31
  order : (rx1Window m).opens cfg S ≤ (rx2Window m).wakes cfg S
  quiet1 : Between e0.done ((rx1Window m).wakes cfg S) calls1
  wake : (rx1Window m).wakes cfg S ≤ e1.now
  late : noticed ((rx1Window m).wakes cfg S) e1.now = l
  lag : l ≤ 2 ^ 31 - 2
  quiet2 : Between e1.now ((rx1Window m).wakes cfg S + (startup cfg - l)) calls2
  opened : (rx1Window m).wakes cfg S + (startup cfg - l) ≤ e2.now
  soon : e2.now - ((rx1Window m).wakes cfg S + (startup cfg - l)) ≤ 2 ^ 31 - 2

/-- The calls of a `Schedule1`. -/
def schedule1 (e0 : Env) (calls1 : List (Env × Call)) (e1 : Env) (calls2 : List (Env × Call)) (e2 : Env) :
    List (Env × Call) :=
  (e0, .process) :: calls1 ++ (e1, .process) :: calls2 ++ [(e2, .process)]

/-- The calls after a first window without a downlink, up to the second window. -/
structure Schedule2 (cfg : Cfg) (m : Mac) (S : Nat) (e2 : Env) (calls3 : List (Env × Call)) (e4 : Env)
    (calls4 : List (Env × Call)) (e5 : Env) (l : Nat) (calls5 : List (Env × Call)) (e6 : Env) : Prop where
  quiet3 : Between e2.done (min ((rx2Window m).wakes cfg S) (e2.done + 4 * (cfg.tps + cfg.a))) calls3
  nothing : e4.statusRx = false ∧ e4.statusTimeout = true
  later : S ≤ e4.now
  quiet4 : Between e4.now ((rx2Window m).wakes cfg S) calls4
  wake : (rx2Window m).wakes cfg S ≤ e5.now
  late : noticed ((rx2Window m).wakes cfg S) e5.now = l
  lag : l ≤ 2 ^ 31 - 2
  quiet5 : Between e5.now ((rx2Window m).wakes cfg S + (startup cfg - l)) calls5
  opened : (rx2Window m).wakes cfg S + (startup cfg - l) ≤ e6.now
  soon : e6.now - ((rx2Window m).wakes cfg S + (startup cfg - l)) ≤ 2 ^ 31 - 2

/-- The calls of a `Schedule2`. -/
def schedule2 (calls3 : List (Env × Call)) (e3 : Env) (t3 : Nat) (e4 : Env)
    (calls4 : List (Env × Call)) (e5 : Env) (calls5 : List (Env × Call)) (e6 : Env) : List (Env × Call) :=
  calls3 ++ (e3, .radioEvent t3) :: (e4, .process) :: calls4 ++ (e5, .process) :: calls5 ++ [(e6, .process)]

/-- The times and calls from the end of a transmission to the second window, of a device that is too late for the start-up
of its radio for the first.  `due` is when the radio is to be started up. -/
structure ScheduleLate (cfg : Cfg) (m : Mac) (T S due : Nat) (e0 : Env) (calls4 : List (Env × Call)) (e5 : Env) (l : Nat)
    (calls5 : List (Env × Call)) (e6 : Env) : Prop where
  ended : SendingEnded m T
  done : e0.statusTx = true
  after : T ≤ e0.now
  near : e0.now < T + 2 ^ 32
  seen : e0.done = S + noticed T e0.now
  computes1 : (rx1Window m).Computes cfg (e0.done - S)
  computes2 : (rx2Window m).Computes cfg (e0.done - S)
  late1 : ¬ (rx1Window m).Ahead cfg (e0.done - S)
  tps : 25 * cfg.tps < 2 ^ 32
  quiet4 : Between e0.done due calls4
  wake : due ≤ e5.now
  late : noticed due e5.now = l
  lag : l ≤ 2 ^ 31 - 2
  quiet5 : Between e5.now (due + (startup cfg - l)) calls5
  opened : due + (startup cfg - l) ≤ e6.now
  soon : e6.now - (due + (startup cfg - l)) ≤ 2 ^ 31 - 2

/-- The calls of a `ScheduleLate`. -/
def scheduleLate (e0 : Env) (calls4 : List (Env × Call)) (e5 : Env) (calls5 : List (Env × Call)) (e6 : Env) :
    List (Env × Call) :=
  (e0, .process) :: calls4 ++ (e5, .process) :: calls5 ++ [(e6, .process)]

end LDL.Spec
