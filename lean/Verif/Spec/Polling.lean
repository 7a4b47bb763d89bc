import Verif.Spec.Restart

/-!
# Specification: calling `LDL_MAC_process` more often than asked
-/

namespace LDL.Spec

open LDL

/-- The device after further calls of `LDL_MAC_process`. -/
def polls (cfg : Cfg) (m : Mac) (l : List Env) : Mac := run cfg m (l.map fun x => (x, Call.process))

/-- None of the calls does anything, as far as the application and the radio can tell, and the counting of off-time
(`LDL_MAC_process` counts it unless there is none) does not begin or end with one of them. -/
def Unnoticed (cfg : Cfg) : Mac → List Env → Prop
  | _, [] => True
  | m, x :: l =>
    let m' := (step cfg m x .process).1
    newEvents m m' = [] ∧ m'.parked = m.parked ∧ Unnoticed cfg m' l

/-- An interrupt of the radio, or none. -/
def woken (cfg : Cfg) (e : Env) : Option Nat → Mac → Mac
  | none, m => m
  | some ticks, m => (step cfg m e (.radioEvent ticks)).1

/-- The same state of all variables, except for the time of a timer that is not running. -/
structure SameDevice (a b : Mac) : Prop where
  /-- everything but the timer of the off-time -/
  rest : ({ a with timerBand := {} } : Mac) = { b with timerBand := {} }
  /-- both run that timer, or neither does -/
  armed : a.timerBand.armed = b.timerBand.armed
  /-- for the same time -/
  time : a.timerBand.armed = true → a.timerBand.time = b.timerBand.time

end LDL.Spec
