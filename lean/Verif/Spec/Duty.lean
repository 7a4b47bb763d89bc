import Verif.Spec.Channel
import Verif.Spec.Trace
import Verif.Model.Radio

/-!
# Duty cycle

The rules: after a transmission of air time `a` in a sub-band with off-time factor `f`, time `a f` has to pass before
the sub-band may be used again.  Air times are counted in units of 1/256 s.
-/

namespace LDL
namespace Spec

/-- The air time of a transmission in units of 1/256 s, rounded up, from the air time in milliseconds reported by
`LDL_Radio_getAirTime` (C40 says what that is worth). -/
def airUnits (x : TxSetting × Bytes) : Nat := (getAirTime x.1.bw x.1.sf x.2.length true * 256 + 999) / 1000

/-- The off-time a transmission costs in band `b`. -/
def owed (r : Region) (b : Nat) (x : TxSetting × Bytes) : Nat :=
  if band r x.1.freq = some b then airUnits x * (offTimeFactor r x.1.freq).getD 0 else 0

/-- The off-time some transmissions cost together. -/
def owedAll (r : Region) (b : Nat) (l : List (TxSetting × Bytes)) : Nat := (l.map (owed r b)).sum

/-- The transmissions made by a sequence of calls. -/
def history (cfg : Cfg) : Mac → List (Env × Call) → List (TxSetting × Bytes)
  | _, [] => []
  | m, (e, c) :: rest =>
    transmitted ((step cfg m e c).1.out.drop m.out.length) ++ history cfg (step cfg m e c).1 rest

/-- Calls made one after the other, not before time `t`. -/
def InOrder : Nat → List (Env × Call) → Prop
  | _, [] => True
  | t, (e, _) :: rest => t ≤ e.now ∧ InOrder e.done rest

/-- The time of the last call. -/
def endTime : Nat → List (Env × Call) → Nat
  | t, [] => t
  | _, (e, _) :: rest => endTime e.done rest

/-- No transmission is cut short: the calls that cancel are not made while `LDL_MAC_state` says that the radio
transmits. -/
def NoCut (cfg : Cfg) : Mac → List (Env × Call) → Prop
  | _, [] => True
  | m, (e, c) :: rest => (m.state = .tx → c ≠ .cancel ∧ c ≠ .forget) ∧ NoCut cfg (step cfg m e c).1 rest

/-- A property of all states passed through. -/
def Throughout (cfg : Cfg) (P : Mac → Prop) : Mac → List (Env × Call) → Prop
  | m, [] => P m
  | m, (e, c) :: rest => P m ∧ Throughout cfg P (step cfg m e c).1 rest

instance (t : Nat) : (l : List (Env × Call)) → Decidable (InOrder t l)
  | [] => isTrue trivial
  | (e, _) :: rest =>
    have := instDecidableInOrder e.done rest
    inferInstanceAs (Decidable (_ ∧ _))

end Spec
end LDL
