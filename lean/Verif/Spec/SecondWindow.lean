import Verif.Spec.Windows

/-!
# The second receive window after an uplink (C97)

A device listens in the second window unless the first brought it a downlink.  So a device to which the radio delivered
nothing is not to give an uplink up, or send again, without having listened in the second window.
-/

namespace LDL.Spec
open LDL

/-- The events by which a device is seen to be through with an uplink: it reports the result, reports that it cannot try
again, or transmits again. -/
def through : Event → Bool
  | .dataComplete | .dataTimeout | .joinExhausted | .transmit .. => true
  | _ => false

/-- Among the events `l` the radio is told to listen at the frequency, spreading factor and bandwidth of the second window
of `m`. -/
def ListensSecond (m : Mac) (l : List Event) : Prop :=
  ∃ x ∈ listens l, x.2.freq = m.ctx.rx2Freq ∧ x.2.sf = (rx2Window m).sf ∧ x.2.bw = (rx2Window m).bw

/-- Calls that do not break a transfer off. -/
def Continues (c : Call) : Prop := c ≠ .cancel ∧ c ≠ .forget

end LDL.Spec
