import Verif.Model.State

/-!
# The order in which the radio may be used

The modes of include/ldl_radio.h:82-90.  The radio is reset before anything else, for nothing is known of it then.
It is taken out of reset (`boot`) and put to sleep before it is used; it is made ready to transmit (`tx`) from sleep
and to receive (`rx`) from sleep or from the pause between windows (`hold`); once made ready to transmit it transmits once,
once made ready to receive it receives once.  It is read only afterwards.  Reset is always possible.
-/

namespace LDL.Spec

/-- What is known of the radio. -/
inductive Phase | unknown | reset | boot | sleep | rx | receiving | tx | transmitting | hold
deriving Repr, DecidableEq

/-- The phase after a call on the radio interface in phase `d`, `none` if the call is not allowed.  Other events are
not calls on the radio. -/
def accepts (d : Phase) : Event → Option Phase
  | .setMode .reset => some .reset
  | .setMode .boot => if d = .reset then some .boot else none
  | .setMode .sleep => if d = .reset ∨ d = .unknown then none else some .sleep
  | .setMode .rx => if d = .sleep ∨ d = .hold then some .rx else none
  | .setMode .tx => if d = .sleep then some .tx else none
  | .setMode .hold => if d = .receiving ∨ d = .transmitting then some .hold else none
  | .transmit .. => if d = .tx then some .transmitting else none
  | .receive .. | .receiveEntropy => if d = .rx then some .receiving else none
  | .readEntropy | .readBuffer => if d = .receiving then some d else none
  | .getStatus => if d = .receiving ∨ d = .transmitting then some d else none
  | _ => some d

/-- The phase after a history that started in phase `d`, `none` if some call in it was not allowed. -/
def follow (d : Phase) : List Event → Option Phase
  | [] => some d
  | ev :: l => (accepts d ev).bind fun d' => follow d' l

/-- The phase the radio is in while the device is in state `s`. -/
def RadioIn (s : St) (d : Phase) : Prop :=
  match s with
  | .init => d = .unknown
  | .radioReset => d = .reset
  | .radioBoot => d = .boot ∨ d = .sleep
  | .idle | .waitEntropy | .waitOTAA | .waitTX | .rx2Lockout => d = .sleep
  | .startRadioForTX => d = .tx
  | .tx => d = .transmitting
  | .startRadioForEntropy | .startRadioForRX1 | .startRadioForRX2 => d = .rx
  | .entropy | .rx1 | .rx2 => d = .receiving
  | .waitRX1 | .waitRX2 => d = .hold

end LDL.Spec
