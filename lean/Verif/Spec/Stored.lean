import Verif.Spec.Restart

/-!
# Nothing is lost with the power: C107

A device whose application stores what it is told (Spec/Restart.lean) and which loses power, at any moment.
-/

namespace LDL
namespace Spec

/-- The calls the library documents for applications, except `LDL_MAC_abp`; channels are added and masked through a
header for internal use (include/ldl_mac_internal.h:43-46). -/
def Documented : Call → Prop
  | .abp _ | .addChannel .. | .maskChannel _ | .unmaskChannel _ => False
  | _ => True

/-- The life of a device of which the application makes such calls only: its state and its storage. -/
inductive ReportingLife (cfg : Cfg) (d : Device) : Mac → Nvm → Prop
  | first (n : Nvm) (e : Env) (hn : n.session = none) (ha : ArgOk (d.arg n)) : ReportingLife cfg d (d.boot cfg n e) n
  | call {m : Mac} {n : Nvm} (h : ReportingLife cfg d m n) (e : Env) (c : Call) (hc : c.WF) (hp : Proper c)
      (hr : Documented c) :
      ReportingLife cfg d (step cfg m e c).1 (n.after (newEvents m (step cfg m e c).1))
  | crash {m : Mac} {n : Nvm} (h : ReportingLife cfg d m n) (e : Env) (c : Call) (hc : c.WF) (hp : Proper c)
      (hr : Documented c) (k : Nat) (e' : Env) :
      ReportingLife cfg d (d.boot cfg (n.after ((newEvents m (step cfg m e c).1).take k)) e')
        (n.after ((newEvents m (step cfg m e c).1).take k))

/-- If power is lost now, the device starts again with the session it has: network, counters, channels, rate, power and
all that the network has set.  Before it has joined, the DevNonce of the last join request, which is part of the session,
is not kept. -/
def Survives (cfg : Cfg) (d : Device) (m : Mac) (n : Nvm) : Prop :=
  ∀ e, (m.ctx.joined = true → (d.boot cfg n e).ctx = m.ctx) ∧
    (d.boot cfg n e).ctx = { m.ctx with devNonce := (d.boot cfg n e).ctx.devNonce }

end Spec
end LDL
