import Verif.Lemmas.OpState
import Verif.Spec.Session

/-!
# A concrete device, for showing that hypotheses can be met

Region EU868, LoRaWAN 1.0.4, a clock of 1 MHz, and in place of AES the identity (what is shown with this device
does not depend on the cipher).
-/

namespace LDL
namespace Demo

def cfg : Cfg := { E := fun _ b => b, a := 1000 }

/-- The clock at a time, in microseconds. -/
def at_ (t : Nat) : Env := { now := t }

def start : Mac := init cfg .eu868 {} (at_ 0)

/-- Process once at each of the times. -/
def processAt (ts : List Nat) : List (Env × Call) := ts.map fun t => (at_ t, .process)

/-- Boot the radio. -/
def boot : List (Env × Call) := processAt [0, 1000, 10000]

/-- A send request. -/
def send (confirmed : Bool) (t : Nat) : Env × Call := (at_ t, .data confirmed 1 (some [1, 2, 3]) 3 none)

/-- From a send request to the radio transmitting. -/
def sending (confirmed : Bool) : List (Env × Call) :=
  boot ++ [(at_ 20000, .abp 1), send confirmed 30000] ++ processAt [30000, 60000]

/-- The radio reports the end of a transmission. -/
def txDone (t : Nat) : List (Env × Call) := [(at_ t, .radioEvent t), ({ now := t, statusTx := true }, .process)]

/-- The radio reports that nothing was received. -/
def rxNone (t : Nat) : List (Env × Call) := [(at_ t, .radioEvent t), ({ now := t, statusTimeout := true }, .process)]

/-- One transmission and both receive windows without reception. -/
def cycle (t : Nat) : List (Env × Call) :=
  processAt [t, t + 30000] ++ txDone (t + 1530000) ++ processAt [t + 2530000, t + 2532000] ++ rxNone (t + 2570000) ++
    processAt [t + 3530000, t + 3532000] ++ rxNone (t + 3570000) ++ processAt [t + 6100000]

/-- One transmission, up to the first receive window. -/
def untilRx1 (t : Nat) : List (Env × Call) :=
  processAt [t, t + 30000] ++ txDone (t + 1530000) ++ processAt [t + 2530000, t + 2532000]

/-- Reception of a packet. -/
def rxPacket (p : Bytes) (t : Nat) : List (Env × Call) :=
  [(at_ t, .radioEvent t), ({ now := t, statusRx := true, packet := p, snr := 5 }, .process)]

instance (c : Call) : Decidable c.WF := by
  cases c <;> simp only [Call.WF] <;> try infer_instance

theorem run_reach {cfg : Cfg} {m : Mac} (h : Spec.Reachable cfg m) (l : List (Env × Call)) (hw : ∀ x ∈ l, x.2.WF) :
    Spec.Reachable cfg (run cfg m l) := by
  induction l generalizing m with
  | nil => exact h
  | cons x l ih =>
    exact ih (.step x.1 x.2 h (hw x (by simp))) fun y hy => hw y (by simp [hy])

theorem start_reachable : Spec.Reachable cfg start := .init _ _ _ (by simp) ⟨rfl, rfl, rfl, rfl, by decide, by decide⟩

/-- Booted and idle. -/
def idle : Mac := run cfg start boot

/-- Joined and idle. -/
def joined : Mac := run cfg start (boot ++ [(at_ 20000, .abp 1)])

/-- A transmission is in progress. -/
def onAir : Mac := run cfg start (sending true)

theorem idle_reachable : Spec.Reachable cfg idle := run_reach start_reachable _ (by decide +kernel)
theorem joined_reachable : Spec.Reachable cfg joined := run_reach start_reachable _ (by decide +kernel)
theorem onAir_reachable : Spec.Reachable cfg onAir := run_reach start_reachable _ (by decide +kernel)

/-- The device for LoRaWAN 1.1. -/
def cfg11 : Cfg := { E := fun _ b => b, a := 1000, version := .v11 }

/-- Booted with a stored session. -/
def restored (cfg : Cfg) (s : Session) : Mac := run cfg (init cfg .eu868 { session := some s } (at_ 0)) boot

theorem restored_reachable (cfg : Cfg) {s : Session} (h : Spec.SessionOk s) : Spec.Reachable cfg (restored cfg s) := by
  refine run_reach (.init _ _ _ ?_ ⟨rfl, rfl, rfl, rfl, by simp, by simp⟩) _ (by decide +kernel)
  intro s' hs
  cases hs
  exact h

example : idle.state = .idle ∧ idle.op = .none := by decide +kernel
example : joined.state = .idle ∧ joined.ctx.joined = true := by decide +kernel
example : onAir.state = .tx ∧ onAir.op = .dataConfirmed := by decide +kernel

end Demo
end LDL
