import Verif.Spec.Session
import Verif.Model.Interrupt

/-!
# Histories with interrupts during calls: C91
-/

namespace LDL
namespace Spec

/-- A call, or `LDL_MAC_process` with radio interrupts at the times `ts` while it runs. -/
inductive CallI
  | plain (c : Call)
  | process (ts : List Nat)

/-- Times are 32-bit numbers. -/
def CallI.WF : CallI → Prop
  | .plain c => c.WF
  | .process ts => ∀ t ∈ ts, t < 4294967296

def stepI (cfg : Cfg) (m : Mac) (e : Env) : CallI → Mac
  | .plain c => (step cfg m e c).1
  | .process ts => processDuring cfg e m ts

def runI (cfg : Cfg) : Mac → List (Env × CallI) → Mac
  | m, [] => m
  | m, (e, c) :: rest => runI cfg (stepI cfg m e c) rest

/-- The calls one after the other.  The first interrupt during `LDL_MAC_process` is before it or after it; or after a
`LDL_MAC_process` that has reset the radio, and too late for it.  The other interrupts during that call are dropped. -/
inductive Serial : List (Env × CallI) → List (Env × Call) → Prop
  | nil : Serial [] []
  | plain (e : Env) (c : Call) {xs ys} (h : Serial xs ys) : Serial ((e, .plain c) :: xs) ((e, c) :: ys)
  | none (e : Env) {xs ys} (h : Serial xs ys) : Serial ((e, .process []) :: xs) ((e, .process) :: ys)
  | before (e : Env) (t : Nat) (ts : List Nat) {xs ys} (h : Serial xs ys) :
      Serial ((e, .process (t :: ts)) :: xs) ((e, .radioEvent t) :: (e, .process) :: ys)
  | after (e : Env) (t : Nat) (ts : List Nat) {xs ys} (h : Serial xs ys) :
      Serial ((e, .process (t :: ts)) :: xs) ((e, .process) :: (e, .radioEvent t) :: ys)
  | late (e : Env) (t : Nat) (ts : List Nat) {xs ys} (h : Serial xs ys) :
      Serial ((e, .process (t :: ts)) :: xs) ((e, .process) :: (e, .lateEvent t) :: ys)

/-- `Reachable`, with interrupts during calls too. -/
inductive ReachableI (cfg : Cfg) : Mac → Prop
  | init (region : Region) (arg : InitArg) (e : Env) (h : ∀ s, arg.session = some s → SessionOk s)
      (ha : ArgOk arg) :
      ReachableI cfg (LDL.init cfg region arg e)
  | step {m : Mac} (e : Env) (c : CallI) (h : ReachableI cfg m) (hc : c.WF) : ReachableI cfg (stepI cfg m e c)

end Spec
end LDL
