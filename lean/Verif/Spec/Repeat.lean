import Verif.Spec.Duty

/-!
# The time between the transmissions of a confirmed frame (C89)
-/

namespace LDL.Spec
open LDL

/-- The times at which a sequence of calls hands frames to the radio, until `LDL_MAC_op` shows that no operation is in
progress. -/
def sentTimes (cfg : Cfg) : Mac → List (Env × Call) → List Nat
  | _, [] => []
  | m, (e, c) :: rest =>
    let m' := (step cfg m e c).1
    (transmitted (m'.out.drop m.out.length)).map (fun _ => e.done) ++ if m'.op = .none then [] else sentTimes cfg m' rest

/-- The waits double: at least 2^k s between the first two times, twice that before the next, and so on. -/
def Doubling (tps : Nat) : Nat → List Nat → Prop
  | k, a :: b :: rest => a + 2 ^ k * tps ≤ b ∧ Doubling tps (k + 1) (b :: rest)
  | _, _ => True

/-- Seconds before a frame is repeated that was transmitted `k` times. -/
def repeatWait (confirmed : Bool) (k : Nat) : Nat := if confirmed then 2 ^ k else 0

/-- The operation goes on all through the calls. -/
def GoesOn (cfg : Cfg) (m : Mac) (calls : List (Env × Call)) : Prop :=
  ∀ before after, calls = before ++ after → (run cfg m before).op ≠ .none

end LDL.Spec
