import Verif.Model.Reentry
import Verif.Spec.Session

/-!
# An application that makes requests from its callback
-/

namespace LDL.Spec

/-- A call that asks for an operation. -/
def Request : Call → Prop
  | .entropy | .otaa | .data .. => True
  | _ => False

/-- What the application calls in its callback for each event. -/
abbrev Plan := Event → List (Env × Call)

/-- A plan of requests. -/
def Plan.Requests (plan : Plan) : Prop := ∀ ev, ∀ x ∈ plan ev, Request x.2

/-- The application that follows a plan. -/
def Plan.app (cfg : Cfg) (plan : Plan) : Re.App := fun ev m => run cfg m (plan ev)

/-- A report of the session. -/
def isReport : Event → Bool
  | .sessionUpdated _ => true
  | _ => false

/-- The events of a processing call by which the operation has ended, so that the next one can be requested in their
callback: entropy, error, join complete, and the report of the session that comes last. -/
def lateEvents (l : List Event) : List Event :=
  (l.filter fun | .entropy _ | .opError | .joinComplete .. => true | _ => false) ++
    (match l.getLast? with | some (.sessionUpdated s) => [.sessionUpdated s] | _ => [])

/-- The requests of these callbacks, made one after the other after the processing call.  The report of the session
tells the present session. -/
def afterwards (cfg : Cfg) (plan : Plan) (m : Mac) (l : List Event) : Mac :=
  (lateEvents l).foldl
    (fun m ev => match ev with
      | .sessionUpdated _ => run cfg m (plan (.sessionUpdated m.ctx))
      | ev => run cfg m (plan ev)) m

/-- The same state after the same events, but for their order, for what reports of the session say, and for the timer
of the duty cycle counters, which every processing call sets again at its end. -/
structure Alike (m m' : Mac) : Prop where
  state : { m with parked := m'.parked, timerBand := m'.timerBand, out := m'.out } = m'
  events : (m.out.filter fun x => !isReport x).Perm (m'.out.filter fun x => !isReport x)

end LDL.Spec
