import Verif.Model.Data

/-!
# What an observer of the public interface sees

A trace is the list of calls an application makes, each with the status returned and the events delivered during
the call.  The observer below follows the operations it sees started and finished, without looking at the device.
-/

namespace LDL
namespace Spec

/-- One call: what was called, what it returned, and the events (to the application and to the radio) during it. -/
structure Rec where
  call : Call
  status : Status
  events : List Event

/-- The trace of a sequence of calls. -/
def trace (cfg : Cfg) : Mac → List (Env × Call) → List Rec
  | _, [] => []
  | m, (e, c) :: rest =>
    { call := c, status := (step cfg m e c).2, events := (step cfg m e c).1.out.drop m.out.length } ::
      trace cfg (step cfg m e c).1 rest

/-- The kinds of operation an application can start. -/
inductive Kind
  | entropy | join | unconfirmed | confirmed
deriving DecidableEq, Repr

/-- The operation a call starts, given the status it returned.  A send request displaced by MAC commands
(MACPRIORITY) is sent unconfirmed. -/
def starts : Call → Status → Option Kind
  | .entropy, .ok => some .entropy
  | .otaa, .ok => some .join
  | .data confirmed .., .ok => some (if confirmed then .confirmed else .unconfirmed)
  | .data .., .macPriority => some .unconfirmed
  | _, _ => none

/-- Events that say an operation is over. -/
def terminal : Event → Bool
  | .entropy _ | .joinComplete .. | .joinExhausted | .dataComplete | .dataTimeout | .opError | .opCancelled => true
  | _ => false

/-- The events that may end an operation of each kind. -/
def ends : Kind → Event → Bool
  | _, .opCancelled => true
  | .entropy, .entropy _ => true
  | .join, .joinComplete .. => true
  | .join, .joinExhausted => true
  | .unconfirmed, .dataComplete => true
  | .unconfirmed, .opError => true
  | .confirmed, .dataComplete => true
  | .confirmed, .dataTimeout => true
  | .confirmed, .opError => true
  | _, _ => false

/-- One event: a terminal event must end the operation in progress.  `none` is a violation. -/
def observeEvent (k : Option Kind) (ev : Event) : Option (Option Kind) :=
  if terminal ev then
    match k with
    | some k => if ends k ev then some none else none
    | none => none
  else some k

/-- Several events. -/
def observeEvents : Option Kind → List Event → Option (Option Kind)
  | k, [] => some k
  | k, ev :: rest =>
    match observeEvent k ev with
    | some k => observeEvents k rest
    | none => none

/-- One call: its events, and then the operation it started, which must not overlap another one. -/
def observeRec (k : Option Kind) (r : Rec) : Option (Option Kind) :=
  match observeEvents k r.events with
  | some k' =>
    match starts r.call r.status with
    | some n => if k' = none then some (some n) else none
    | none => some k'
  | none => none

/-- A whole trace: `none` if an operation was started or ended when it could not be, otherwise the operation
left in progress. -/
def observe : Option Kind → List Rec → Option (Option Kind)
  | k, [] => some k
  | k, r :: rest =>
    match observeRec k r with
    | some k => observe k rest
    | none => none

/-- Number of operations started in a trace. -/
def started (t : List Rec) : Nat := t.countP fun r => (starts r.call r.status).isSome

/-- Number of terminal events in a trace. -/
def finished (t : List Rec) : Nat := (t.map fun r => r.events.countP terminal).sum

/-- What `LDL_MAC_op` shows of an operation. -/
def kindOf : Op → Option Kind
  | .entropy => some .entropy
  | .joining => some .join
  | .dataUnconfirmed => some .unconfirmed
  | .dataConfirmed => some .confirmed
  | _ => none

/-- What was given to the radio to transmit, among some events. -/
def transmitted (l : List Event) : List (TxSetting × Bytes) :=
  l.filterMap fun | .transmit _ s b => some (s, b) | _ => none

/-- What is transmitted by a sequence of calls, until `LDL_MAC_op` shows that no operation is in progress. -/
def sentBy (cfg : Cfg) : Mac → List (Env × Call) → List (TxSetting × Bytes)
  | _, [] => []
  | m, (e, c) :: rest =>
    let m' := (step cfg m e c).1
    transmitted (m'.out.drop m.out.length) ++ if m'.op = .none then [] else sentBy cfg m' rest

end Spec
end LDL
