import Verif.Model.Mbed
import Verif.Spec.Restart
import Verif.Spec.Trace

/-!
# What a user of the mbed wrapper relies on

Storage over restarts, and methods of `Device` called by any number of threads.
-/

namespace LDL
namespace Spec
namespace Mbed
open LDL.Mbed

/-! ### Storage -/

/-- Several events. -/
def saved (k : Kept) (l : List Event) : Kept := l.foldl Kept.save k

/-- The device starts with what the store returns. -/
def startUp (cfg : Cfg) (d : Device) (k : Kept) (e : Env) : Mac :=
  init cfg d.region (k.arg d.joinEUI d.devEUI d.appKey d.nwkKey) e

/-- The events, each with what the wrapper had stored just before it. -/
def savedStamps : Kept → List Event → List (Kept × Event)
  | _, [] => []
  | k, ev :: rest => (k, ev) :: savedStamps (k.save ev) rest

/-- The life of a device (as `Spec.Life`) whose storage is that of the wrapper. -/
inductive WrapperLife (cfg : Cfg) (d : Device) : Mac → Kept → List (Kept × Event) → Prop
  | first (k : Kept) (e : Env) (hs : k.session = none) (hd : k.devNonce < 65536)
      (ha : ArgOk (k.arg d.joinEUI d.devEUI d.appKey d.nwkKey)) : WrapperLife cfg d (startUp cfg d k e) k []
  | call {m : Mac} {k : Kept} {log : List (Kept × Event)} (h : WrapperLife cfg d m k log) (e : Env) (c : Call)
      (hc : c.WF) (hp : Proper c) :
      WrapperLife cfg d (step cfg m e c).1 (saved k (newEvents m (step cfg m e c).1))
        (log ++ savedStamps k (newEvents m (step cfg m e c).1))
  | crash {m : Mac} {k : Kept} {log : List (Kept × Event)} (h : WrapperLife cfg d m k log) (e : Env) (c : Call)
      (hc : c.WF) (hp : Proper c) (j : Nat) (e' : Env) :
      WrapperLife cfg d (startUp cfg d (saved k ((newEvents m (step cfg m e c).1).take j)) e')
        (saved k ((newEvents m (step cfg m e c).1).take j))
        (log ++ savedStamps k ((newEvents m (step cfg m e c).1).take j))

/-- The DevNonces of the join requests transmitted. -/
def wrapperNonces (log : List (Kept × Event)) : List Nat :=
  log.filterMap fun x => match x.2 with
    | .transmit _ _ b => (parseJoinRequest b).map JoinRequest.devNonce
    | _ => none

/-- What was stored, as the documentation of the MAC has it. -/
def Kept.nvm (k : Kept) : Nvm := { devNonce := k.devNonce, joinNonce := k.joinNonce, session := k.session }

/-! ### Methods called by threads -/

/-- The call of the MAC a method stands for. -/
def meaning : Method → Req
  | .otaa _ => .status .otaa
  | .data c p d l o => .status (.data c p d l o)
  | .entropy => .status .entropy
  | .abp a => .status (.abp a)
  | .forget => .void .forget
  | .cancel => .void .cancel
  | .setRate v => .status (.setRate v)
  | .setPower v => .status (.setPower v)
  | .setADR v => .void (.setADR v)
  | .setMaxDCycle v => .void (.setMaxDCycle v)
  | .getRate => .rate
  | .getPower => .power
  | .getADR => .adr
  | .getMaxDCycle => .maxDCycle
  | .joined => .joined
  | .ready => .ready
  | .getFPending => .fPending
  | .getAckPending => .ackPending

/-- Methods that start something and wait for its end. -/
def blocking : Method → Bool
  | .otaa _ | .data .. | .entropy => true
  | _ => false

/-- What the MAC does when it is called, and what it answers: the call and its status; the getters (src/ldl_mac.h) give the
present data rate, power, ADR mode, duty cycle limit, whether the device is joined, whether it can send (C59), and what the
last downlink said of pending data and a pending acknowledgement. -/
def serve (cfg : Cfg) (e : Env) (m : Mac) : Req → Mac × Answer
  | .status c => ((step cfg m e c).1, .status (step cfg m e c).2)
  | .void c => ((step cfg m e c).1, .unit)
  | .rate => (m, .num m.ctx.rate)
  | .power => (m, .num m.ctx.power)
  | .adr => (m, .flag m.ctx.adr)
  | .maxDCycle => (m, .num m.ctx.maxDutyCycle)
  | .joined => (m, .flag m.ctx.joined)
  | .ready => (m, .flag (LDL.ready m))
  | .fPending => (m, .flag m.fPending)
  | .ackPending => (m, .flag m.pendingACK)

/-- The MAC used by one thread only: every call in the log gives the answer recorded for it.  `none` if not. -/
def replay1 (cfg : Cfg) (m : Mac) : Entry → Option Mac
  | .executed _ r e a => if (serve cfg e m r).2 = a then some (serve cfg e m r).1 else none
  | .processed e => some (step cfg m e .process).1
  | .interrupted e => some (step cfg m e (.radioEvent e.ticks)).1
  | _ => some m

/-- A whole log. -/
def replay (cfg : Cfg) (m : Mac) (log : List Entry) : Option Mac := log.foldlM (replay1 cfg) m

/-- How far one thread is with its present method. -/
inductive Phase
  /-- not in a method -/
  | out
  /-- in a method that has not called the MAC -/
  | called (m : Method)
  /-- in a method for which the MAC has been called, and answered -/
  | answered (m : Method) (a : Answer)
  /-- in `otaa`, which has given up -/
  | late
deriving DecidableEq

/-- Answers after which a blocking method goes on. -/
def goesOn : Method → Answer → Bool
  | .otaa _, a => decide (a = .status .ok)
  | .entropy, a => decide (a = .status .ok)
  | .data .., a => decide (a = .status .ok ∨ a = .status .macPriority ∨ a = .status .noChannel)
  | _, _ => false

/-- Whether a method is `otaa`. -/
def isOtaa : Method → Bool
  | .otaa _ => true
  | _ => false

/-- One entry of one thread.  Between call and return the MAC is called for what the method stands for, and the method
returns that answer, unless it goes on; once, but again when a send request was displaced by MAC commands; `otaa`
may give up, and forgets; a data method returns TIMEOUT without calling the MAC if another one is in
progress.  `mean` says what a method stands for. -/
def follow (mean : Method → Req) (p : Phase) : Entry → Option Phase
  | .called _ m => if p = .out then some (.called m) else none
  | .executed _ r _ a =>
    match p with
    | .called m => if r = mean m then some (.answered m a) else none
    | .answered m a' =>
      if m.isData = true ∧ a' = .status .macPriority ∧ r = mean m then some (.answered m a)
      else if isOtaa m = true ∧ a' = .status .ok ∧ r = .void .forget then some .late
      else none
    | _ => none
  | .returned _ m r =>
    match p with
    | .called m' => if m' = m ∧ m.isData = true ∧ r = .timeout then some .out else none
    | .answered m' a => if m' = m ∧ (goesOn m a = false → r = .answer a) ∧ r ≠ .undefined then some .out else none
    | .late => if isOtaa m = true ∧ r = .timeout then some .out else none
    | .out => none
  | _ => some p

/-- The thread of an entry. -/
def Entry.thread : Entry → Option Nat
  | .called t _ => some t
  | .returned t _ _ => some t
  | .executed t _ _ _ => some t
  | _ => none

/-- The entries of one thread. -/
def own (t : Nat) (log : List Entry) : List Entry := log.filter fun x => Entry.thread x = some t

/-- The phase of a thread; `none` if something happened that should not. -/
def phase (mean : Method → Req) (t : Nat) (log : List Entry) : Option Phase := (own t log).foldlM (follow mean) .out

/-- Arguments within the ranges of their C types. -/
def Act.WF : Act → Prop
  | .call _ m => match m with
    | .data c p d l o => (Call.data c p d l o).WF
    | .abp a => (Call.abp a).WF
    | .setRate v => (Call.setRate v).WF
    | .setPower v => (Call.setPower v).WF
    | .setMaxDCycle v => (Call.setMaxDCycle v).WF
    | _ => True
  | _ => True

/-- States reachable from the start by any interleaving of the threads, the worker, the timer and the interrupt.
`ok` restricts what the threads may do. -/
inductive Reaches (cfg : Cfg) (ok : Act → Prop) (m0 : Mac) : Sys → Prop
  | start (region : Region) (arg : InitArg) (e : Env) (h : ∀ s, arg.session = some s → SessionOk s) (ha : ArgOk arg)
      (hm : m0 = init cfg region arg e) : Reaches cfg ok m0 (Sys.start cfg region arg e)
  | act {s s' : Sys} (h : Reaches cfg ok m0 s) (a : Act) (hw : Act.WF a) (ho : ok a) (hs : s.act cfg a = some s') :
      Reaches cfg ok m0 s'

/-- Several steps, in this order. -/
def acts (cfg : Cfg) (s : Sys) (l : List Act) : Option Sys := l.foldlM (Sys.act cfg) s

/-- How many steps the worker takes. -/
def workerSteps : List Act → Nat
  | [] => 0
  | .worker _ :: l => workerSteps l + 1
  | _ :: l => workerSteps l

/-- How many radio interrupts there are. -/
def interrupts : List Act → Nat
  | [] => 0
  | .radio _ :: l => interrupts l + 1
  | _ :: l => interrupts l

/-- How often the clock turns out to have moved when the worker looks at it, before or during a step, if it was `T` at
first. -/
def clockMoves : Nat → List Act → Nat
  | _, [] => 0
  | T, .worker e :: l =>
    clockMoves e.later l + (if e.ticks = T then 0 else 1) + (if e.later = e.ticks then 0 else 1)
  | T, _ :: l => clockMoves T l

/-! ### The outcome of blocking methods -/

/-- The operation that has begun when the MAC gives this answer. -/
def begins (m : Method) (a : Answer) : Option Kind :=
  match meaning m, a with
  | .status c, .status st => starts c st
  | _, _ => none

/-- What a blocking method says about the end of its operation. -/
def verdict : Event → Result
  | .opCancelled => .cancelled
  | .opError => .error
  | .entropy v => .value v
  | .joinComplete .. => .answer (.status .ok)
  | .joinExhausted => .answer (.status .devNonce)
  | .dataComplete => .answer (.status .ok)
  | .dataTimeout => .noAck
  | _ => .undefined

/-- A send request displaced by MAC commands, which have been sent: the method is not over. -/
def displaced : Answer → Event → Bool
  | .status .macPriority, .dataComplete => true
  | _, _ => false

/-- How far a thread is with a blocking method. -/
inductive Owed
  /-- not in a blocking method -/
  | out
  /-- the MAC has not been called -/
  | asked (m : Method)
  /-- the MAC has refused -/
  | refused (m : Method) (a : Answer)
  /-- the operation is in progress -/
  | running (m : Method) (a : Answer)
  /-- the operation has ended -/
  | over (m : Method) (a : Answer) (ev : Event)

/-- The MAC has answered. -/
def Owed.answer (m : Method) (a : Answer) : Owed := if (begins m a).isSome then .running m a else .refused m a

/-- One entry, seen by thread `t`: its blocking methods return the refusal of the MAC, or what became of the operation
they started. -/
def owe (t : Nat) (p : Owed) : Entry → Option Owed
  | .called u m =>
    if u ≠ t ∨ blocking m = false then some p else match p with
      | .out => some (.asked m)
      | _ => none
  | .executed u _ _ a =>
    if u ≠ t then some p else match p with
      | .out => some .out
      | .asked m => some (.answer m a)
      | .over m a' ev => if displaced a' ev then some (.answer m a) else none
      | _ => none
  | .event ev =>
    if terminal ev then match p with
      | .running m a => some (.over m a ev)
      | _ => none
    else some p
  | .returned u m r =>
    if u ≠ t ∨ blocking m = false then some p else match p with
      | .refused m' a => if m' = m ∧ r = .answer a then some .out else none
      | .over m' a ev => if m' = m ∧ displaced a ev = false ∧ r = verdict ev then some .out else none
      | _ => none
  | _ => some p

/-- A whole log; `none` if a blocking method returned something else. -/
def owed (t : Nat) (log : List Entry) : Option Owed := log.foldlM (owe t) .out

/-- Only thread `t` uses blocking methods, and never `otaa` with a timeout. -/
def SoleUser (t : Nat) : Act → Prop
  | .call u m => blocking m = true → u = t ∧ m ≠ .otaa true
  | _ => True

end Mbed
end Spec
end LDL
