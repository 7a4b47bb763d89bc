import Verif.Model.Data

/-!
# Model of wrappers/mbed: what the wrapper stores, and the blocking, thread-safe `Device`

`Device` (wrappers/mbed/device.cpp) gives any number of threads access to one MAC.  Each method posts a request to an
event queue, wakes a worker thread and waits; only the worker, and the radio interrupt, call the MAC.  The model is an
interleaving of the threads, the worker, the wake-up timer and the interrupt.  A step is one operation on a semaphore,
on the queue, on the event flags or on the MAC; the flags raised during one MAC call are raised in one step with the call.

Primitives of the operating system, as documented: a semaphore is a counter, limited to 65535; `EventFlags::wait_any`
returns all flags that are set, and then clears those waited for; a wait until `time_point::max()` does not time out;
`EventQueue::dispatch(0)` runs the events posted so far.  A thread that may go on need not do so at once.
The queue has room for the requests: there is never more than one.
Callbacks to the application (`cb_mutex`, wrappers/mbed/device.cpp:266-293, 316-323), `sleep_manager` and
debug output are not modelled.
-/

namespace LDL
namespace Mbed

/-! ## wrappers/mbed/mac.cpp: storage -/

/-- What a `Store` keeps: `init_params` without the identifiers (wrappers/mbed/store.h:34-40) and the session.  A session
of another size (another build of the library) is no session (wrappers/mbed/mac.cpp:140). -/
structure Kept where
  devNonce : Nat := 0
  joinNonce : Nat := 0
  session : Option Session := none

/-- `MAC::app_handler` (wrappers/mbed/mac.cpp:65-88).  The argument of `save_next_dev_nonce` is a `uint16_t`
(wrappers/mbed/store.h:72). -/
def Kept.save (k : Kept) : Event → Kept
  | .devNonceUpdated x => { k with devNonce := u16 x }
  | .joinComplete x _ _ => { k with joinNonce := x }
  | .sessionUpdated s => { k with session := some s }
  | _ => k

/-- The arguments `MAC::start` gives to `LDL_MAC_init` (wrappers/mbed/mac.cpp:103-149).  Keys are with the security
module. -/
def Kept.arg (k : Kept) (joinEUI devEUI appKey nwkKey : Bytes) : InitArg :=
  { session := k.session, joinEUI := joinEUI, devEUI := devEUI, devNonce := k.devNonce, joinNonce := k.joinNonce
    appKey := appKey, nwkKey := nwkKey }

/-! ## wrappers/mbed/device.cpp -/

/-- The public methods of `Device` (wrappers/mbed/_device.h:133-380).  `otaa` may be given a timeout; `data` is
`unconfirmed` and `confirmed`. -/
inductive Method
  | otaa (limited : Bool)
  | data (confirmed : Bool) (port : Nat) (payload : Option Bytes) (len : Nat) (opts : Option DataOpts)
  | entropy
  | abp (devAddr : Nat)
  | forget
  | cancel
  | setRate (value : Nat)
  | setPower (value : Nat)
  | setADR (value : Bool)
  | setMaxDCycle (value : Nat)
  | getRate
  | getPower
  | getADR
  | getMaxDCycle
  | joined
  | ready
  | getFPending
  | getAckPending
deriving DecidableEq

deriving instance DecidableEq for Call

/-- What is posted to the queue: one of the `do_` methods (wrappers/mbed/device.cpp:98-252). -/
inductive Req
  /-- a function returning a status -/
  | status (c : Call)
  /-- a function returning nothing -/
  | void (c : Call)
  /-- a getter -/
  | rate | power | adr | maxDCycle | joined | ready | fPending | ackPending
deriving DecidableEq

/-- What a `do_` method leaves in `*retval`. -/
inductive Answer
  | status (s : Status)
  | num (n : Nat)
  | flag (b : Bool)
  | unit
deriving DecidableEq, Repr

/-- What a method of `Device` returns.  `undefined` is the contents of an uninitialised variable. -/
inductive Result
  | answer (a : Answer)
  /-- `LDL_STATUS_OK` of `entropy`, with the value -/
  | value (n : Nat)
  | cancelled
  | noAck
  | timeout
  | error
  | undefined
deriving DecidableEq, Repr

/-- The request a method posts (wrappers/mbed/device.cpp:364, 488, 530, 574, 607-729 and the `do_` methods they name).
`do_cancel` calls `mac.forget()` (wrappers/mbed/device.cpp:156-161). -/
def Method.req : Method → Req
  | .otaa _ => .status .otaa
  | .data c p d l o => .status (.data c p d l o)
  | .entropy => .status .entropy
  | .abp a => .status (.abp a)
  | .forget => .void .forget
  | .cancel => .void .forget
  | .setRate v => .status (.setRate v)
  | .setPower v => .status (.setPower v)
  | .setADR v => .void (.setADR v)
  | .setMaxDCycle v => .void (.setMaxDCycle v)
  | .getRate => .rate
  | .getPower => .power
  | .getADR => .adr
  | .getMaxDCycle => .maxDCycle
  | .joined => .joined
  | .ready => .ready
  | .getFPending => .fPending
  | .getAckPending => .ackPending

/-- The call of the MAC in a `do_` method (wrappers/mbed/device.cpp:98-252, wrappers/mbed/mac.cpp:151-277); the getters
are src/ldl_mac.c:387-390, 610-615, 639-644, 655-674, 754-759 and 944-956. -/
def exec (cfg : Cfg) (e : Env) (m : Mac) : Req → Mac × Answer
  | .status c => ((step cfg m e c).1, .status (step cfg m e c).2)
  | .void c => ((step cfg m e c).1, .unit)
  | .rate => (m, .num m.ctx.rate)
  | .power => (m, .num m.ctx.power)
  | .adr => (m, .flag m.ctx.adr)
  | .maxDCycle => (m, .num m.ctx.maxDutyCycle)
  | .joined => (m, .flag m.ctx.joined)
  | .ready => (m, .flag (LDL.ready m))
  | .fPending => (m, .flag m.fPending)
  | .ackPending => (m, .flag m.pendingACK)

/-- Where a thread is in a method.  `late` is the call of `forget()` at the end of `otaa` (wrappers/mbed/device.cpp:515). -/
inductive Pc
  | idle
  /-- `data_semaphore.try_acquire_until` (wrappers/mbed/device.cpp:342) -/
  | tryData (m : Method)
  /-- `queue_semaphore.acquire` -/
  | enter (m : Method) (late : Bool)
  /-- `event.call` -/
  | post (m : Method) (late : Bool)
  /-- `work_semaphore.release` -/
  | kick (m : Method) (late : Bool)
  /-- `status_semaphore.acquire` -/
  | await (m : Method) (late : Bool)
  /-- `queue_semaphore.release` -/
  | leave (m : Method) (late : Bool)
  /-- `op_flags.wait_any` or `op_flags.wait_any_until` -/
  | outcome (m : Method)
  /-- `band_flags.wait_any_until` (wrappers/mbed/device.cpp:423) -/
  | band (m : Method)
  /-- `data_semaphore.release` (wrappers/mbed/device.cpp:436) -/
  | quit (m : Method) (r : Result)
deriving DecidableEq

/-- A thread: where it is, and its variable `retval`. -/
structure Thread where
  pc : Pc := .idle
  retval : Option Answer := none

/-- Where the worker is (wrappers/mbed/device.cpp:50-95, and the `do_` methods). -/
inductive Worker
  /-- `work_semaphore.acquire` -/
  | waiting
  /-- `mac.process` -/
  | process
  /-- `mac.ticks_until_next_event` in the inner loop -/
  | check
  /-- `event.dispatch`: taking the events posted -/
  | collect
  /-- `event.dispatch`: running them -/
  | run (jobs : List (Nat × Req))
  /-- after the call of the MAC: clearing flags -/
  | clear (r : Req) (a : Answer) (jobs : List (Nat × Req))
  /-- `status_semaphore.release` -/
  | answer (jobs : List (Nat × Req))
  /-- `mac.ticks_until_next_event` after the events, and the timer -/
  | rearm
deriving DecidableEq

/-- What happened, for stating properties: calls and returns of methods, and calls and events of the MAC. -/
inductive Entry
  | called (t : Nat) (m : Method)
  | returned (t : Nat) (m : Method) (r : Result)
  | executed (t : Nat) (r : Req) (e : Env) (a : Answer)
  | processed (e : Env)
  | interrupted (e : Env)
  | event (ev : Event)

/-- `Device` (wrappers/mbed/_device.h:43-73) and the threads using it.  `timer` is whether `timeout` is attached. -/
structure Sys where
  mac : Mac
  threads : Nat → Thread := fun _ => {}
  worker : Worker := .waiting
  queue : List (Nat × Req) := []
  work : Nat := 0
  status : Nat := 0
  queueSem : Nat := 1
  dataSem : Nat := 1
  timer : Bool := false
  opFlags : Nat := 0
  bandFlags : Nat := 0
  entropyValue : Nat := 0
  log : List Entry := []

/-- `Semaphore::release`: the count is limited. -/
def release (n : Nat) : Nat := min (n + 1) 65535

/-- `1 << type` for the events with a flag (include/ldl_mac.h:77-126, wrappers/mbed/device.cpp:300-313). -/
def flagOf : Event → Nat
  | .entropy _ => 1
  | .opError => 4
  | .opCancelled => 8
  | .joinComplete .. => 16
  | .joinExhausted => 64
  | .dataComplete => 128
  | .dataTimeout => 256
  | _ => 0

/-- `Device::handle_mac_event` (wrappers/mbed/device.cpp:254-324) without the callbacks. -/
def Sys.handle (s : Sys) (ev : Event) : Sys :=
  { s with
    opFlags := s.opFlags ||| flagOf ev
    bandFlags := match ev with | .channelReady => s.bandFlags ||| 1 | _ => s.bandFlags
    entropyValue := match ev with | .entropy v => v | _ => s.entropyValue
    log := s.log ++ [.event ev] }

/-- A call of the MAC: its new state, and its events. -/
def Sys.mac_ (s : Sys) (m : Mac) (x : Entry) : Sys :=
  (m.out.drop s.mac.out.length).foldl Sys.handle { s with mac := m, log := s.log ++ [x] }

/-- Change one thread. -/
def Sys.setPc (s : Sys) (t : Nat) (pc : Pc) : Sys :=
  { s with threads := upd s.threads t { s.threads t with pc := pc } }

/-- A method returns. -/
def Sys.ret (s : Sys) (t : Nat) (m : Method) (r : Result) : Sys :=
  { s.setPc t .idle with log := s.log ++ [.returned t m r] }

/-- The flags cleared by a `do_` method (wrappers/mbed/device.cpp:110-119 and 129-135). -/
def Sys.clearFlags (s : Sys) (r : Req) (a : Answer) : Sys :=
  match r, a with
  | .status (.data ..), .status .ok => { s with opFlags := 0 }
  | .status (.data ..), .status .noChannel => { s with bandFlags := 0 }
  | .status .otaa, .status .ok => { s with opFlags := 0 }
  | _, _ => s

/-- `Device::worker` (wrappers/mbed/device.cpp:50-95): one step; `none` when it has to wait. -/
def Sys.workerStep (cfg : Cfg) (s : Sys) (e : Env) : Option Sys :=
  match s.worker with
  | .waiting => if s.work > 0 then some { s with work := s.work - 1, worker := .process } else none
  | .process => some { s.mac_ (LDL.process cfg e s.mac) (.processed e) with worker := .check }
  | .check => some { s with worker := if ticksUntilNextEvent e s.mac = 0 then .process else .collect }
  | .collect => some { s with worker := .run s.queue, queue := [] }
  | .run [] => some { s with worker := .rearm }
  | .run ((t, r) :: l) =>
    let a := (exec cfg e s.mac r).2
    let s' := s.mac_ (exec cfg e s.mac r).1 (.executed t r e a)
    some { s' with
      worker := .clear r a l
      threads := upd s'.threads t { s'.threads t with retval := some a } }
  | .clear r a l => some { s.clearFlags r a with worker := .answer l }
  | .answer l => some { s with worker := .run l, status := release s.status }
  | .rearm =>
    if ticksUntilNextEvent e s.mac = 0 then some { s with worker := .waiting, work := release s.work }
    else some { s with worker := .waiting, timer := decide (ticksUntilNextEvent e s.mac < UINT32_MAX) }

/-- What `otaa`, `entropy` and `data_service` wait for (wrappers/mbed/device.cpp:375-380, 400-405, 498-503,
584-588). -/
def Method.mask : Method → Nat
  | .otaa _ => 16 ||| 8 ||| 64
  | .entropy => 1 ||| 4 ||| 8
  | _ => 128 ||| 256 ||| 8 ||| 4

/-- What a thread does next. -/
inductive Next
  | finish (r : Result)
  | again
  | giveUp

/-- What is made of the flags: `otaa` (wrappers/mbed/device.cpp:505-518), `entropy` (wrappers/mbed/device.cpp:590-601)
and `data_service` after `LDL_STATUS_OK` and after `LDL_STATUS_MACPRIORITY` (wrappers/mbed/device.cpp:382-395 and
407-418). -/
def Method.judge (m : Method) (retval : Option Answer) (flags entropyValue : Nat) : Next :=
  match m with
  | .otaa _ =>
    if flags = 16 then .finish (.answer (.status .ok))
    else if flags = 8 then .finish .cancelled
    else if flags = 64 then .finish (.answer (.status .devNonce))
    else .giveUp
  | .entropy =>
    if flags = 1 then .finish (.value entropyValue)
    else if flags = 8 then .finish .cancelled
    else .finish .error
  | _ =>
    if retval = some (.status .macPriority) then
      if flags = 128 then .again
      else if flags = 8 then .finish .cancelled
      else .finish .error
    else
      if flags = 128 then .finish (.answer (.status .ok))
      else if flags = 256 then .finish .noAck
      else if flags = 8 then .finish .cancelled
      else .finish .error

/-- Where a method goes once it has its answer (wrappers/mbed/device.cpp:372-432, 496, 582). -/
def Method.after (m : Method) (retval : Option Answer) : Pc :=
  let r := match retval with | some a => Result.answer a | none => .undefined
  match m with
  | .otaa _ | .entropy => if retval = some (.status .ok) then .outcome m else .quit m r
  | .data .. =>
    if retval = some (.status .ok) ∨ retval = some (.status .macPriority) then .outcome m
    else if retval = some (.status .noChannel) then .band m
    else .quit m r
  | _ => .quit m r

/-- Whether a method is a data service, which holds `data_semaphore`. -/
def Method.isData : Method → Bool
  | .data .. => true
  | _ => false

/-- Go to a place; a method without `data_semaphore` returns at once. -/
def Sys.goto (s : Sys) (t : Nat) (m : Method) (pc : Pc) : Sys :=
  match pc with
  | .quit _ r => if m.isData then s.setPc t pc else s.ret t m r
  | _ => s.setPc t pc

/-- One step of a thread inside a method; `none` when it has to wait.
`accessor` (wrappers/mbed/_device.h:118-131), `Device::data_service` (wrappers/mbed/device.cpp:332-444), `Device::otaa`
(wrappers/mbed/device.cpp:465-521), `Device::entropy` (wrappers/mbed/device.cpp:564-605).  `ready_before` is the start
of time when `try_acquire_until` is called, which therefore does not wait.  The timeout of `data_service` is always
`max`. -/
def Sys.threadStep (s : Sys) (t : Nat) : Option Sys :=
  match (s.threads t).pc with
  | .idle => none
  | .tryData m =>
    if s.dataSem > 0 then some { s.setPc t (.enter m false) with dataSem := s.dataSem - 1 }
    else some (s.ret t m .timeout)
  | .enter m late =>
    if s.queueSem > 0 then some { s.setPc t (.post m late) with queueSem := s.queueSem - 1 } else none
  | .post m late =>
    some { s.setPc t (.kick m late) with queue := s.queue ++ [(t, if late then .void .forget else m.req)] }
  | .kick m late => some { s.setPc t (.await m late) with work := release s.work }
  | .await m late =>
    if s.status > 0 then some { s.setPc t (.leave m late) with status := s.status - 1 } else none
  | .leave m late =>
    let s := { s with queueSem := release s.queueSem }
    if late then some (s.ret t m .timeout) else some (s.goto t m (m.after (s.threads t).retval))
  | .outcome m =>
    if s.opFlags &&& m.mask ≠ 0 then
      let next := m.judge (s.threads t).retval s.opFlags s.entropyValue
      let s := { s with opFlags := s.opFlags &&& (4294967295 ^^^ m.mask) }
      match next with
      | .finish r => some (s.goto t m (.quit m r))
      | .again => some (s.setPc t (.enter m false))
      | .giveUp => some (s.setPc t (.enter m true))
    else none
  | .band m =>
    if s.bandFlags ≠ 0 then
      some ({ s with bandFlags := 0 }.goto t m (.quit m (.answer (.status .noChannel))))
    else none
  | .quit m r => some ({ s with dataSem := release s.dataSem }.ret t m r)

/-- The timeout of `otaa` passes: `wait_any_until` returns none of the flags (wrappers/mbed/device.cpp:498-517). -/
def Sys.expire (s : Sys) (t : Nat) : Option Sys :=
  match (s.threads t).pc with
  | .outcome (.otaa true) => some (s.setPc t (.enter (.otaa true) true))
  | _ => none

/-- What can happen next. -/
inductive Act
  /-- a thread that is not in a method calls one -/
  | call (t : Nat) (m : Method)
  /-- a thread in a method goes on -/
  | thread (t : Nat)
  /-- a timeout passes -/
  | expire (t : Nat)
  /-- the worker goes on -/
  | worker (e : Env)
  /-- the wake-up timer: `Device::do_work` (wrappers/mbed/device.cpp:44-48) -/
  | timer
  /-- the radio interrupt: `MAC::handle_radio_event` (wrappers/mbed/mac.cpp:92-101) and `Device::handle_wakeup`
  (wrappers/mbed/device.cpp:326-330) -/
  | radio (e : Env)

/-- One step; `none` when it cannot happen. -/
def Sys.act (cfg : Cfg) (s : Sys) : Act → Option Sys
  | .call t m =>
    if (s.threads t).pc = .idle then
      some { s with
        threads := upd s.threads t { pc := if m.isData then .tryData m else .enter m false, retval := none }
        log := s.log ++ [.called t m] }
    else none
  | .thread t => s.threadStep t
  | .expire t => s.expire t
  | .worker e => s.workerStep cfg e
  | .timer => if s.timer then some { s with timer := false, work := release s.work } else none
  | .radio e =>
    some { s.mac_ (step cfg s.mac e (.radioEvent e.ticks)).1 (.interrupted e) with work := release s.work }

/-- `Device::start` (wrappers/mbed/device.cpp:448-463) on a new device. -/
def Sys.start (cfg : Cfg) (region : Region) (arg : InitArg) (e : Env) : Sys :=
  { mac := init cfg region arg e, work := 1 }

end Mbed
end LDL
