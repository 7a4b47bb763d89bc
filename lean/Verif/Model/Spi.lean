import Verif.Model.Chip

/-!
# Model of wrappers/mbed/spi_radio.cpp and of the bus part of wrappers/mbed/wl55.cpp

Any number of radios, numbered, may share one `SPI` object; each is used by a thread of its own (`Device` has a worker
thread per device).  The model is an interleaving of the threads.  A step is one operation on the mutex of the bus, on a
chip select line, or one transfer, or one pass of the polling loop.  Times are microseconds; every step has the time at
which it happens.  `spi.frequency` and `spi.format` (wrappers/mbed/spi_radio.cpp:134-135) are not modelled.
-/

namespace LDL
namespace Spi

/-- The arguments of `chip_write` and `chip_read` (wrappers/mbed/spi_radio.cpp:145-146, 179-180). -/
inductive Access
  | write (opcode data : Bytes)
  | read (opcode : Bytes) (size : Nat)
deriving Repr, DecidableEq

/-- The bytes written before the payload. -/
def Access.opcode : Access → Bytes
  | .write o _ => o
  | .read o _ => o

/-- What happens on the wires. -/
inductive Line
  /-- chip select line of a radio to low (selected) or high -/
  | nss (radio : Nat) (low : Bool) (now : Nat)
  /-- the busy line of a radio is sampled -/
  | sample (radio : Nat) (busy : Bool) (now : Nat)
  /-- bytes are clocked out -/
  | out (b : Bytes)
  /-- bytes are clocked in -/
  | inp (n : Nat)
deriving Repr, DecidableEq

/-- Where a thread is in `chip_write` or `chip_read` (wrappers/mbed/spi_radio.cpp:145-177, 179-211): the statement it will
execute next.  `started` is the time of `timer.reset()`. -/
inductive Phase
  | out
  /-- at `spi.lock()` -/
  | lock (a : Access) (started : Nat)
  /-- at `nss = 0` -/
  | select (a : Access) (started : Nat)
  /-- at the head of the loop -/
  | poll (a : Access) (started : Nat)
  /-- at the first `spi.write` -/
  | opcode (a : Access) (started : Nat)
  /-- at the second `spi.write` -/
  | payload (a : Access) (started : Nat)
  /-- at `nss = 1` -/
  | deselect (a : Access) (started : Nat) (retval : Bool)
  /-- at `spi.unlock()` -/
  | unlock (a : Access) (started : Nat) (retval : Bool)
deriving Repr, DecidableEq

/-- A call that returned. -/
structure Result where
  radio : Nat
  access : Access
  started : Nat
  retval : Bool
deriving Repr, DecidableEq

/-- The bus and its users.  `log` and `results` record what happened. -/
structure Bus where
  /-- holder of the mutex -/
  owner : Option Nat := none
  phase : Nat → Phase := fun _ => .out
  log : List Line := []
  results : List Result := []

/-- What a thread does next: call `chip_write` or `chip_read`, or go on with the call it is in.  `busy1` and `busy2` are
the levels of the busy line at the two reads in one pass (wrappers/mbed/spi_radio.cpp:156, 190); the busy line of a
radio without one reads as low. -/
inductive Act
  | call (a : Access)
  | go (busy1 busy2 : Bool)
deriving Repr, DecidableEq

/-- The thread of radio `i` continues at `p`. -/
def Bus.at (s : Bus) (i : Nat) (p : Phase) : Bus := { s with phase := fun j => if j = i then p else s.phase j }

/-- Something happens on the wires. -/
def Bus.emit (s : Bus) (l : List Line) : Bus := { s with log := s.log ++ l }

/-- The second transfer (wrappers/mbed/spi_radio.cpp:160, 194). -/
def transfer : Access → Line
  | .write _ d => .out d
  | .read _ n => .inp n

/-- One pass of the loop (wrappers/mbed/spi_radio.cpp:154-172, 188-206).  A second is 1000000 us. -/
def Bus.pass (s : Bus) (i : Nat) (a : Access) (started now : Nat) (busy1 busy2 : Bool) : Bus :=
  if busy1 = false ∨ busy2 = false then (s.emit [.sample i false now]).at i (.opcode a started)
  else if now - started > 1000000 then (s.emit [.sample i true now]).at i (.deselect a started false)
  else s.emit [.sample i true now]

/-- The thread of radio `i` goes on (wrappers/mbed/spi_radio.cpp:128-211).  At `spi.lock()` it waits while the mutex is
held. -/
def Bus.go (s : Bus) (i : Nat) (busy1 busy2 : Bool) (now : Nat) : Bus :=
  match s.phase i with
  | .out => s
  | .lock a t => if s.owner = none then Bus.at { s with owner := some i } i (.select a t) else s
  | .select a t => (s.emit [.nss i true now]).at i (.poll a t)
  | .poll a t => s.pass i a t now busy1 busy2
  | .opcode a t => (s.emit [.out a.opcode]).at i (.payload a t)
  | .payload a t => (s.emit [transfer a]).at i (.deselect a t true)
  | .deselect a t r => (s.emit [.nss i false now]).at i (.unlock a t r)
  | .unlock a t r => Bus.at { s with owner := none, results := s.results ++ [⟨i, a, t, r⟩] } i .out

/-- One step of the thread of radio `i`.  A call starts with `timer.reset()` (wrappers/mbed/spi_radio.cpp:150, 184). -/
def Bus.step (s : Bus) (i : Nat) (now : Nat) : Act → Bus
  | .call a => match s.phase i with
    | .out => s.at i (.lock a now)
    | _ => s
  | .go b1 b2 => s.go i b1 b2 now

/-- Several steps: radio, time and action of each. -/
def Bus.run (s : Bus) : List (Nat × Nat × Act) → Bus
  | [] => s
  | (i, now, act) :: rest => (s.step i now act).run rest

/-! ### Bus clock of the WL55 -/

/-- The loop of `get_prescale` (wrappers/mbed/wl55.cpp:141-149) with `n` rounds to go: rounds made before it was left. -/
def prescaleLoop (hz : Nat) : Nat → Nat → Nat
  | 0, _ => 0
  | n + 1, spi => if spi >>> 1 ≤ hz then 0 else prescaleLoop hz n (spi >>> 1) + 1

/-- The index `get_prescale` (wrappers/mbed/wl55.cpp:123-152) reads the table of eight divisors 2, 4, 8, ... 256 with. -/
def prescaleIndex (clock hz : Nat) : Nat := prescaleLoop hz 8 clock

end Spi
end LDL
