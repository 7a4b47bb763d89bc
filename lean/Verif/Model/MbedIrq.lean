import Verif.Model.Chip

/-!
# Interrupt handlers of the mbed wrapper (wrappers/mbed/wl55.cpp, wrappers/mbed/sx126x.cpp, wrappers/mbed/sx127x.cpp)

On the STM32WL55 the radio is inside the microcontroller: its interrupt is a level at an input of the interrupt
controller, and the wrapper silences it by switching the input off.  The SX1261 and SX1262 are outside: their DIO1 is a
pin of the microcontroller and the wrapper is called at its rising edge.  So are DIO0 and DIO1 of the SX1272 and
SX1276.
-/

namespace LDL.MbedIrq

/-- The input of the interrupt controller the radio of the STM32WL55 is connected to (`SUBGHZ_Radio_IRQn`), and how often
its handler has called the event handler of the MAC. -/
structure Nvic where
  enabled : Bool := false
  pending : Bool := false
  calls : Nat := 0
deriving Repr, DecidableEq

/-- `enable_irq` (wrappers/mbed/wl55.cpp:47-55).  Clearing an input that is still active has no effect, see
`LDL.Spec.Irq.Wl.op`. -/
def enableIrq (n : Nvic) : Nvic := { n with enabled := true, pending := false }

/-- `disable_irq` (wrappers/mbed/wl55.cpp:57-60). -/
def disableIrq (n : Nvic) : Nvic := { n with enabled := false }

/-- `WL55::_handle_irq` (wrappers/mbed/wl55.cpp:223-232).  The event handler of the MAC is called through
`LDL_Radio_handleInterrupt` (src/ldl_radio.c:78-88) and `_interrupt_handler` (wrappers/mbed/wl55.cpp:282-289);
`instance` and the callbacks are taken to be set. -/
def handleIrq (n : Nvic) : Nvic := disableIrq { n with calls := n.calls + 1 }

/-- `WL55::chip_set_mode` (wrappers/mbed/wl55.cpp:411-436) as far as the interrupt goes: the reset line is part of the
chip. -/
def chipSetMode (n : Nvic) : ChipMode → Nvic
  | .rx | .txRfo | .txBoost => enableIrq n
  | .reset | .sleep | .standby => n

/-- `SX126X::dio1_handler` (wrappers/mbed/sx126x.cpp:116-120): how often the event handler of the MAC has been called. -/
def dio1Handler (calls : Nat) : Nat := calls + 1

/-- `SX127X::dio0_handler` (wrappers/mbed/sx127x.cpp:79, 115-119). -/
def dio0Handler127 (calls : Nat) : Nat := calls + 1

/-- `SX127X::dio1_handler` (wrappers/mbed/sx127x.cpp:80, 121-125). -/
def dio1Handler127 (calls : Nat) : Nat := calls + 1

end LDL.MbedIrq
