import Verif.Model.Chip

/-!
# The reset line of the mbed wrapper (wrappers/mbed/sx126x.cpp, wrappers/mbed/sx127x.cpp, wrappers/mbed/wl55.cpp)
-/

namespace LDL.MbedReset

/-- The pin connected to the reset line, a `DigitalInOut`: the level it has as an output, and whether it is one. -/
structure Pin where
  value : Bool
  output : Bool := false
deriving Repr, DecidableEq

/-- `reset(reset, PIN_INPUT, PullNone, 0)` (wrappers/mbed/sx126x.cpp:52). -/
def pin126 : Pin := { value := false }

/-- `reset(reset, PIN_INPUT, PullNone, 1)` (wrappers/mbed/sx127x.cpp:52), for the SX1272 and the SX1276. -/
def pin127 : Pin := { value := true }

/-- `SX126X::chip_set_mode`, `SX127X::chip_set_mode` (wrappers/mbed/sx126x.cpp:94-112, wrappers/mbed/sx127x.cpp:93-111) and
the reset of `WL55::chip_set_mode` (wrappers/mbed/wl55.cpp:411-436), which is a bit in a register of the microcontroller:
for that `value` is 1 and `output` the bit. -/
def chipSetMode (p : Pin) : ChipMode → Pin
  | .reset => { p with output := true }
  | .sleep => { p with output := false }
  | .standby | .rx | .txRfo | .txBoost => p

end LDL.MbedReset
