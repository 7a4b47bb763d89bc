import Verif.Model.Basic

/-!
# Model of the arithmetic in src/ldl_radio.c and of include/ldl_radio_defs.h

The MAC talks to the radio drivers through an interface whose calls are recorded as events (Model/State.lean); the
driver for the SX1272 and SX1276 is in Model/Sx127x.lean.
-/

namespace LDL

/-- `enum ldl_signal_bandwidth` (include/ldl_radio_defs.h:45-49). -/
inductive Bw | b125 | b250 | b500
deriving Repr, DecidableEq

/-- `LDL_Radio_bwToNumber` (src/ldl_radio.c:177-195). -/
def bwToNumber : Bw → Nat
  | .b125 => 125000
  | .b250 => 250000
  | .b500 => 500000

/-- `LDL_Radio_getMinSNR` (src/ldl_radio.c:90-118).  The spreading factor (7..12,
include/ldl_radio_defs.h:35-42) is a number. -/
def getMinSNR (sf : Nat) : Int :=
  if sf = 8 then -1000
  else if sf = 9 then -1250
  else if sf = 10 then -1500
  else if sf = 11 then -1750
  else if sf = 12 then -2000
  else -750

/-- `LDL_Radio_getAirTime` (src/ldl_radio.c:120-175).  All arithmetic is `uint32_t`; `numerator` can wrap
below zero.  `LDL_CR_5` is 1, `header` is always true. -/
def getAirTime (bw : Bw) (sf size : Nat) (crc : Bool) : Nat :=
  let lowDataRateOptimize := decide (bw = .b125 ∧ (sf = 11 ∨ sf = 12))
  let Ts := u32 ((1 <<< sf) * 1000000) / bwToNumber bw
  let Tpreamble := u32 (Ts * 12 + Ts / 4)
  let numerator := sub32 (u32 (sub32 (8 * size) (4 * sf) + 28 + (if crc then 16 else 0))) 20
  let denom := 4 * (sf - (if lowDataRateOptimize then 2 else 0))
  let Npayload := u32 (8 + (numerator / denom + (if numerator % denom ≠ 0 then 1 else 0)) * (1 + 4))
  let Tpayload := u32 (Npayload * Ts)
  let Tpacket := u32 (Tpreamble + Tpayload)
  Tpacket / 1000 + 1

end LDL
