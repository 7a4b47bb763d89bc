/-!
# Time on air of a LoRa packet, from the SX1272/SX1276 data sheet (4.1.1.7)

Coding rate 4/5, eight preamble symbols, CRC optional, header explicit or implicit.
-/

namespace LDL
namespace Spec

/-- Low data rate optimisation is required when a symbol lasts more than 16 ms. -/
def lowDataRate (bwHz sf : Nat) : Bool := decide (2 ^ sf * 1000 > 16 * bwHz)

/-- Payload symbols: `8 + max(ceil((8 PL - 4 SF + 28 + 16 CRC - 20 IH) / (4 (SF - 2 DE))) (CR + 4), 0)`. -/
def payloadSymbols (bwHz sf bytes : Nat) (crc implicitHeader : Bool) : Nat :=
  let bits := (8 * bytes + 28 + (if crc then 16 else 0)) - (4 * sf + (if implicitHeader then 20 else 0))
  let perBlock := 4 * (sf - (if lowDataRate bwHz sf then 2 else 0))
  8 + (bits + perBlock - 1) / perBlock * 5

/-- Time on air in quarter symbols: 12.25 symbols of preamble, then the payload. -/
def quarterSymbols (bwHz sf bytes : Nat) (crc implicitHeader : Bool) : Nat :=
  49 + 4 * payloadSymbols bwHz sf bytes crc implicitHeader

/-- `AirTimeAtMost bw sf ... us`: the packet lasts at most `us` microseconds, i.e.
`quarters / 4 * 2^SF / BW * 10^6 ≤ us`. -/
def AirTimeAtMost (bwHz sf bytes : Nat) (crc implicitHeader : Bool) (us : Nat) : Prop :=
  quarterSymbols bwHz sf bytes crc implicitHeader * 2 ^ sf * 1000000 ≤ us * (4 * bwHz)

end Spec
end LDL
